import Verif.Proofs.ChineseGrammar
import Verif.Props.ChineseDigits
import Verif.Props.Language

/-!
# Property C74: exactly which texts are Chinese numerals

Vocabulary: `Verif/Spec/ChineseGrammar.lean`.
-/

namespace Nominals.Props

open Nominals.Spec

/-- C74. The texts returned for the positive numbers below `sizeBound` are exactly those the grammar generates (that the build can hold), in
every scale, formality and character set; informal numerals say 十 instead of 一十 at the beginning. -/
theorem C74_grammar {cfg : Cfg} {T : IntTy} {k : ChineseKind} {o : ChineseOptions} {size : Nat}
    (hb : sizeBound o.scale size ≤ 2 ^ T.bits cfg) (hs : o.scale = .short → size ≤ 15) {t : List Char} :
    (∃ n i, n ≠ 0 ∧ n < sizeBound o.scale size ∧ view (tryToNominal cfg T n (Named.chinese k o).system) = .ok (t, i)) ↔
      ∃ ts, WellFormed o.scale size ts ∧ Holds cfg t ∧
        t = (if isFormal k then ts else dropLeadingOne ts).map (chineseGlyph (isTraditional k) (o.usage = .financial)) := by
  have h128 : sizeBound o.scale size ≤ 2 ^ 128 :=
    Nat.le_trans hb (Nat.pow_le_pow_right (by omega) (by cases T <;> simp [IntTy.bits]; cases cfg.ptr <;> simp [PtrWidth.bits]))
  have htok : ∀ n, n ≠ 0 → chineseTokens (isFormal k) o.scale n =
      if isFormal k then chineseTokens true o.scale n else dropLeadingOne (chineseTokens true o.scale n) := by
    intro n h0
    unfold chineseTokens
    cases isFormal k <;> simp [h0]
  have hview : ∀ n, n < sizeBound o.scale size →
      view (tryToNominal cfg T n (Named.chinese k o).system) = deliver cfg.alloc n (chineseText k o n) := by
    intro n hn
    rw [C51_catalogue _ (show T.Fits cfg n from Nat.lt_of_lt_of_le hn hb)]
    show present cfg.alloc n (if o.scale = .short ∧ 10 ^ 15 ≤ n then Answer.outOfBounds else .text (chineseText k o n)) = _
    rw [if_neg]
    · rfl
    · rintro ⟨e, h⟩
      rw [e] at hn hs
      have : 10 ^ size ≤ 10 ^ 15 := Nat.pow_le_pow_right (by omega) (hs rfl)
      have : n < 10 ^ size := hn
      omega
  constructor
  · rintro ⟨n, i, h0, hn, h⟩
    rw [hview n hn] at h
    obtain ⟨e, hh⟩ := deliver_ok_iff.mp ⟨i, h⟩
    exact ⟨_, (wellFormed_iff h128 hs).mpr ⟨n, h0, hn, rfl⟩, hh, by rw [e, chineseText, htok n h0]⟩
  · rintro ⟨ts, hw, hh, e⟩
    obtain ⟨n, h0, hn, rfl⟩ := (wellFormed_iff h128 hs).mp hw
    rw [← htok n h0] at e
    obtain ⟨i, h⟩ := deliver_ok_iff (cfg := cfg) (n := n) (x := chineseText k o n).mpr ⟨e, hh⟩
    exact ⟨n, i, h0, hn, by rw [hview n hn, h]⟩

/-- 三萬零二十億 is not a numeral of the myriad scale but of the mid scale: two groups may stand before 億. -/
example : Grouped (multiplier .mid) 2 false [.num 3, .large 0, .zero, .num 2, .ten, .large 1] :=
  .unit 1 false [.num 3, .large 0, .zero, .num 2, .ten]
    (.gap 0 false [.num 3] [.num 2, .ten] (.group 0 _ (by decide) (.bare 0 3 (by decide) (by decide)))
      (.group 1 _ (by decide) (.bare 1 2 (by decide) (by decide))))

/-- The bounds are met: 10^16 by `u64` in the myriad scale with the units 萬, 億, 兆, 10^15 in the short scale. -/
example : sizeBound .myriad 3 ≤ 2 ^ IntTy.u64.bits ⟨true, .w32, true⟩ ∧ sizeBound .short 15 ≤ 2 ^ IntTy.u64.bits ⟨true, .w32, true⟩ := by decide

/-- 一萬零一百 and 一萬一千 are numerals of the myriad scale. -/
example : WellFormed .myriad 1 [.num 1, .large 0, .zero, .num 1, .hundred] ∧ WellFormed .myriad 1 [.num 1, .large 0, .num 1, .thousand] :=
  ⟨⟨_, .gap 0 _ [.num 1] _ (.group 0 _ (by decide) (.bare 0 1 (by decide) (by decide))) (.group 2 _ (by decide) (.bare 2 1 (by decide) (by decide)))⟩,
    ⟨_, .next 0 _ [.num 1] _ (.group 0 _ (by decide) (.bare 0 1 (by decide) (by decide))) (.group 3 _ (by decide) (.bare 3 1 (by decide) (by decide)))⟩⟩

/-- 一萬一百 (without 零) is not: 10,100 has another text. -/
example : ¬ WellFormed .myriad 1 [.num 1, .large 0, .num 1, .hundred] := by
  rw [wellFormed_iff (by decide) (by decide)]
  rintro ⟨n, h0, hn, h⟩
  have hr := read_chineseTokens true .myriad n
  rw [← h] at hr
  have e : n = 10100 := by
    rw [← hr]; decide +kernel
  subst e
  rw [tokens_flat ⟨by decide, by simp⟩ h0] at h
  revert h
  decide +kernel

end Nominals.Props
