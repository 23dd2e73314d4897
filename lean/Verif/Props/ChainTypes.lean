import Verif.Props.Collections
import Verif.Props.Unique

/-!
# Property C61 for whole chains of collections: the integer type does not matter

Vocabulary: `Verif/Spec/Collections.lean`; `Ends` (`Props/Collections.lean`) says that formatting ends with an outcome.
-/

namespace Nominals.Props

open Nominals.Spec

theorem writes_types {alloc hz zb : Bool} {b b' : Nat} {al : List Char} {n : Nat} {r : Res Error (List Char × Bool)} (h8 : 256 ≤ 2 ^ b)
    (hn : n < 2 ^ b) (hn' : n < 2 ^ b')
    (hw : hz = true ∨ zb = true ∨ (al.length < 2 ^ b ↔ al.length < 2 ^ b')) (h : Writes alloc b hz zb al n r) :
    Writes alloc b' hz zb al n r := by
  have spell_one : n < al.length → spell al [n] = [al.getD n '?'] := fun _ => rfl
  have get : n < al.length → al[n]? = some (al.getD n '?') := fun h => by
    simp [List.getD_eq_getElem?_getD, List.getElem?_eq_getElem h]
  cases h with
  | symbol c hl hc =>
    by_cases hl' : 2 ^ b' ≤ al.length
    · exact .symbol c hl' hc
    · have hlt : n < al.length := by omega
      have e : [c] = spell al [n] := by
        rw [get hlt] at hc
        injection hc with hc
        rw [spell_one hlt, hc]
      rw [e]
      cases hz with
      | true => exact .numeral [n] (by omega) rfl (by omega) (numeral_single hlt)
      | false =>
        cases zb with
        | true =>
          rw [← column_single hlt]
          exact .column (by omega) rfl rfl (by intro h; rw [h] at hlt; cases hlt)
        | false =>
          rcases hw with h | h | h
          · cases h
          · cases h
          · have := h.2 (by omega)
            omega
  | numeral ds hl hz h2 hds =>
    by_cases hl' : al.length < 2 ^ b'
    · exact .numeral ds hl' hz h2 hds
    · have hlt : n < al.length := by omega
      rw [numeral_unique h2 hds (numeral_single hlt), spell_one hlt]
      exact .symbol _ (by omega) (get hlt)
  | lone c h1 h2 h3 => exact .lone c h1 h2 h3
  | full c h1 h2 h3 h4 => exact .full c h1 h2 h3 h4
  | column hl h1 h2 h3 =>
    by_cases hl' : al.length < 2 ^ b'
    · exact .column hl' h1 h2 h3
    · have hlt : n < al.length := by omega
      rw [column_single hlt, spell_one hlt]
      exact .symbol _ (by omega) (get hlt)
  | shifted m hl h1 h2 h3 h4 =>
    refine .shifted m ?_ h1 h2 h3 h4
    rcases hw with h | h | h
    · rw [h1] at h; cases h
    · rw [h2] at h; cases h
    · exact h.1 hl
  | noZero hl h1 h2 h3 =>
    refine .noZero ?_ h1 h2 h3
    rcases hw with h | h | h
    · rw [h1] at h; cases h
    · rw [h2] at h; cases h
    · exact h.1 hl
  | empty h1 h2 => exact .empty h1 h2

/-- Whether a collection hands a number over does not depend on the type. -/
theorem handsOver_types {cfg cfg' : Cfg} {T T' : IntTy} {c : Coll} {n : Nat} (hn' : T'.Fits cfg' n) (h : HandsOver cfg T c n) :
    HandsOver cfg' T' c n := by
  obtain ⟨h1, -, h2⟩ := h
  refine ⟨h1, ?_, h2⟩
  unfold IntTy.Fits at hn'
  split at h2 <;> omega

/-- C61, all digit collections: fixed or not, with any chain of fallbacks, with any number of symbols. If each of them has a zero digit, or
counts from zero, or has more symbols than the type has values in both cases or in neither, then formatting has the same outcome in both
types, text, error or panic; in particular it comes to an end in both or in neither. -/
theorem C61_chains {cfg cfg' : Cfg} {T T' : IntTy} {d : DigitSys} {al : Nat → List Char} {n : Nat} (hd : Lawful cfg d al)
    (hd' : Lawful cfg' d al) (hc : cfg.alloc = cfg'.alloc) (hn : T.Fits cfg n) (hn' : T'.Fits cfg' n)
    (hw : ∀ k, (d.level k).hasZero = true ∨ (d.level k).zeroBased = true ∨
      ((al k).length < 2 ^ T.bits cfg ↔ (al k).length < 2 ^ T'.bits cfg')) (r : Res Error (List Char × Bool)) :
    Ends cfg T d n r ↔ Ends cfg' T' d n r := by
  rw [C73_outcome hd hn, C73_outcome hd' hn']
  have ho : ∀ k, HandsOver cfg T (d.level k) n ↔ HandsOver cfg' T' (d.level k) n :=
    fun k => ⟨handsOver_types hn', handsOver_types hn⟩
  have wr : ∀ k, Writes cfg.alloc (T.bits cfg) (d.level k).hasZero (d.level k).zeroBased (al k) n r ↔
      Writes cfg'.alloc (T'.bits cfg') (d.level k).hasZero (d.level k).zeroBased (al k) n r := by
    intro k
    rw [hc]
    exact ⟨writes_types (bits_ge cfg T) hn hn' (hw k),
      writes_types (bits_ge cfg' T') hn' hn ((hw k).imp id (Or.imp id Iff.symm))⟩
  unfold Settles
  simp only [ho, wr]

/-- The three-stage collection of C73: 5 is settled by its third stage in `u8` as in `u128` on another target. -/
example : Lawful ⟨true, .w16, true⟩ threeStage threeStageSymbols ∧
    (∀ k, (threeStage.level k).hasZero = true ∨ (threeStage.level k).zeroBased = true ∨
      ((threeStageSymbols k).length < 2 ^ IntTy.u8.bits ⟨true, .w64, true⟩ ↔ (threeStageSymbols k).length < 2 ^ IntTy.u128.bits ⟨true, .w16, true⟩)) ∧
    view (digitTryFormat ⟨true, .w64, true⟩ .u8 20 5 threeStage 5) = view (digitTryFormat ⟨true, .w16, true⟩ .u128 20 5 threeStage 5) ∧
    view (digitTryFormat ⟨true, .w64, true⟩ .u8 20 5 threeStage 5) = .ok (['a', 'c'], true) := by
  refine ⟨⟨fun k => ?_, fun k => ?_⟩, fun k => ?_, by decide +kernel, by decide +kernel⟩
  · match k with
    | 0 => exact ⟨rfl, fun _ _ => rfl⟩
    | 1 => exact ⟨rfl, fun _ _ => rfl⟩
    | 2 => exact ⟨rfl, fun _ _ => rfl⟩
    | k + 3 => exact ⟨rfl, fun i hi => absurd hi (Nat.not_lt_zero i)⟩
  · match k with
    | 0 => decide
    | 1 => decide
    | 2 => decide
    | k + 3 => exact Nat.two_pow_pos _
  · match k with
    | 0 => exact .inl rfl
    | 1 => exact .inr (.inr (by decide))
    | 2 => exact .inr (.inl rfl)
    | k + 3 => exact .inr (.inr (by simp [threeStageSymbols, Nat.two_pow_pos]))

theorem ends_keeps {cfg : Cfg} {T : IntTy} {d : DigitSys} {al : Nat → List Char} {n : Nat} {r : Res Error (List Char × Bool)}
    (hd : Lawful cfg d al) (hn : T.Fits cfg n) (h0 : ¬ HandsOver cfg T (d.level 0) n) :
    Ends cfg T d n r ↔ Writes cfg.alloc (T.bits cfg) (d.level 0).hasZero (d.level 0).zeroBased (al 0) n r := by
  rw [C73_outcome hd hn]
  refine ⟨fun ⟨k, hk, h⟩ => ?_, fun h => ⟨0, fun i hi => absurd hi (Nat.not_lt_zero i), .inr ⟨h0, h⟩⟩⟩
  cases k with
  | zero =>
    rcases h with ⟨h, -⟩ | ⟨-, h⟩
    · exact absurd h h0
    · exact h
  | succ k => exact absurd (hk 0 (Nat.succ_pos k)).1 h0

/-- C61, the remaining case for all digit collections, fixed or not and whatever their fallbacks: counting from one without zero digit, with
symbols that outnumber the values of the narrow type `T` but not of the wide type `T'`, the same number gets the next symbol in the narrow
type, and 0 has one. -/
theorem C61_chains_shift {cfg cfg' : Cfg} {T T' : IntTy} {d : DigitSys} {al : Nat → List Char} {n : Nat} (hd : Lawful cfg d al)
    (hd' : Lawful cfg' d al) (hz : (d.level 0).hasZero = false) (h0 : (d.level 0).zeroBased = false)
    (hT : 2 ^ T.bits cfg ≤ (al 0).length) (hT' : (al 0).length < 2 ^ T'.bits cfg') (hn : T.Fits cfg n)
    (r : Res Error (List Char × Bool)) :
    (Ends cfg T d n r ↔ r = .ok ([(al 0).getD n '?'], true)) ∧
    (Ends cfg' T' d n r ↔ r = if n = 0 then .err .noZeroSymbol else .ok ([(al 0).getD (n - 1) '?'], true)) := by
  have hb : n < 2 ^ T.bits cfg := hn
  have h8 := bits_ge cfg T
  have hlt : n < (al 0).length := by omega
  have hn' : T'.Fits cfg' n := Nat.lt_trans hlt hT'
  have hl := (hd.digits 0).1
  have keep : ∀ {cfg T}, ¬ HandsOver cfg T (d.level 0) n := by
    rintro cfg T ⟨-, -, h⟩
    rw [h0, hl] at h
    simp at h
    omega
  have ne : al 0 ≠ [] := fun h => by rw [h] at hlt; cases hlt
  have get : (al 0)[n]? = some ((al 0).getD n '?') := by
    simp [List.getD_eq_getElem?_getD, List.getElem?_eq_getElem hlt]
  constructor
  · have w : Ends cfg T d n (.ok ([(al 0).getD n '?'], true)) := by
      have := Writes.symbol (alloc := cfg.alloc) (hasZero := (d.level 0).hasZero) (zeroBased := (d.level 0).zeroBased) _ hT get
      rw [deliver_small] at this
      exact (ends_keeps hd hn keep).2 this
    exact ⟨fun h => ends_unique h w, fun h => h ▸ w⟩
  · have w : Ends cfg' T' d n (if n = 0 then .err .noZeroSymbol else .ok ([(al 0).getD (n - 1) '?'], true)) := by
      refine (ends_keeps hd' hn' keep).2 ?_
      split
      · next h => exact .noZero hT' hz h0 h
      · next h =>
        have := Writes.shifted (alloc := cfg'.alloc) (n - 1) hT' hz h0 ne (show n = n - 1 + 1 by omega)
        rw [column_single (by omega)] at this
        have e : deliver cfg'.alloc n (spell (al 0) [n - 1]) = .ok ([(al 0).getD (n - 1) '?'], true) := deliver_small
        rw [e] at this
        exact this
    exact ⟨fun h => ends_unique h w, fun h => h ▸ w⟩

/-- A fixed collection of 300 symbols that counts from one: 7 is the symbol number 7 in `u8`, number 6 in `u16`. -/
def threeHundred : DigitSys :=
  .withFallback ⟨true, false, false, 300, fun i => if i < 300 then some (Char.ofNat (0x4e00 + i)) else none⟩ (.digitSetZeroless ['a'])

example : view (digitTryFormat ⟨true, .w64, true⟩ .u8 9 2 threeHundred 7) = .ok ([Char.ofNat 0x4e07], true) ∧
    view (digitTryFormat ⟨true, .w64, true⟩ .u16 9 2 threeHundred 7) = .ok ([Char.ofNat 0x4e06], true) := by decide +kernel

end Nominals.Props
