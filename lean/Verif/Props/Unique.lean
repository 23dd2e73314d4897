import Verif.Spec.Unique
import Verif.Props.Digits
import Verif.Props.Additive
import Verif.Props.Lib
import Verif.Props.Collections

/-!
# Property C85: when the labels of a user's own system are told apart
-/

namespace Nominals.Props

open Nominals.Spec

/-- The first `k` entries of a list are different. -/
theorem take_nodup {α : Type} (l : List α) (k : Nat) :
    (l.take k).Nodup ↔ ∀ i j, i < l.length → j < l.length → i < k → j < k → l[i]? = l[j]? → i = j := by
  rw [List.nodup_iff_pairwise_ne, List.pairwise_iff_getElem]
  constructor
  · intro h i j hi hj hi' hj' e
    rw [List.getElem?_eq_getElem hi, List.getElem?_eq_getElem hj, Option.some_inj] at e
    rcases Nat.lt_trichotomy i j with hlt | heq | hlt
    · refine absurd ?_ (h i j (by rw [List.length_take]; omega) (by rw [List.length_take]; omega) hlt)
      simpa using e
    · exact heq
    · refine absurd ?_ (h j i (by rw [List.length_take]; omega) (by rw [List.length_take]; omega) hlt)
      simpa using e.symm
  · intro h i j hi hj hlt e
    rw [List.length_take] at hi hj
    have := h i j (by omega) (by omega) (by omega) (by omega) (by
      rw [List.getElem?_eq_getElem (by omega), List.getElem?_eq_getElem (by omega)]
      simpa using e)
    omega

/-! ## Digit collections -/

theorem numeral_single {b n : Nat} (h : n < b) : IsNumeral b n [n] :=
  ⟨by simpa using h, by simp [value], by
    by_cases h0 : n = 0
    · exact .inl (by rw [h0])
    · exact .inr ⟨n, [], rfl, h0⟩⟩

theorem column_single {b : Nat} : ∀ {n : Nat}, n < b → column b n = [n]
  | 0, _ => rfl
  | n + 1, h => by
    rw [column, column_single (by omega)]
    simp [next, bump, h]

/-- The numbers below the number of symbols are single symbols. -/
theorem single_symbol {cfg : Cfg} {T : IntTy} {d : DigitSys} {al : List Char} {n : Nat} (hp : Plain cfg d al)
    (hm : ((d.level 0).hasZero = true ∧ 2 ≤ al.length) ∨ ((d.level 0).hasZero = false ∧ (d.level 0).zeroBased = true)) (hn : T.Fits cfg n)
    (h : n < al.length) : view (d.tryFormat cfg T n) = .ok ([al.getD n '?'], true) := by
  have e : view (d.tryFormat cfg T n) = deliver cfg.alloc n (spell al [n]) := by
    rcases hm with ⟨hz, hb⟩ | ⟨hz, h0⟩
    · obtain ⟨ds, hds, hv⟩ := C09_positional (n := n) hz hb
      rw [hv cfg T hp hn, (hds [n]).1 (numeral_single h)]
    · rw [C10_columns hp hz h0 (by omega) hn, column_single h]
  rw [e]
  exact deliver_small

/-- C85. A digit collection that counts from 0 gives no two numbers of a type the same label exactly if no two of its symbols are the same
(those symbols that the type is wide enough to use). -/
theorem C85_digits {cfg : Cfg} {T : IntTy} {d : DigitSys} {al : List Char} (hp : Plain cfg d al)
    (hm : ((d.level 0).hasZero = true ∧ 2 ≤ al.length) ∨ ((d.level 0).hasZero = false ∧ (d.level 0).zeroBased = true ∧ 1 ≤ al.length)) :
    Unique cfg T (fun n => d.tryFormat cfg T n) ↔ (al.take (2 ^ T.bits cfg)).Nodup := by
  have hs : ∀ n, T.Fits cfg n → n < al.length → view (d.tryFormat cfg T n) = .ok ([al.getD n '?'], true) :=
    fun n => single_symbol hp (hm.imp id fun h => ⟨h.1, h.2.1⟩)
  have get : ∀ i j, i < al.length → j < al.length → (al[i]? = al[j]? ↔ al.getD i '?' = al.getD j '?') := by
    intro i j hi hj
    simp [List.getD_eq_getElem?_getD, List.getElem?_eq_getElem hi, List.getElem?_eq_getElem hj]
  constructor
  · refine fun h => (take_nodup _ _).2 fun i j hi hj hi' hj' e => ?_
    exact h i j _ true true hi' hj' (hs i hi' hi) (by rw [(get i j hi hj).1 e]; exact hs j hj' hj)
  · intro h n m t i j hn hm' h1 h2
    by_cases hw : al.length ≤ 2 ^ T.bits cfg
    · have hd : al.Nodup := by rwa [List.take_of_length_le hw] at h
      rcases hm with ⟨hz, hb⟩ | ⟨hz, h0, hb⟩
      · exact C13_distinct_positional hp hp hz hb hd hn hm' h1 h2
      · exact C13_distinct_columns hp hp hz h0 hb hd hn hm' h1 h2
    · have hn' : n < 2 ^ T.bits cfg := hn
      have hm'' : m < 2 ^ T.bits cfg := hm'
      have e1 := (hs n hn (by omega)).symm.trans h1
      have e2 := (hs m hm' (by omega)).symm.trans h2
      refine (take_nodup _ _).1 h n m (by omega) (by omega) hn hm' ((get n m (by omega) (by omega)).2 ?_)
      simp only [Res.ok.injEq, Prod.mk.injEq] at e1 e2
      have := e1.1.trans e2.1.symm
      injection this

/-- A collection in which 1 and 2 look alike: 1 and 2 have the same label, and so have 4 and 5. -/
example : ¬ (['0', '1', '1'].take (2 ^ IntTy.u8.bits ⟨true, .w64, true⟩)).Nodup ∧
    view ((DigitSys.named (.digitSetNew ['0', '1', '1'])).tryFormat ⟨true, .w64, true⟩ .u8 4) = .ok (['1', '1'], true) ∧
    view ((DigitSys.named (.digitSetNew ['0', '1', '1'])).tryFormat ⟨true, .w64, true⟩ .u8 5) = .ok (['1', '1'], true) := by decide +kernel

/-- C85. The same for `one_based()`, if the type can count the symbols. -/
theorem C85_one_based {cfg : Cfg} {T : IntTy} {d : DigitSys} {al : List Char} (hp : Plain cfg d al) (hz : (d.level 0).hasZero = false)
    (hb : 1 ≤ al.length) (hT : al.length < 2 ^ T.bits cfg) :
    Unique cfg T (fun n => d.oneBased.tryFormat cfg T n) ↔ al.Nodup := by
  constructor
  · intro h
    rw [← List.take_length (l := al), take_nodup]
    intro i j hi hj _ _ e
    have text : ∀ i, i < al.length → view (d.oneBased.tryFormat cfg T (i + 1)) = .ok ([al.getD i '?'], true) := by
      intro i hi
      have := (format_one (n := i + 1) (i + 1 + 64) 7 (oneBased_plain hp) hz rfl hb hT (by omega) (by omega)).view
      refine this.trans ?_
      rw [Nat.add_sub_cancel, column_single hi]
      exact deliver_small
    have e' : al.getD i '?' = al.getD j '?' := by rw [List.getD_eq_getElem?_getD, List.getD_eq_getElem?_getD, e]
    have := h (i + 1) (j + 1) _ true true (show _ < _ by omega) (show _ < _ by omega) (text i hi) (by rw [e']; exact text j hj)
    omega
  · intro h n m t i j _ _ h1 h2
    exact C13_distinct_one_based hp hp hz hb hT hT h h1 h2

example : letterUpperDigits.Nodup ∧ (letterUpper.level 0).hasZero = false := by decide +kernel

/-! ## Enumerated sets -/

/-- C85. An enumerated set gives no two numbers of a type the same label if no two of the symbols within reach of the type are the same,
and only then in a build with `alloc`, where every symbol can be returned. -/
theorem C85_enumerated {cfg : Cfg} {T : IntTy} (e : EnumSet) (hl : e.symbols.length < 2 ^ cfg.ptr.bits) :
    ((e.symbols.take (2 ^ T.bits cfg - if e.hasZero then 0 else 1)).Nodup → Unique cfg T (fun n => e.tryFormat cfg T n)) ∧
    (cfg.alloc = true → Unique cfg T (fun n => e.tryFormat cfg T n) →
      (e.symbols.take (2 ^ T.bits cfg - if e.hasZero then 0 else 1)).Nodup) := by
  generalize ho : (if e.hasZero then 0 else 1) = off
  have give : cfg.alloc = true → ∀ k t, e.symbols[k]? = some t → view (e.tryFormat cfg T (k + off)) = .ok (t, decide (utf8Len t ≤ 62)) := by
    intro ha k t hk
    rw [C45_enumerated e hl]
    have h1 : ¬ (e.hasZero = false ∧ k + off = 0) := by
      rintro ⟨hz, h0⟩
      rw [hz] at ho
      simp at ho
      omega
    have h2 : (if e.hasZero then k + off else k + off - 1) = k := by
      subst ho
      cases e.hasZero <;> simp
    rw [if_neg h1, h2, hk, ha]
    by_cases hl : utf8Len t ≤ 62 <;> simp [hl]
  have take : ∀ {n t i}, view (e.tryFormat cfg T n) = .ok (t, i) → off ≤ n ∧ e.symbols[n - off]? = some t := by
    intro n t i h
    rw [C45_enumerated e hl] at h
    split at h
    · cases h
    · next hn =>
      have h2 : (if e.hasZero then n else n - 1) = n - off := by
        subst ho
        cases e.hasZero <;> simp
      rw [h2] at h
      have h3 : off ≤ n := by
        subst ho
        cases hz : e.hasZero
        · have : n ≠ 0 := fun h0 => hn ⟨hz, h0⟩
          simp
          omega
        · simp
      refine ⟨h3, ?_⟩
      split at h
      · next u hu =>
        rw [hu]
        repeat' split at h
        all_goals first | (simp only [Res.ok.injEq, Prod.mk.injEq] at h; rw [h.1]) | cases h
      · cases h
  rw [take_nodup]
  constructor
  · intro h n m t i j hn hm h1 h2
    obtain ⟨a1, a2⟩ := take h1
    obtain ⟨b1, b2⟩ := take h2
    have hn' : n < 2 ^ T.bits cfg := hn
    have hm' : m < 2 ^ T.bits cfg := hm
    have := h (n - off) (m - off) (List.getElem?_eq_some_iff.1 a2).1 (List.getElem?_eq_some_iff.1 b2).1 (by omega) (by omega) (a2.trans b2.symm)
    omega
  · intro ha h i j hi hj hi' hj' he
    have hsi := List.getElem?_eq_getElem hi
    have := h (i + off) (j + off) _ _ _ (show _ < _ by omega) (show _ < _ by omega) (give ha i _ hsi) (give ha j _ (he ▸ hsi))
    omega

/-- The die with two equal faces. -/
example : view (EnumSet.tryFormat ⟨false, [['⚀'], ['⚁'], ['⚁']]⟩ ⟨true, .w64, true⟩ .u8 2) = .ok (['⚁'], true) ∧
    view (EnumSet.tryFormat ⟨false, [['⚀'], ['⚁'], ['⚁']]⟩ ⟨true, .w64, true⟩ .u8 3) = .ok (['⚁'], true) := by decide +kernel

/-! ## Additive sets -/

/-- A text over a prefix-free table can be cut into symbols in one way only. -/
theorem prefix_code {table : List (List Char × Nat)} (hf : PrefixFree table) : ∀ {ps qs : List (List Char × Nat)},
    (∀ p ∈ ps, p ∈ table) → (∀ q ∈ qs, q ∈ table) → written ps = written qs → ps = qs
  | [], [], _, _, _ => rfl
  | [], q :: qs, _, hq, h => by
    simp [written] at h
    exact absurd h.1 (hf q (hq q (by simp))).1
  | p :: ps, [], hp, _, h => by
    simp [written] at h
    exact absurd h.1 (hf p (hp p (by simp))).1
  | p :: ps, q :: qs, hp, hq, h => by
    have e : p.1 ++ written ps = q.1 ++ written qs := by simpa [written] using h
    have hpq : p = q := by
      rcases Nat.le_total p.1.length q.1.length with hl | hl
      · exact (hf p (hp p (by simp))).2 q (hq q (by simp))
          (List.prefix_of_prefix_length_le (l₃ := q.1 ++ written qs) (e ▸ List.prefix_append _ _) (List.prefix_append _ _) hl)
      · exact ((hf q (hq q (by simp))).2 p (hp p (by simp))
          (List.prefix_of_prefix_length_le (l₃ := q.1 ++ written qs) (List.prefix_append _ _) (e ▸ List.prefix_append _ _) hl)).symm
    subst hpq
    rw [prefix_code hf (fun x hx => hp x (by simp [hx])) (fun x hx => hq x (by simp [hx])) (List.append_cancel_left e)]

/-- C85. An additive set with a symbol for 1, none of whose symbols is the beginning of another, gives no two numbers the same label. -/
theorem C85_additive {ε : Type} {cfg : Cfg} {T : IntTy} {table : List (List Char × Nat)} {a : AdditiveSet}
    (ha : AdditiveSet.new (ε := ε) table = .ok a) (hf : PrefixFree table) (hu : ∃ s, (s, 1) ∈ table) :
    Unique cfg T (fun n => a.tryFormat cfg T n) := by
  have zero : ∀ {t i}, view (a.tryFormat cfg T 0) = .ok (t, i) → (t, 0) ∈ table := by
    intro t i h
    by_cases hz : ∃ p ∈ table, p.2 = 0
    · obtain ⟨z, hz⟩ := (C23_zero (cfg := cfg) (T := T) ha).2.2 hz
      have e := (C23_zero (cfg := cfg) (T := T) ha).1 z hz
      rw [e] at h
      have : z = t := by
        repeat' split at h
        all_goals first | (injection h with h; exact congrArg Prod.fst h) | cases h
      exact this ▸ List.mem_of_getLast? hz
    · rw [(C23_zero (cfg := cfg) (T := T) ha).2.1 (fun p hp h0 => hz ⟨p, hp, h0⟩)] at h
      cases h
  have pos : ∀ {n t i}, n ≠ 0 → T.Fits cfg n → view (a.tryFormat cfg T n) = .ok (t, i) →
      ∃ ps, total ps = n ∧ (∀ p ∈ ps, p ∈ table ∧ p.2 ≠ 0) ∧ t = written ps := by
    intro n t i h0 hn h
    obtain ⟨ps, -, h1, -, h2, e⟩ := C21_greedy_sum ha hu h0 hn (cfg := cfg)
    rw [e] at h
    exact ⟨ps, h1, h2, (deliver_ok h).symm⟩
  have mixed : ∀ {n t i j}, n ≠ 0 → T.Fits cfg n → view (a.tryFormat cfg T n) = .ok (t, i) → view (a.tryFormat cfg T 0) = .ok (t, j) → False := by
    intro n t i j h0 hn h h'
    obtain ⟨ps, -, h2, e⟩ := pos h0 hn h
    have hz := zero h'
    have : ps = [(t, 0)] := prefix_code hf (fun p hp => (h2 p hp).1) (by simpa using hz) (by rw [← e]; simp [written])
    exact (h2 (t, 0) (by simp [this])).2 rfl
  intro n m t i j hn hm h1 h2
  by_cases h0 : n = 0
  · subst h0
    by_cases h0' : m = 0
    · exact h0'.symm
    · exact (mixed h0' hm h2 h1).elim
  · by_cases h0' : m = 0
    · subst h0'
      exact (mixed h0 hn h1 h2).elim
    · obtain ⟨ps, e1, m1, t1⟩ := pos h0 hn h1
      obtain ⟨qs, e2, m2, t2⟩ := pos h0' hm h2
      have := prefix_code hf (fun p hp => (m1 p hp).1) (fun p hp => (m2 p hp).1) (t1.symm.trans t2)
      rw [← e1, ← e2, this]

/-- Tallies in groups of five, and a table whose symbol for 1 begins the one for 5, in which 2 and 5 are written alike. -/
example : PrefixFree [(['卌'], 5), (['|'], 1)] ∧ ¬ PrefixFree [(['|', '|'], 5), (['|'], 1)] ∧
    view (AdditiveSet.tryFormat ⟨[(['|', '|'], 5), (['|'], 1)], none⟩ ⟨true, .w64, true⟩ .u8 5) = .ok (['|', '|'], true) ∧
    view (AdditiveSet.tryFormat ⟨[(['|', '|'], 5), (['|'], 1)], none⟩ ⟨true, .w64, true⟩ .u8 2) = .ok (['|', '|'], true) := by
  refine ⟨by unfold PrefixFree; decide +kernel, by unfold PrefixFree; decide +kernel, by decide +kernel, by decide +kernel⟩

/-- C85. Labels that are told apart need a symbol for 1, unless there is a symbol for every other number of the type (in a build with
`alloc`). -/
theorem C85_additive_needs_unit {ε : Type} {cfg : Cfg} {T : IntTy} {table : List (List Char × Nat)} {a : AdditiveSet}
    (hal : cfg.alloc = true) (ha : AdditiveSet.new (ε := ε) table = .ok a) (h : Unique cfg T (fun n => a.tryFormat cfg T n)) :
    (∃ s, (s, 1) ∈ table) ∨ ∀ k, 2 ≤ k → T.Fits cfg k → ∃ s, (s, k) ∈ table := by
  have hd : Descending table := Classical.byContradiction fun h => by
    rw [(C24_new (ε := ε) table).1.2 h] at ha
    cases ha
  have text : ∀ {n ps}, n ≠ 0 → T.Fits cfg n → Greedy table n ps → view (a.tryFormat cfg T n) = .ok (written ps, decide (utf8Len (written ps) ≤ 62)) := by
    intro n ps h0 hn hg
    obtain ⟨qs, hq, e, -⟩ := C22_lost_remainder ha h0 hn (cfg := cfg)
    rw [e, hal, greedy_unique hd hg hq]
    exact deliver_alloc_gives _ _
  refine Classical.byContradiction fun hno => ?_
  rw [not_or] at hno
  obtain ⟨hu, hno⟩ := hno
  have lost : ∀ q ∈ table, q.2 ≠ 0 → 1 < q.2 := by
    intro q hq h0
    have : q.2 ≠ 1 := fun h => hu ⟨q.1, h ▸ hq⟩
    omega
  refine hno fun k => ?_
  induction k using Nat.strongRecOn with
  | ind k ih =>
    intro hk hf
    refine Classical.byContradiction fun hn => ?_
    have other : ∀ q ∈ table, q.2 ≠ k := fun q hq e => hn ⟨q.1, e ▸ hq⟩
    have hf' : T.Fits cfg (k - 1) := Nat.lt_of_le_of_lt (Nat.sub_le k 1) hf
    by_cases h2 : k = 2
    · subst h2
      have g : ∀ n, n ≤ 2 → Greedy table n [] := fun n hn => .stop n fun q hq h0 => by have := lost q hq h0; have := other q hq; omega
      exact absurd (h 1 2 _ _ _ hf' hf (text (by omega) hf' (g 1 (by omega))) (text (by omega) hf (g 2 (by omega)))) (by omega)
    · obtain ⟨s, hs⟩ := ih (k - 1) (by omega) (by omega) hf'
      have g1 : Greedy table (k - 1) [(s, k - 1)] := .take _ _ [] hs (by simp only; omega) (Nat.le_refl _) (fun q _ hq => hq)
        (.stop _ fun q hq h0 => by have := lost q hq h0; simp only; omega)
      have g2 : Greedy table k [(s, k - 1)] := .take _ _ [] hs (by simp only; omega) (by simp only; omega)
        (fun q hq hl => by have := other q hq; simp only; omega)
        (.stop _ fun q hq h0 => by have := lost q hq h0; simp only; omega)
      exact absurd (h _ _ _ _ _ hf' hf (text (by omega) hf' g1) (text (by omega) hf g2)) (by omega)

/-- Pairs only: 2 and 3 have the same label. -/
example : view (AdditiveSet.tryFormat ⟨[(['‖'], 2)], none⟩ ⟨true, .w64, true⟩ .u8 2) = .ok (['‖'], true) ∧
    view (AdditiveSet.tryFormat ⟨[(['‖'], 2)], none⟩ ⟨true, .w64, true⟩ .u8 3) = .ok (['‖'], true) := by decide +kernel

end Nominals.Props
