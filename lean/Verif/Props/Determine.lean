import Verif.Props.Extend

/-!
C107. The labels determine the collection: two collections write all numbers of an integer type alike exactly if they have the same symbols,
as far as the type reaches.
-/

namespace Nominals

open Nominals.Spec

/-- The numbers below `B` that have a symbol of their own are written with it, the others not with a single character. -/
structure SymbolsFirst (B : Nat) (al : List Char) (f : Nat → Res Error (List Char × Bool)) : Prop where
  one : ∀ n, n < B → ∀ h : n < al.length, f n = .ok ([al[n]], true)
  more : ∀ n, n < B → al.length ≤ n → ∀ c i, f n ≠ .ok ([c], i)

theorem SymbolsFirst.determines {B : Nat} {al al' : List Char} {f f' : Nat → Res Error (List Char × Bool)} (h : SymbolsFirst B al f)
    (h' : SymbolsFirst B al' f') (e : ∀ n, n < B → f n = f' n) : al.take B = al'.take B := by
  apply List.ext_getElem?
  intro n
  rw [List.getElem?_take, List.getElem?_take]
  split
  · next hn =>
    have e := e n hn
    rcases Nat.lt_or_ge n al.length with h1 | h1 <;> rcases Nat.lt_or_ge n al'.length with h2 | h2
    · rw [h.one n hn h1, h'.one n hn h2] at e
      simp only [Res.ok.injEq, Prod.mk.injEq, List.cons.injEq, and_true] at e
      rw [List.getElem?_eq_getElem h1, List.getElem?_eq_getElem h2, e]
    · rw [h.one n hn h1] at e
      exact (h'.more n hn h2 _ _ e.symm).elim
    · rw [h'.one n hn h2] at e
      exact (h.more n hn h1 _ _ e).elim
    · rw [List.getElem?_eq_none h1, List.getElem?_eq_none h2]
  · rfl

theorem deliver_char (alloc : Bool) (n : Nat) (c : Char) : deliver alloc n [c] = .ok ([c], true) := by
  have : utf8Len [c] ≤ 62 := by
    have := Char.utf8Size_le_four c
    simp [utf8Len]
    omega
  unfold deliver
  rw [if_pos this]

theorem spell_one {al : List Char} {n : Nat} (h : n < al.length) : spell al [n] = [al[n]] := by
  simp [spell, h]

/-- Lists that agree up to `B` are the same or both reach it. -/
theorem take_cases {α : Type} {B : Nat} {x y : List α} (h : x.take B = y.take B) : x = y ∨ B ≤ x.length ∧ B ≤ y.length := by
  have hl := congrArg List.length h
  rw [List.length_take, List.length_take] at hl
  by_cases hx : x.length < B
  · rw [List.take_of_length_le (by omega), List.take_of_length_le (by omega)] at h
    exact .inl h
  · by_cases hy : y.length < B
    · omega
    · exact .inr ⟨by omega, by omega⟩

namespace Props

theorem zero_first {cfg : Cfg} {T : IntTy} {d : DigitSys} {al : List Char} (hp : Plain cfg d al) (hz : (d.level 0).hasZero = true)
    (hb : 2 ≤ al.length) : SymbolsFirst (2 ^ T.bits cfg) al (fun n => view (d.tryFormat cfg T n)) := by
  constructor
  · intro n hn h
    obtain ⟨x, hx, ex⟩ := positional hp hz hb hn
    have h1 : IsNumeral al.length n [n] := by
      refine ⟨fun d hd => by rw [List.mem_singleton.mp hd]; exact h, by simp [value], ?_⟩
      by_cases h0 : n = 0
      · exact .inl (by rw [h0])
      · exact .inr ⟨n, [], rfl, h0⟩
    rw [ex, numeral_unique hb hx h1, spell_one h, deliver_char]
  · intro n hn h c i e
    obtain ⟨x, hx, ex⟩ := positional hp hz hb hn
    rw [ex] at e
    have e := congrArg List.length (deliver_ok e)
    simp only [spell, List.length_map, List.length_singleton] at e
    obtain ⟨a, rfl⟩ := List.length_eq_one_iff.mp e
    have h1 := hx.digits a (by simp)
    have h2 := hx.value
    simp [value] at h2
    omega

theorem letters_first {cfg : Cfg} {T : IntTy} {d : DigitSys} {al : List Char} (hp : Plain cfg d al) (hz : (d.level 0).hasZero = false)
    (h0 : (d.level 0).zeroBased = true) (hb : 1 ≤ al.length) : SymbolsFirst (2 ^ T.bits cfg) al (fun n => view (d.tryFormat cfg T n)) := by
  constructor
  · intro n hn h
    rw [C10_columns hp hz h0 hb hn, column_small h, spell_one h, deliver_char]
  · intro n hn h c i e
    rw [C10_columns hp hz h0 hb hn] at e
    have e := congrArg List.length (deliver_ok e)
    simp only [spell, List.length_map, List.length_singleton] at e
    obtain ⟨a, ha⟩ := List.length_eq_one_iff.mp e
    have h1 := column_lt hb n a (by rw [ha]; simp)
    have h2 := ordinal_column hb n
    rw [ha] at h2
    simp [ordinal] at h2
    omega

theorem one_based_first {cfg : Cfg} {T : IntTy} {d : DigitSys} {al : List Char} (hp : Plain cfg d al) (hz : (d.level 0).hasZero = false)
    (h0 : (d.level 0).zeroBased = false) (hb : 1 ≤ al.length) (hT : al.length < 2 ^ T.bits cfg) :
    SymbolsFirst (2 ^ T.bits cfg - 1) al (fun n => view (d.tryFormat cfg T (n + 1))) := by
  have e1 : ∀ n, view (d.tryFormat cfg T (n + 1)) = deliver cfg.alloc (n + 1) (spell al (column al.length n)) := fun n =>
    (format_one (n + 1 + 64) 7 hp hz h0 hb hT (by omega) (by omega)).view
  constructor
  · intro n hn h
    rw [e1, column_small h, spell_one h, deliver_char]
  · intro n hn h c i e
    rw [e1] at e
    have e := congrArg List.length (deliver_ok e)
    simp only [spell, List.length_map, List.length_singleton] at e
    obtain ⟨a, ha⟩ := List.length_eq_one_iff.mp e
    have h1 := column_lt hb n a (by rw [ha]; simp)
    have h2 := ordinal_column hb n
    rw [ha] at h2
    simp [ordinal] at h2
    omega

/-- C107, zero digit: all labels of the type agree if and only if the digits do, as far as the type reaches. -/
theorem C107_zero {cfg : Cfg} {T : IntTy} {d d' : DigitSys} {al al' : List Char} (hp : Plain cfg d al) (hp' : Plain cfg d' al')
    (hz : (d.level 0).hasZero = true) (hz' : (d'.level 0).hasZero = true) (hb : 2 ≤ al.length) (hb' : 2 ≤ al'.length) :
    (∀ n, T.Fits cfg n → view (d.tryFormat cfg T n) = view (d'.tryFormat cfg T n)) ↔
      al.take (2 ^ T.bits cfg) = al'.take (2 ^ T.bits cfg) := by
  have h1 := zero_first (T := T) hp hz hb
  have h2 := zero_first (T := T) hp' hz' hb'
  refine ⟨fun h => h1.determines h2 h, fun h n hn => ?_⟩
  rcases take_cases h with e | ⟨l, l'⟩
  · subst e
    obtain ⟨x, hx, ex⟩ := positional hp hz hb hn
    obtain ⟨y, hy, ey⟩ := positional hp' hz' hb hn
    rw [ex, ey, numeral_unique hb hx hy]
  · have hn' : n < 2 ^ T.bits cfg := hn
    have e := congrArg (·[n]?) h
    simp only [List.getElem?_take, hn', ↓reduceIte] at e
    rw [List.getElem?_eq_getElem (by omega), List.getElem?_eq_getElem (by omega)] at e
    have e1 := h1.one n hn' (by omega)
    have e2 := h2.one n hn' (by omega)
    rw [e1, e2, Option.some.inj e]

/-- C107, no zero digit, counting from 0. -/
theorem C107_letters {cfg : Cfg} {T : IntTy} {d d' : DigitSys} {al al' : List Char} (hp : Plain cfg d al) (hp' : Plain cfg d' al')
    (hz : (d.level 0).hasZero = false) (hz' : (d'.level 0).hasZero = false) (h0 : (d.level 0).zeroBased = true)
    (h0' : (d'.level 0).zeroBased = true) (hb : 1 ≤ al.length) (hb' : 1 ≤ al'.length) :
    (∀ n, T.Fits cfg n → view (d.tryFormat cfg T n) = view (d'.tryFormat cfg T n)) ↔
      al.take (2 ^ T.bits cfg) = al'.take (2 ^ T.bits cfg) := by
  have h1 := letters_first (T := T) hp hz h0 hb
  have h2 := letters_first (T := T) hp' hz' h0' hb'
  refine ⟨fun h => h1.determines h2 h, fun h n hn => ?_⟩
  rcases take_cases h with e | ⟨l, l'⟩
  · subst e
    rw [C10_columns hp hz h0 hb hn, C10_columns hp' hz' h0' hb hn]
  · have hn' : n < 2 ^ T.bits cfg := hn
    have e := congrArg (·[n]?) h
    simp only [List.getElem?_take, hn', ↓reduceIte] at e
    rw [List.getElem?_eq_getElem (by omega), List.getElem?_eq_getElem (by omega)] at e
    have e1 := h1.one n hn' (by omega)
    have e2 := h2.one n hn' (by omega)
    rw [e1, e2, Option.some.inj e]

/-- C107, no zero digit, counting from 1. -/
theorem C107_one_based {cfg : Cfg} {T : IntTy} {d d' : DigitSys} {al al' : List Char} (hp : Plain cfg d al) (hp' : Plain cfg d' al')
    (hz : (d.level 0).hasZero = false) (hz' : (d'.level 0).hasZero = false) (h0 : (d.level 0).zeroBased = false)
    (h0' : (d'.level 0).zeroBased = false) (hb : 1 ≤ al.length) (hb' : 1 ≤ al'.length) :
    (∀ n, T.Fits cfg n → view (d.tryFormat cfg T n) = view (d'.tryFormat cfg T n)) ↔
      al.take (2 ^ T.bits cfg) = al'.take (2 ^ T.bits cfg) := by
  have h256 := bits_ge cfg T
  have wide : ∀ {d : DigitSys} {al : List Char} (n : Nat), Plain cfg d al → 2 ^ T.bits cfg ≤ al.length → T.Fits cfg n →
      view (d.tryFormat cfg T n) = deliver cfg.alloc n (spell al [n]) := fun n hp hT hn =>
    (format_wide (n + 64) 7 rfl hp.digits hp.usize hT hn).view
  have narrow : ∀ {d : DigitSys} {al : List Char}, Plain cfg d al → (d.level 0).hasZero = false → (d.level 0).zeroBased = false →
      al.length < 2 ^ T.bits cfg → view (d.tryFormat cfg T 0) = .err .noZeroSymbol := fun {d} {al} hp hz h0 hT => by
    have : d.tryFormat cfg T 0 = .err .noZeroSymbol := format_one_zero (0 + 64) 7 hp hz h0 hT (by omega)
    rw [this]
    rfl
  have f0 : T.Fits cfg 0 := show 0 < _ by omega
  have wide0 : ∀ {d : DigitSys} {al : List Char}, Plain cfg d al → 2 ^ T.bits cfg ≤ al.length →
      view (d.tryFormat cfg T 0) ≠ .err .noZeroSymbol := fun {d} {al} hp hT e => by
    rw [wide 0 hp hT f0, spell_one (by omega), deliver_char] at e
    cases e
  by_cases hT : al.length < 2 ^ T.bits cfg <;> by_cases hT' : al'.length < 2 ^ T.bits cfg
  · rw [List.take_of_length_le (Nat.le_of_lt hT), List.take_of_length_le (Nat.le_of_lt hT')]
    constructor
    · intro h
      have := (one_based_first hp hz h0 hb hT).determines (one_based_first hp' hz' h0' hb' hT') fun n hn =>
        h (n + 1) (show n + 1 < _ by omega)
      rw [List.take_of_length_le (by omega), List.take_of_length_le (by omega)] at this
      exact this
    · rintro rfl n hn
      by_cases hn0 : n = 0
      · subst hn0
        rw [narrow hp hz h0 hT, narrow hp' hz' h0' hT]
      · have e1 : view (d.tryFormat cfg T n) = deliver cfg.alloc n (spell al (column al.length (n - 1))) :=
          (format_one (n + 64) 7 hp hz h0 hb hT (by omega) (by omega)).view
        have e2 : view (d'.tryFormat cfg T n) = deliver cfg.alloc n (spell al (column al.length (n - 1))) :=
          (format_one (n + 64) 7 hp' hz' h0' hb hT (by omega) (by omega)).view
        rw [e1, e2]
  · refine ⟨fun h => ?_, fun h => ?_⟩
    · exact (wide0 hp' (by omega) (by rw [← h 0 f0, narrow hp hz h0 hT])).elim
    · rcases take_cases h with e | e
      · subst e; omega
      · omega
  · refine ⟨fun h => ?_, fun h => ?_⟩
    · exact (wide0 hp (by omega) (by rw [h 0 f0, narrow hp' hz' h0' hT'])).elim
    · rcases take_cases h with e | e
      · subst e; omega
      · omega
  · have first : ∀ {d : DigitSys} {al : List Char}, Plain cfg d al → 2 ^ T.bits cfg ≤ al.length →
        SymbolsFirst (2 ^ T.bits cfg) al (fun n => view (d.tryFormat cfg T n)) := fun {d} {al} hp hT =>
      ⟨fun n hn h => by rw [wide n hp hT hn, spell_one h, deliver_char], fun n hn h => by omega⟩
    have h1 := first hp (by omega)
    have h2 := first hp' (by omega)
    refine ⟨fun h => h1.determines h2 h, fun h n hn => ?_⟩
    have hn' : n < 2 ^ T.bits cfg := hn
    have e := congrArg (·[n]?) h
    simp only [List.getElem?_take, hn', ↓reduceIte] at e
    rw [List.getElem?_eq_getElem (by omega), List.getElem?_eq_getElem (by omega)] at e
    have e1 := h1.one n hn' (by omega)
    have e2 := h2.one n hn' (by omega)
    rw [e1, e2, Option.some.inj e]

/-- C107: how many numbers have to be compared. Two collections of one kind that agree on the numbers up to the number of symbols of the
smaller one agree on all numbers of the type. -/
theorem C107_few_numbers {cfg : Cfg} {T : IntTy} {d d' : DigitSys} {al al' : List Char} (hp : Plain cfg d al) (hp' : Plain cfg d' al')
    (hk : (d.level 0).hasZero = true ∧ (d'.level 0).hasZero = true ∧ 2 ≤ al.length ∧ 2 ≤ al'.length ∨
      (d.level 0).hasZero = false ∧ (d'.level 0).hasZero = false ∧ (d.level 0).zeroBased = true ∧ (d'.level 0).zeroBased = true ∧
        1 ≤ al.length ∧ 1 ≤ al'.length)
    (h : ∀ n, T.Fits cfg n → n ≤ al.length → n ≤ al'.length → view (d.tryFormat cfg T n) = view (d'.tryFormat cfg T n)) :
    ∀ n, T.Fits cfg n → view (d.tryFormat cfg T n) = view (d'.tryFormat cfg T n) := by
  have core : SymbolsFirst (2 ^ T.bits cfg) al (fun n => view (d.tryFormat cfg T n)) →
      SymbolsFirst (2 ^ T.bits cfg) al' (fun n => view (d'.tryFormat cfg T n)) → al.take (2 ^ T.bits cfg) = al'.take (2 ^ T.bits cfg) := by
    intro h1 h2
    have less : ∀ {al : List Char} {f : Nat → Res Error (List Char × Bool)} {B : Nat}, B ≤ 2 ^ T.bits cfg → SymbolsFirst (2 ^ T.bits cfg) al f →
        SymbolsFirst B al f := fun hB h => ⟨fun n hn => h.one n (by omega), fun n hn => h.more n (by omega)⟩
    have hB : min (2 ^ T.bits cfg) (min al.length al'.length + 1) ≤ 2 ^ T.bits cfg := Nat.min_le_left _ _
    have ht := (less hB h1).determines (less hB h2) fun n hn => h n (show n < _ by omega) (by omega) (by omega)
    rcases take_cases ht with e | e
    · rw [e]
    · have e' : min (2 ^ T.bits cfg) (min al.length al'.length + 1) = 2 ^ T.bits cfg := by omega
      rw [e'] at ht
      exact ht
  rcases hk with ⟨hz, hz', hb, hb'⟩ | ⟨hz, hz', h0, h0', hb, hb'⟩
  · exact (C107_zero hp hp' hz hz' hb hb').mpr (core (zero_first hp hz hb) (zero_first hp' hz' hb'))
  · exact (C107_letters hp hp' hz hz' h0 h0' hb hb').mpr (core (letters_first hp hz h0 hb) (letters_first hp' hz' h0' hb'))

/-- One number less is not enough: `0`, `1` and `0`, `1`, `2` agree on 0 and 1. -/
example : (∀ n, n < 2 → view ((DigitSys.digitSetNew ['0', '1']).tryFormat ⟨true, .w64, true⟩ .u8 n) =
      view ((DigitSys.digitSetNew ['0', '1', '2']).tryFormat ⟨true, .w64, true⟩ .u8 n)) ∧
    view ((DigitSys.digitSetNew ['0', '1']).tryFormat ⟨true, .w64, true⟩ .u8 2) ≠
      view ((DigitSys.digitSetNew ['0', '1', '2']).tryFormat ⟨true, .w64, true⟩ .u8 2) := by decide +kernel

/-- C107: counting from 1, with fewer symbols than the type has values, one number more has to be compared. -/
theorem C107_few_numbers_one_based {cfg : Cfg} {T : IntTy} {d d' : DigitSys} {al al' : List Char} (hp : Plain cfg d al) (hp' : Plain cfg d' al')
    (hz : (d.level 0).hasZero = false) (hz' : (d'.level 0).hasZero = false) (h0 : (d.level 0).zeroBased = false)
    (h0' : (d'.level 0).zeroBased = false) (hb : 1 ≤ al.length) (hb' : 1 ≤ al'.length) (hT : al.length < 2 ^ T.bits cfg)
    (hT' : al'.length < 2 ^ T.bits cfg)
    (h : ∀ n, T.Fits cfg n → n ≤ al.length + 1 → n ≤ al'.length + 1 → view (d.tryFormat cfg T n) = view (d'.tryFormat cfg T n)) :
    ∀ n, T.Fits cfg n → view (d.tryFormat cfg T n) = view (d'.tryFormat cfg T n) := by
  have h1 := one_based_first hp hz h0 hb hT
  have h2 := one_based_first hp' hz' h0' hb' hT'
  refine (C107_one_based hp hp' hz hz' h0 h0' hb hb').mpr ?_
  have ht : al.take (min (2 ^ T.bits cfg - 1) (min al.length al'.length + 1)) =
      al'.take (min (2 ^ T.bits cfg - 1) (min al.length al'.length + 1)) :=
    SymbolsFirst.determines ⟨fun n hn => h1.one n (by omega), fun n hn => h1.more n (by omega)⟩
      ⟨fun n hn => h2.one n (by omega), fun n hn => h2.more n (by omega)⟩
      fun n hn => h (n + 1) (show n + 1 < _ by omega) (by omega) (by omega)
  rcases take_cases ht with e | e
  · rw [e]
  · have e1 : al.length ≤ min (2 ^ T.bits cfg - 1) (min al.length al'.length + 1) := by omega
    have e2 : al'.length ≤ min (2 ^ T.bits cfg - 1) (min al.length al'.length + 1) := by omega
    rw [List.take_of_length_le e1, List.take_of_length_le e2] at ht
    rw [ht]

/-- `a` and `a`, `b`, counted from 1, agree on 0 and 1, but not on 2. -/
example : (∀ n, n < 2 → view ((DigitSys.digitSetZeroless ['a']).oneBased.tryFormat ⟨true, .w64, true⟩ .u8 n) =
      view ((DigitSys.digitSetZeroless ['a', 'b']).oneBased.tryFormat ⟨true, .w64, true⟩ .u8 n)) ∧
    view ((DigitSys.digitSetZeroless ['a']).oneBased.tryFormat ⟨true, .w64, true⟩ .u8 2) ≠
      view ((DigitSys.digitSetZeroless ['a', 'b']).oneBased.tryFormat ⟨true, .w64, true⟩ .u8 2) := by decide +kernel

/-- C107: a collection with a zero digit and one without write all numbers alike only if both have a symbol for each (the first two digits
being different). -/
theorem C107_zero_letters {cfg : Cfg} {T : IntTy} {d d' : DigitSys} {al al' : List Char} (hp : Plain cfg d al) (hp' : Plain cfg d' al')
    (hz : (d.level 0).hasZero = true) (hz' : (d'.level 0).hasZero = false) (h0' : (d'.level 0).zeroBased = true) (hb : 2 ≤ al.length)
    (hb' : 1 ≤ al'.length) (hd : al[0]? ≠ al[1]?) :
    (∀ n, T.Fits cfg n → view (d.tryFormat cfg T n) = view (d'.tryFormat cfg T n)) ↔
      2 ^ T.bits cfg ≤ al.length ∧ al.take (2 ^ T.bits cfg) = al'.take (2 ^ T.bits cfg) := by
  have h1 := zero_first (T := T) hp hz hb
  have h2 := letters_first (T := T) hp' hz' h0' hb'
  constructor
  · intro h
    have ht := h1.determines h2 h
    refine ⟨Nat.le_of_not_lt fun hT => ?_, ht⟩
    rcases take_cases ht with e | e
    · subst e
      have e := h al.length hT
      obtain ⟨x, hx, ex⟩ := positional hp hz hb (T := T) (n := al.length) hT
      have hnum : IsNumeral al.length al.length [1, 0] := by
        refine ⟨fun d hd => ?_, by simp [value], .inr ⟨1, [0], rfl, by decide⟩⟩
        simp only [List.mem_cons, List.not_mem_nil, or_false] at hd
        omega
      have hcol : column al.length al.length = [0, 0] := by
        have := column_ordinal (b := al.length) (by omega) [0, 0] (by simp) (by simp; omega)
        simpa [ordinal] using this
      rw [ex, numeral_unique hb hx hnum, C10_columns hp' hz' h0' hb' hT, hcol] at e
      have small : ∀ i j, utf8Len (spell al [i, j]) ≤ 62 := fun i j => by
        have := Char.utf8Size_le_four (al.getD i '?')
        have := Char.utf8Size_le_four (al.getD j '?')
        simp only [spell, List.map_cons, List.map_nil, utf8Len, List.sum_cons, List.sum_nil]
        omega
      unfold deliver at e
      rw [if_pos (small 1 0), if_pos (small 0 0)] at e
      simp only [spell, List.map_cons, List.map_nil, Res.ok.injEq, Prod.mk.injEq, List.cons.injEq, and_true] at e
      refine hd ?_
      rw [List.getElem?_eq_getElem (by omega), List.getElem?_eq_getElem (by omega)]
      simp only [List.getD_eq_getElem?_getD, List.getElem?_eq_getElem (show 0 < al.length by omega),
        List.getElem?_eq_getElem (show 1 < al.length by omega), Option.getD_some] at e
      rw [e]
    · omega
  · rintro ⟨hT, h⟩ n hn
    have hn' : n < 2 ^ T.bits cfg := hn
    have hl := congrArg List.length h
    rw [List.length_take, List.length_take] at hl
    have e := congrArg (·[n]?) h
    simp only [List.getElem?_take, hn', ↓reduceIte] at e
    rw [List.getElem?_eq_getElem (by omega), List.getElem?_eq_getElem (by omega)] at e
    have e1 := h1.one n hn' (by omega)
    have e2 := h2.one n hn' (by omega)
    rw [e1, e2, Option.some.inj e]

/-- C107: likewise for counting from 0 and counting from 1. -/
theorem C107_from_zero_or_one {cfg : Cfg} {T : IntTy} {d d' : DigitSys} {al al' : List Char} (hp : Plain cfg d al) (hp' : Plain cfg d' al')
    (hz : (d.level 0).hasZero = true ∧ 2 ≤ al.length ∨ (d.level 0).hasZero = false ∧ (d.level 0).zeroBased = true ∧ 1 ≤ al.length)
    (hz' : (d'.level 0).hasZero = false) (h0' : (d'.level 0).zeroBased = false) :
    (∀ n, T.Fits cfg n → view (d.tryFormat cfg T n) = view (d'.tryFormat cfg T n)) ↔
      2 ^ T.bits cfg ≤ al'.length ∧ al.take (2 ^ T.bits cfg) = al'.take (2 ^ T.bits cfg) := by
  have h256 := bits_ge cfg T
  have h1 : SymbolsFirst (2 ^ T.bits cfg) al (fun n => view (d.tryFormat cfg T n)) := by
    rcases hz with ⟨hz, hb⟩ | ⟨hz, h0, hb⟩
    · exact zero_first hp hz hb
    · exact letters_first hp hz h0 hb
  have hl : 1 ≤ al.length := by rcases hz with ⟨-, h⟩ | ⟨-, -, h⟩ <;> omega
  have first : 2 ^ T.bits cfg ≤ al'.length → SymbolsFirst (2 ^ T.bits cfg) al' (fun n => view (d'.tryFormat cfg T n)) := fun hT =>
    ⟨fun n hn h => by
      have : view (d'.tryFormat cfg T n) = deliver cfg.alloc n (spell al' [n]) := (format_wide (n + 64) 7 rfl hp'.digits hp'.usize hT hn).view
      rw [this, spell_one h, deliver_char], fun n hn h => by omega⟩
  constructor
  · intro h
    have hT : 2 ^ T.bits cfg ≤ al'.length := Nat.le_of_not_lt fun hT => by
      have e := h 0 (show 0 < _ by omega)
      have e' : d'.tryFormat cfg T 0 = .err .noZeroSymbol := format_one_zero (0 + 64) 7 hp' hz' h0' hT (by omega)
      have e1 := h1.one 0 (by omega) hl
      rw [e, e'] at e1
      cases e1
    exact ⟨hT, h1.determines (first hT) h⟩
  · rintro ⟨hT, h⟩ n hn
    have hn' : n < 2 ^ T.bits cfg := hn
    have hl := congrArg List.length h
    rw [List.length_take, List.length_take] at hl
    have e := congrArg (·[n]?) h
    simp only [List.getElem?_take, hn', ↓reduceIte] at e
    rw [List.getElem?_eq_getElem (by omega), List.getElem?_eq_getElem (by omega)] at e
    have e1 := h1.one n hn' (by omega)
    have e2 := (first hT).one n hn' (by omega)
    rw [e1, e2, Option.some.inj e]

/-- C107, enumerated sets (with `alloc`): all results agree if and only if both or neither have a zero symbol and the symbols agree as far as
the type reaches. -/
theorem C107_enumerated {cfg : Cfg} {T : IntTy} {e e' : EnumSet} (hal : cfg.alloc = true) (hl : e.symbols.length < 2 ^ cfg.ptr.bits)
    (hl' : e'.symbols.length < 2 ^ cfg.ptr.bits) :
    (∀ n, T.Fits cfg n → view (e.tryFormat cfg T n) = view (e'.tryFormat cfg T n)) ↔
      e.hasZero = e'.hasZero ∧
      e.symbols.take (2 ^ T.bits cfg - if e.hasZero then 0 else 1) = e'.symbols.take (2 ^ T.bits cfg - if e.hasZero then 0 else 1) := by
  have h256 := bits_ge cfg T
  obtain ⟨z, x⟩ := e
  obtain ⟨z', y⟩ := e'
  have give : ∀ {z : Bool} {x : List (List Char)} (n : Nat), x.length < 2 ^ cfg.ptr.bits →
      view ((EnumSet.mk z x).tryFormat cfg T n) = if z = false ∧ n = 0 then .err .noZeroSymbol
        else match x[if z then n else n - 1]? with
          | some t => .ok (t, decide (utf8Len t ≤ 62))
          | none => .err (.outOfBounds n) := fun {z} {x} n hl => by
    rw [C45_enumerated _ hl]
    simp only [hal, ↓reduceIte]
    split
    · rfl
    · split
      · next t ht => rw [ht]; by_cases h : utf8Len t ≤ 62 <;> simp [h]
      · next ht => rw [ht]
  have zero : ∀ {z : Bool} {x : List (List Char)}, x.length < 2 ^ cfg.ptr.bits →
      (view ((EnumSet.mk z x).tryFormat cfg T 0) = .err .noZeroSymbol ↔ z = false) := fun {z} {x} hl => by
    rw [give 0 hl]
    cases z
    · simp
    · simp only [Bool.true_eq_false, false_and, ↓reduceIte, iff_false]
      cases x[0]? <;> simp
  simp only at hl hl'
  constructor
  · intro h
    have ez : z = z' := by
      have h0 := h 0 (show 0 < _ by omega)
      have a := zero (z := z) hl
      have b := zero (z := z') hl'
      rw [h0] at a
      have := a.symm.trans b
      cases z <;> cases z' <;> simp_all
    subst ez
    refine ⟨rfl, ?_⟩
    apply List.ext_getElem?
    intro k
    rw [List.getElem?_take, List.getElem?_take]
    simp only
    generalize ho : (if z then 0 else 1) = off
    split
    · next hk =>
      have h := h (k + off) (show k + off < _ by omega)
      have i1 : ¬ (z = false ∧ k + off = 0) := by
        rintro ⟨rfl, h⟩
        simp at ho
        omega
      have i2 : (if z then k + off else k + off - 1) = k := by subst ho; cases z <;> simp
      rw [give _ hl, give _ hl', if_neg i1, if_neg i1, i2] at h
      cases hx : x[k]? <;> cases hy : y[k]? <;> rw [hx, hy] at h <;> simp_all
    · rfl
  · rintro ⟨ez, h⟩ n hn
    simp only at ez h
    subst ez
    have hn' : n < 2 ^ T.bits cfg := hn
    rw [give _ hl, give _ hl']
    split
    · rfl
    · next h0 =>
      have e := congrArg (·[if z then n else n - 1]?) h
      have hlt : (if z then n else n - 1) < 2 ^ T.bits cfg - if z then 0 else 1 := by
        cases z
        · simp at h0 ⊢; omega
        · simp; omega
      simp only [List.getElem?_take, hlt, ↓reduceIte] at e
      rw [e]

/-- The digits `0`, `1`, `2` and `0`, `1` write some number of `u8` differently; letters and the same letters behind a name do not. -/
example : (¬ ∀ n, IntTy.u8.Fits ⟨true, .w64, true⟩ n → view ((DigitSys.digitSetNew ['0', '1', '2']).tryFormat ⟨true, .w64, true⟩ .u8 n) =
      view ((DigitSys.digitSetNew ['0', '1']).tryFormat ⟨true, .w64, true⟩ .u8 n)) ∧
    ∀ n, IntTy.u8.Fits ⟨true, .w64, true⟩ n → view (letterUpper.tryFormat ⟨true, .w64, true⟩ .u8 n) =
      view ((DigitSys.digitSetZeroless letterUpperDigits).tryFormat ⟨true, .w64, true⟩ .u8 n) :=
  ⟨fun h => absurd ((C107_zero ⟨rfl, digitSetNew_hasDigits _, by decide⟩ ⟨rfl, digitSetNew_hasDigits _, by decide⟩ rfl rfl (by decide)
      (by decide)).mp h) (by decide +kernel),
    (C107_letters ⟨rfl, named_hasDigits (digitSetZeroless_hasDigits _), by decide⟩ ⟨rfl, digitSetZeroless_hasDigits _, by decide⟩ rfl rfl rfl rfl
      (by decide) (by decide)).mpr rfl⟩

/-- The same two characters with and without a zero digit, and counted from 0 and from 1, write some number differently. -/
example : (¬ ∀ n, IntTy.u8.Fits ⟨false, .w16, true⟩ n → view ((DigitSys.digitSetNew ['a', 'b']).tryFormat ⟨false, .w16, true⟩ .u8 n) =
      view ((DigitSys.digitSetZeroless ['a', 'b']).tryFormat ⟨false, .w16, true⟩ .u8 n)) ∧
    ¬ ∀ n, IntTy.u8.Fits ⟨false, .w16, true⟩ n → view ((DigitSys.digitSetZeroless ['a', 'b']).tryFormat ⟨false, .w16, true⟩ .u8 n) =
      view ((DigitSys.digitSetZeroless ['a', 'b']).oneBased.tryFormat ⟨false, .w16, true⟩ .u8 n) :=
  ⟨fun h => absurd ((C107_zero_letters (al := ['a', 'b']) (al' := ['a', 'b']) ⟨rfl, digitSetNew_hasDigits _, by decide⟩
      ⟨rfl, digitSetZeroless_hasDigits _, by decide⟩ rfl rfl rfl (by decide) (by decide) (by decide)).mp h).1 (by decide),
    fun h => absurd ((C107_from_zero_or_one (al := ['a', 'b']) (al' := ['a', 'b']) ⟨rfl, digitSetZeroless_hasDigits _, by decide⟩
      (oneBased_plain ⟨rfl, digitSetZeroless_hasDigits _, by decide⟩) (.inr ⟨rfl, rfl, by decide⟩) rfl rfl).mp h).1 (by decide)⟩

/-- A series with a third symbol is another system. -/
example : ¬ ∀ n, IntTy.u8.Fits ⟨true, .w64, true⟩ n → view ((EnumSet.mk true [['x'], ['y']]).tryFormat ⟨true, .w64, true⟩ .u8 n) =
    view ((EnumSet.mk true [['x'], ['y'], ['z']]).tryFormat ⟨true, .w64, true⟩ .u8 n) :=
  fun h => absurd ((C107_enumerated rfl (by decide) (by decide)).mp h).2 (by decide +kernel)

end Props
end Nominals
