import Verif.Props.LabelOrder
import Verif.Props.Catalogue
import Verif.Props.Built

/-!
# Property C100, exactly: digit collections and enumerated sets whose labels sort like their numbers
-/

namespace Nominals.Props

open Nominals.Spec

/-- A collection of at least two symbols writes its first numbers with one symbol each. -/
theorem one_symbol_label {cfg : Cfg} {T : IntTy} {d : DigitSys} {al : List Char} (hp : Plain cfg d al) (hb : 2 ≤ al.length) {off : Nat}
    (ho : off = if (d.level 0).hasZero = false ∧ (d.level 0).zeroBased = false ∧ al.length < 2 ^ T.bits cfg then 1 else 0)
    {k : Nat} (hk : k < al.length) (hn : T.Fits cfg (k + off)) :
    view (d.tryFormat cfg T (k + off)) = .ok ([al[k]], true) := by
  have hsp : spell al [k] = [al[k]] := by simp [spell, List.getElem?_eq_getElem hk]
  have hn' : k + off < 2 ^ T.bits cfg := hn
  rw [← hsp, ← deliver_word (alloc := cfg.alloc) (n := k + off) (w := [k]) (by simp)]
  cases hz : (d.level 0).hasZero with
  | true =>
    rw [hz] at ho
    simp at ho
    subst ho
    obtain ⟨ds, hds, hv⟩ := positional hp hz hb hn
    rw [hv, numeral_unique hb hds (show IsNumeral al.length (k + 0) [k] from ⟨by simpa using hk, by simp [value], by
      by_cases h : k = 0
      · exact .inl (by rw [h])
      · exact .inr ⟨k, [], rfl, h⟩⟩)]
  | false =>
    cases h0 : (d.level 0).zeroBased with
    | true =>
      rw [h0] at ho
      simp at ho
      subst ho
      rw [C10_columns hp hz h0 (by omega) hn, Nat.add_zero, column_of_lt hk]
    | false =>
      rw [hz, h0] at ho
      by_cases hT : al.length < 2 ^ T.bits cfg
      · simp [hT] at ho
        subst ho
        have := (format_one (T := T) (n := k + 1) (k + 1 + 64) 7 hp hz h0 (by omega) hT (by omega) (by omega)).view
        rw [Nat.add_sub_cancel, column_of_lt hk] at this
        exact this
      · simp [hT] at ho
        subst ho
        exact (format_wide (k + 64) 7 rfl hp.digits hp.usize (by omega) hn).view

/-- The first number that needs two symbols. -/
theorem two_symbol_label {cfg : Cfg} {T : IntTy} {d : DigitSys} {al : List Char} (hp : Plain cfg d al) (hb : 2 ≤ al.length) {off : Nat}
    (ho : off = if (d.level 0).hasZero = false ∧ (d.level 0).zeroBased = false then 1 else 0) (hn : T.Fits cfg (al.length + off)) :
    view (d.tryFormat cfg T (al.length + off)) = .ok (spell al [if (d.level 0).hasZero then 1 else 0, 0], true) := by
  have hn' : al.length + off < 2 ^ T.bits cfg := hn
  rw [← deliver_word (alloc := cfg.alloc) (n := al.length + off) (by simp)]
  cases hz : (d.level 0).hasZero with
  | true =>
    rw [hz] at ho
    simp at ho
    subst ho
    obtain ⟨ds, hds, hv⟩ := positional hp hz hb hn
    rw [hv, numeral_unique hb hds (show IsNumeral al.length (al.length + 0) [1, 0] from
      ⟨by simp; omega, by simp [value], .inr ⟨1, [0], rfl, by omega⟩⟩)]
    rfl
  | false =>
    cases h0 : (d.level 0).zeroBased with
    | true =>
      rw [h0] at ho
      simp at ho
      subst ho
      rw [C10_columns hp hz h0 (by omega) hn, Nat.add_zero, column_first hb]
      rfl
    | false =>
      rw [hz, h0] at ho
      simp at ho
      subst ho
      have := (format_one (T := T) (n := al.length + 1) (al.length + 1 + 64) 7 hp hz h0 (by omega) (by omega) (by omega) (by omega)).view
      rw [Nat.add_sub_cancel, column_first hb] at this
      exact this

theorem compare_single (x y : Nat) : compare [x] [y] = compare x y := by
  simp only [List.compare_eq_compareLex, List.compareLex_cons_cons]
  cases compare x y <;> rfl

theorem compare_single_pair {x y z : Nat} (h : compare [x] [y, z] = .lt) : x ≤ y := by
  rcases Nat.lt_or_ge y x with h1 | h1
  · simp only [List.compare_eq_compareLex, List.compareLex_cons_cons, Nat.compare_eq_gt.mpr h1] at h
    cases h
  · exact h1

/-- C100, digit collections, exactly: the labels of a collection that is not fixed sort like their numbers if and only if it has at most
one symbol, or so many that every value of the integer type is written with one symbol, and these symbols are in code-point order. -/
theorem C100_digits_exact {cfg : Cfg} {T : IntTy} {d : DigitSys} {al : List Char} (hp : Plain cfg d al) :
    (∀ n m x y, T.Fits cfg n → T.Fits cfg m → d.tryFormat cfg T n = .ok x → d.tryFormat cfg T m = .ok y → x.cmp y = some (compare n m)) ↔
      al.length ≤ 1 ∨
        (2 ^ T.bits cfg ≤ al.length + (if (d.level 0).hasZero = false ∧ (d.level 0).zeroBased = false then 1 else 0) ∧
          (al.take (2 ^ T.bits cfg)).Pairwise fun a b => a.val.toNat < b.val.toNat) := by
  have h256 := bits_ge cfg T
  by_cases hb : 2 ≤ al.length
  · generalize ho : (if (d.level 0).hasZero = false ∧ (d.level 0).zeroBased = false ∧ al.length < 2 ^ T.bits cfg then 1 else 0) = off
    generalize ho' : (if (d.level 0).hasZero = false ∧ (d.level 0).zeroBased = false then 1 else 0) = off'
    have one : ∀ k (hk : k < al.length), T.Fits cfg (k + off) → ∃ x, d.tryFormat cfg T (k + off) = .ok x ∧ x.asStr = some [al[k]] :=
      fun k hk hn => string_of_view (one_symbol_label hp hb ho.symm hk hn)
    have less : (∀ n m x y, T.Fits cfg n → T.Fits cfg m → d.tryFormat cfg T n = .ok x → d.tryFormat cfg T m = .ok y →
        x.cmp y = some (compare n m)) → ∀ i j (hi : i < al.length) (hj : j < al.length), T.Fits cfg (j + off) → i < j →
          al[i].val.toNat < al[j].val.toNat := by
      intro h i j hi hj hf hij
      have hf' : j + off < 2 ^ T.bits cfg := hf
      have hfi : T.Fits cfg (i + off) := by show _ < _; omega
      obtain ⟨x, hx, tx⟩ := one i hi hfi
      obtain ⟨y, hy, ty⟩ := one j hj hf
      have := h _ _ x y hfi hf hx hy
      rw [cmp_of_asStr tx ty, Nat.compare_eq_lt.mpr (by omega : i + off < j + off)] at this
      simp only [List.map_cons, List.map_nil, compare_single, Option.some.injEq] at this
      exact Nat.compare_eq_lt.mp this
    constructor
    · intro h
      refine .inr ⟨?_, ?_⟩
      · refine Classical.byContradiction fun hlt => ?_
        have hoff : off = off' := by
          subst ho ho'
          have : al.length < 2 ^ T.bits cfg := by omega
          simp [this]
        have hf : T.Fits cfg (al.length + off') := by show _ < _; omega
        obtain ⟨z, hz', tz⟩ := string_of_view (two_symbol_label hp hb ho'.symm hf)
        have hfl : T.Fits cfg (al.length - 1 + off) := by show _ < _; omega
        obtain ⟨y, hy, ty⟩ := one (al.length - 1) (by omega) hfl
        have e := h _ _ y z hfl hf hy hz'
        rw [cmp_of_asStr ty tz, Nat.compare_eq_lt.mpr (by omega)] at e
        simp only [spell, List.map_cons, List.map_nil, Option.some.injEq] at e
        have hle := compare_single_pair e
        cases hz : (d.level 0).hasZero with
        | true =>
          by_cases h2 : al.length = 2
          · obtain ⟨n, m, x, y, h1, h3, h4, h5, h6⟩ := C100_positional (T := T) hp hz hb (by show _ < _; rw [h2]; omega)
            rw [h2] at h3
            have := h n m x y (by show _ < _; omega) (by show _ < _; omega) h4 h5
            rw [Nat.compare_eq_lt.mpr h1] at this
            exact h6 this
          · have := less h 1 (al.length - 1) (by omega) (by omega) hfl (by omega)
            rw [hz] at hle
            simp only [↓reduceIte, List.getD_eq_getElem?_getD, List.getElem?_eq_getElem (show 1 < al.length by omega),
              Option.getD_some] at hle
            omega
        | false =>
          have := less h 0 (al.length - 1) (by omega) (by omega) hfl (by omega)
          rw [hz] at hle
          simp only [Bool.false_eq_true, ↓reduceIte, List.getD_eq_getElem?_getD, List.getElem?_eq_getElem (show 0 < al.length by omega),
            Option.getD_some] at hle
          omega
      · rw [List.pairwise_iff_getElem]
        intro i j hi hj hij
        rw [List.length_take] at hi hj
        rw [List.getElem_take, List.getElem_take]
        refine less h i j (by omega) (by omega) ?_ hij
        show _ < _
        by_cases hT : al.length < 2 ^ T.bits cfg
        · have : off ≤ 1 := by subst ho; split <;> omega
          have hoff : off = off' := by subst ho ho'; simp [hT]
          omega
        · have : off = 0 := by subst ho; simp [hT]
          omega
    · rintro (h | ⟨hl, hs⟩)
      · omega
      · intro n m x y hn hm hx hy
        have text : ∀ {n x}, T.Fits cfg n → d.tryFormat cfg T n = .ok x → off ≤ n ∧ ∃ h : n - off < al.length, x.asStr = some [al[n - off]] := by
          intro n x hn hx
          have hn' : n < 2 ^ T.bits cfg := hn
          have hle : off ≤ n := by
            refine Classical.byContradiction fun hlt => ?_
            have h1 : off ≤ 1 := by subst ho; split <;> omega
            have hn0 : n = 0 := by omega
            have hc : (d.level 0).hasZero = false ∧ (d.level 0).zeroBased = false ∧ al.length < 2 ^ T.bits cfg := by
              refine Classical.byContradiction fun hc => ?_
              rw [if_neg hc] at ho
              omega
            subst hn0
            have : d.tryFormat cfg T 0 = .err .noZeroSymbol := format_one_zero (0 + 64) 7 hp hc.1 hc.2.1 hc.2.2 (by omega)
            rw [this] at hx
            cases hx
          have hlt : n - off < al.length := by
            by_cases hT : al.length < 2 ^ T.bits cfg
            · have hoff : off = off' := by subst ho ho'; simp [hT]
              omega
            · omega
          refine ⟨hle, hlt, ?_⟩
          have := one_symbol_label (T := T) hp hb ho.symm hlt (by rw [Nat.sub_add_cancel hle]; exact hn)
          rw [Nat.sub_add_cancel hle] at this
          obtain ⟨x', hx', tx⟩ := string_of_view this
          rw [hx] at hx'
          cases hx'
          exact tx
        have hn' : n < 2 ^ T.bits cfg := hn
        have hm' : m < 2 ^ T.bits cfg := hm
        obtain ⟨a1, a2, tx⟩ := text hn hx
        obtain ⟨b1, b2, ty⟩ := text hm hy
        rw [List.pairwise_iff_getElem] at hs
        have key : ∀ i j (hi : i < al.length) (hj : j < al.length), i < 2 ^ T.bits cfg → j < 2 ^ T.bits cfg → i < j →
            al[i].val.toNat < al[j].val.toNat := by
          intro i j hi hj hi' hj' hij
          have := hs i j (by rw [List.length_take]; omega) (by rw [List.length_take]; omega) hij
          rwa [List.getElem_take, List.getElem_take] at this
        rw [cmp_of_asStr tx ty]
        simp only [List.map_cons, List.map_nil, compare_single, Option.some.injEq]
        rcases Nat.lt_trichotomy n m with h | h | h
        · rw [Nat.compare_eq_lt.mpr h]
          exact Nat.compare_eq_lt.mpr (key _ _ a2 b2 (by omega) (by omega) (by omega))
        · subst h
          rw [Nat.compare_eq_eq.mpr rfl, Nat.compare_eq_eq.mpr rfl]
        · rw [Nat.compare_eq_gt.mpr h]
          exact Nat.compare_eq_gt.mpr (key _ _ b2 a2 (by omega) (by omega) (by omega))
  · refine ⟨fun _ => .inl (by omega), fun _ => ?_⟩
    intro n m x y hn hm hx hy
    by_cases h0 : al.length = 0
    · have := C49_empty_collection (cfg := cfg) (T := T) (d := d) (n := n) (.inl hp.fixed) (hp.digits.1.trans h0)
      rw [this] at hx
      split at hx <;> cases hx
    · have h1 : al.length = 1 := by omega
      cases hz : (d.level 0).hasZero with
      | false => exact (C100_columns hp hz (by omega) (by show _ < _; omega)).mpr h1 n m x y hn hm hx hy
      | true =>
        obtain ⟨ch, rfl⟩ := List.length_eq_one_iff.mp h1
        have zero : ∀ {n x}, d.tryFormat cfg T n = .ok x → n = 0 := by
          intro n x hx
          refine Classical.byContradiction fun hn => ?_
          cases ha : cfg.alloc with
          | true =>
            have : d.tryFormat cfg T n = .timeout := C17_one_symbol_diverges ha hp hz hn (n + 64) 7
            rw [this] at hx
            cases hx
          | false =>
            have : d.tryFormat cfg T n = .err (.outOfMemory n) := C17_one_symbol_out_of_memory ha hp hz hn (n + 64) 7 (by omega)
            rw [this] at hx
            cases hx
        have hn0 := zero hx
        have hm0 := zero hy
        subst hn0 hm0
        rw [hx] at hy
        cases hy
        obtain ⟨t, ht, -⟩ := reachable_holds (C80_user_defined.1 d _ _ x hx)
        rw [cmp_of_asStr ht.asStr ht.asStr, compare_codes_self]
        rfl

/-- The 256 characters from `Ā` on as digits of `u8`: every label is one character, and they sort like their numbers. -/
example : ∀ n m x y, IntTy.u8.Fits ⟨true, .w64, true⟩ n → IntTy.u8.Fits ⟨true, .w64, true⟩ m →
    (DigitSys.digitSetNew ((List.range 256).map fun i => Char.ofNat (256 + i))).tryFormat ⟨true, .w64, true⟩ .u8 n = .ok x →
    (DigitSys.digitSetNew ((List.range 256).map fun i => Char.ofNat (256 + i))).tryFormat ⟨true, .w64, true⟩ .u8 m = .ok y →
    x.cmp y = some (compare n m) :=
  (C100_digits_exact (T := .u8) (al := (List.range 256).map fun i => Char.ofNat (256 + i))
    ⟨rfl, digitSetNew_hasDigits _, by decide +kernel⟩).mpr (.inr ⟨by decide +kernel, by decide +kernel⟩)

/-- With 255 of them the last number has two digits, and one-based letters are the exact fit. -/
example : (¬ ∀ n m x y, IntTy.u8.Fits ⟨true, .w64, true⟩ n → IntTy.u8.Fits ⟨true, .w64, true⟩ m →
      (DigitSys.digitSetNew ((List.range 255).map fun i => Char.ofNat (256 + i))).tryFormat ⟨true, .w64, true⟩ .u8 n = .ok x →
      (DigitSys.digitSetNew ((List.range 255).map fun i => Char.ofNat (256 + i))).tryFormat ⟨true, .w64, true⟩ .u8 m = .ok y →
      x.cmp y = some (compare n m)) ∧
    (∀ n m x y, IntTy.u8.Fits ⟨true, .w64, true⟩ n → IntTy.u8.Fits ⟨true, .w64, true⟩ m →
      (DigitSys.digitSetZeroless ((List.range 255).map fun i => Char.ofNat (256 + i))).oneBased.tryFormat ⟨true, .w64, true⟩ .u8 n = .ok x →
      (DigitSys.digitSetZeroless ((List.range 255).map fun i => Char.ofNat (256 + i))).oneBased.tryFormat ⟨true, .w64, true⟩ .u8 m = .ok y →
      x.cmp y = some (compare n m)) :=
  ⟨fun h => absurd ((C100_digits_exact (T := .u8) (al := (List.range 255).map fun i => Char.ofNat (256 + i))
    ⟨rfl, digitSetNew_hasDigits _, by decide +kernel⟩).mp h) (by
      rintro (h | ⟨h, -⟩)
      · exact absurd h (by decide +kernel)
      · exact absurd h (by decide +kernel)),
   (C100_digits_exact (T := .u8) (al := (List.range 255).map fun i => Char.ofNat (256 + i))
    (oneBased_plain ⟨rfl, digitSetZeroless_hasDigits _, by decide +kernel⟩)).mpr (.inr ⟨by decide +kernel, by decide +kernel⟩)⟩

/-! ## Enumerated sets -/

/-- C100, enumerated sets, exactly: the labels sort like their numbers if and only if the symbols within reach of the integer type that can be
stored (all of them with `alloc`, those of at most 62 bytes without) are in strictly ascending order. -/
theorem C100_enumerated_exact {cfg : Cfg} {T : IntTy} (e : EnumSet) (hl : e.symbols.length < 2 ^ cfg.ptr.bits) :
    (∀ n m x y, T.Fits cfg n → T.Fits cfg m → e.tryFormat cfg T n = .ok x → e.tryFormat cfg T m = .ok y → x.cmp y = some (compare n m)) ↔
      ((e.symbols.take (2 ^ T.bits cfg - if e.hasZero then 0 else 1)).filter fun t => cfg.alloc || decide (utf8Len t ≤ 62)).Pairwise
        fun t u => compare (t.map (·.val.toNat)) (u.map (·.val.toNat)) = .lt := by
  generalize ho : (if e.hasZero then 0 else 1) = off
  have give : ∀ k t, e.symbols[k]? = some t → (cfg.alloc || decide (utf8Len t ≤ 62)) = true →
      ∃ x, e.tryFormat cfg T (k + off) = .ok x ∧ x.asStr = some t := by
    intro k t hk hs
    have hv := C45_enumerated (T := T) (n := k + off) e hl
    have h1 : ¬ (e.hasZero = false ∧ k + off = 0) := by
      rintro ⟨hz, h0⟩
      rw [hz] at ho
      simp at ho
      omega
    have h2 : (if e.hasZero then k + off else k + off - 1) = k := by
      subst ho
      cases e.hasZero <;> simp
    rw [if_neg h1, h2, hk] at hv
    by_cases hle : utf8Len t ≤ 62
    · simp only [hle, ↓reduceIte] at hv
      exact string_of_view hv
    · have ha : cfg.alloc = true := by simpa [hle] using hs
      simp only [hle, ha, ↓reduceIte] at hv
      exact string_of_view hv
  have take : ∀ {n x}, e.tryFormat cfg T n = .ok x →
      off ≤ n ∧ ∃ t, e.symbols[n - off]? = some t ∧ x.asStr = some t ∧ (cfg.alloc || decide (utf8Len t ≤ 62)) = true := by
    intro n x hx
    have h := C45_enumerated (T := T) (n := n) e hl
    obtain ⟨t, ht, -⟩ := reachable_holds (C80_user_defined.2.2.2 e x hx)
    have ht := ht.asStr
    rw [view_of_ok hx ht] at h
    split at h
    · cases h
    · next hn =>
      have h2 : (if e.hasZero then n else n - 1) = n - off := by
        subst ho
        cases e.hasZero <;> simp
      rw [h2] at h
      have h3 : off ≤ n := by
        subst ho
        cases hz : e.hasZero
        · have : n ≠ 0 := fun h0 => hn ⟨hz, h0⟩
          simp
          omega
        · simp
      refine ⟨h3, t, ?_, ht, ?_⟩
      · split at h
        · next u hu =>
          rw [hu]
          repeat' split at h
          all_goals first | (simp only [Res.ok.injEq, Prod.mk.injEq] at h; rw [h.1]) | cases h
        · cases h
      · split at h
        · next u hu =>
          split at h
          · next hle =>
            simp only [Res.ok.injEq, Prod.mk.injEq] at h
            simp [h.1, hle]
          · split at h
            · next ha => simp [ha]
            · cases h
        · cases h
  rw [List.pairwise_filter, List.pairwise_iff_getElem]
  constructor
  · intro h i j hi hj hij hsi hsj
    rw [List.length_take] at hi hj
    rw [List.getElem_take] at hsi
    rw [List.getElem_take] at hsj
    rw [List.getElem_take, List.getElem_take]
    obtain ⟨x, hx, tx⟩ := give i _ (List.getElem?_eq_getElem (by omega)) hsi
    obtain ⟨y, hy, ty⟩ := give j _ (List.getElem?_eq_getElem (by omega)) hsj
    have := h _ _ x y (show _ < _ by omega) (show _ < _ by omega) hx hy
    rw [cmp_of_asStr tx ty, Nat.compare_eq_lt.mpr (by omega)] at this
    exact Option.some.inj this
  · intro h n m x y hn hm hx hy
    have hn' : n < 2 ^ T.bits cfg := hn
    have hm' : m < 2 ^ T.bits cfg := hm
    obtain ⟨a1, t, a2, tx, a3⟩ := take hx
    obtain ⟨b1, u, b2, ty, b3⟩ := take hy
    obtain ⟨a4, a5⟩ := List.getElem?_eq_some_iff.1 a2
    obtain ⟨b4, b5⟩ := List.getElem?_eq_some_iff.1 b2
    rw [cmp_of_asStr tx ty]
    congr 1
    rcases Nat.lt_trichotomy n m with hlt | heq | hlt
    · rw [Nat.compare_eq_lt.mpr hlt]
      have := h (n - off) (m - off) (by rw [List.length_take]; omega) (by rw [List.length_take]; omega) (by omega)
      rw [List.getElem_take, List.getElem_take, a5, b5] at this
      exact this a3 b3
    · subst heq
      rw [a2] at b2
      cases b2
      rw [Nat.compare_eq_eq.mpr rfl, compare_codes_self]
    · rw [Nat.compare_eq_gt.mpr hlt]
      have := h (m - off) (n - off) (by rw [List.length_take]; omega) (by rw [List.length_take]; omega) (by omega)
      rw [List.getElem_take, List.getElem_take, a5, b5] at this
      rw [Std.OrientedCmp.eq_swap (cmp := compare), this b3 a3]
      rfl

/-- `a`, `ab`, `b` is in order; `a`, `b`, `ab` is not. -/
example : (∀ n m x y, IntTy.u8.Fits ⟨false, .w16, true⟩ n → IntTy.u8.Fits ⟨false, .w16, true⟩ m →
      EnumSet.tryFormat ⟨true, [['a'], ['a', 'b'], ['b']]⟩ ⟨false, .w16, true⟩ .u8 n = .ok x →
      EnumSet.tryFormat ⟨true, [['a'], ['a', 'b'], ['b']]⟩ ⟨false, .w16, true⟩ .u8 m = .ok y → x.cmp y = some (compare n m)) ∧
    ¬ ∀ n m x y, IntTy.u8.Fits ⟨false, .w16, true⟩ n → IntTy.u8.Fits ⟨false, .w16, true⟩ m →
      EnumSet.tryFormat ⟨true, [['a'], ['b'], ['a', 'b']]⟩ ⟨false, .w16, true⟩ .u8 n = .ok x →
      EnumSet.tryFormat ⟨true, [['a'], ['b'], ['a', 'b']]⟩ ⟨false, .w16, true⟩ .u8 m = .ok y → x.cmp y = some (compare n m) :=
  ⟨(C100_enumerated_exact _ (by decide)).mpr (by decide +kernel), fun h => absurd ((C100_enumerated_exact _ (by decide)).mp h) (by decide +kernel)⟩

end Nominals.Props
