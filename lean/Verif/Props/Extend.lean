import Verif.Props.Digits
import Verif.Props.Additive
import Verif.Props.Catalogue

/-!
C106. Adding symbols to a system of the user's own: which numbers keep their labels.
-/

namespace Nominals

open Nominals.Spec

theorem foldl_base_lt {f : Nat → Nat} {b b' : Nat} (hb : 1 ≤ b) (hbb : b ≤ b') (ds : List Nat) : ∀ {a a' : Nat}, a < a' →
    ds.foldl (fun a d => a * b + f d) a < ds.foldl (fun a d => a * b' + f d) a' := by
  induction ds with
  | nil => exact fun h => h
  | cons d ds ih =>
    intro a a' h
    refine ih (show a * b + f d < a' * b' + f d from ?_)
    have h1 : a * b < a' * b := Nat.mul_lt_mul_of_pos_right h hb
    have h2 : a' * b ≤ a' * b' := Nat.mul_le_mul_left _ hbb
    omega

/-- Two or more digits, the first not 0, denote more in a larger base. -/
theorem value_base {b b' d e : Nat} {ds : List Nat} (hb : 1 ≤ b) (hbb : b < b') (h0 : d ≠ 0) : value b (d :: e :: ds) < value b' (d :: e :: ds) := by
  have := foldl_base_lt (f := id) hb (Nat.le_of_lt hbb) ds (a := d * b + e) (a' := d * b' + e)
    (by have := Nat.mul_lt_mul_of_pos_left hbb (Nat.pos_of_ne_zero h0); omega)
  simpa [value] using this

theorem ordinal_base {b b' d e : Nat} {ds : List Nat} (hb : 1 ≤ b) (hbb : b < b') : ordinal b (d :: e :: ds) < ordinal b' (d :: e :: ds) := by
  have := foldl_base_lt (f := (· + 1)) hb (Nat.le_of_lt hbb) ds (a := (d + 1) * b + (e + 1)) (a' := (d + 1) * b' + (e + 1))
    (by have := Nat.mul_lt_mul_of_pos_left hbb (Nat.succ_pos d); simp only [Nat.succ_eq_add_one] at this; omega)
  simpa [ordinal] using this

theorem spell_prefix {al more : List Char} {ds : List Nat} (h : ∀ d ∈ ds, d < al.length) : spell (al ++ more) ds = spell al ds := by
  refine List.map_congr_left fun d hd => ?_
  rw [List.getD_eq_getElem?_getD, List.getD_eq_getElem?_getD, List.getElem?_append_left (h d hd)]

theorem greedy_local {table table' : List (List Char × Nat)} {n : Nat} {ps : List (List Char × Nat)} (hg : Greedy table n ps)
    (h : ∀ p : List Char × Nat, p.2 ≤ n → (p ∈ table ↔ p ∈ table')) : Greedy table' n ps := by
  induction hg with
  | stop n hs =>
    refine .stop n fun q hq h0 => ?_
    by_cases hle : q.2 ≤ n
    · exact hs q ((h q hle).mpr hq) h0
    · omega
  | take n p ps hp h0 hle hmax _ ih =>
    exact .take n p ps ((h p hle).mp hp) h0 hle (fun q hq hqn => hmax q ((h q hqn).mpr hq) hqn) (ih fun q hq => h q (by omega))

theorem value_unique {table : List (List Char × Nat)} (hd : Descending table) {s t : List Char} {v : Nat} (hs : (s, v) ∈ table)
    (ht : (t, v) ∈ table) : s = t := by
  induction table with
  | nil => cases hs
  | cons p table ih =>
    obtain ⟨h1, h2⟩ := List.pairwise_cons.mp hd
    rcases List.mem_cons.mp hs with e | hs <;> rcases List.mem_cons.mp ht with e' | ht
    · rw [← e] at e'
      exact (Prod.mk.inj e').1.symm
    · have := h1 _ ht
      rw [← e] at this
      simp only at this
      omega
    · have := h1 _ hs
      rw [← e'] at this
      simp only at this
      omega
    · exact ih h2 hs ht

namespace Props

/-- C106, zero digit: numbers below the old number of digits keep their labels, in every build. -/
theorem C106_zero_keeps {cfg : Cfg} {T : IntTy} {d d' : DigitSys} {al more : List Char} {n : Nat} (hp : Plain cfg d al)
    (hp' : Plain cfg d' (al ++ more)) (hz : (d.level 0).hasZero = true) (hz' : (d'.level 0).hasZero = true) (hb : 2 ≤ al.length)
    (hn : T.Fits cfg n) (h : n < al.length) : view (d'.tryFormat cfg T n) = view (d.tryFormat cfg T n) := by
  have one : ∀ b, n < b → IsNumeral b n [n] := fun b hb => by
    refine ⟨fun d hd => by rw [List.mem_singleton.mp hd]; exact hb, by simp [value], ?_⟩
    by_cases h0 : n = 0
    · exact .inl (by rw [h0])
    · exact .inr ⟨n, [], rfl, h0⟩
  have hb' : 2 ≤ (al ++ more).length := by rw [List.length_append]; omega
  obtain ⟨x, hx, ex⟩ := positional hp hz hb hn
  obtain ⟨y, hy, ey⟩ := positional hp' hz' hb' hn
  rw [ex, ey, numeral_unique hb hx (one _ h), numeral_unique hb' hy (one _ (by rw [List.length_append]; omega)),
    spell_prefix fun d hd => by rw [List.mem_singleton.mp hd]; exact h]

/-- C106, zero digit: every number from the old number of digits on gets another label, whatever the integer types and builds. -/
theorem C106_zero_changes {cfg cfg' : Cfg} {T T' : IntTy} {d d' : DigitSys} {al more : List Char} {n : Nat} (hp : Plain cfg d al)
    (hp' : Plain cfg' d' (al ++ more)) (hz : (d.level 0).hasZero = true) (hz' : (d'.level 0).hasZero = true) (hb : 2 ≤ al.length)
    (hm : more ≠ []) (hd : (al ++ more).Nodup) (hn : T.Fits cfg n) (hn' : T'.Fits cfg' n) (h : al.length ≤ n) {t : List Char} {i j : Bool}
    (hv : view (d.tryFormat cfg T n) = .ok (t, i)) : view (d'.tryFormat cfg' T' n) ≠ .ok (t, j) := by
  intro hv'
  have hb' : 2 ≤ (al ++ more).length := by rw [List.length_append]; omega
  have hlt : al.length < (al ++ more).length := by
    have := List.length_pos_iff.mpr hm
    rw [List.length_append]
    omega
  obtain ⟨x, hx, ex⟩ := positional hp hz hb hn
  obtain ⟨y, hy, ey⟩ := positional hp' hz' hb' hn'
  rw [ex] at hv
  rw [ey] at hv'
  have e : spell (al ++ more) x = spell (al ++ more) y := by
    rw [spell_prefix hx.digits, deliver_ok hv, deliver_ok hv']
  have e := spell_inj hd (fun d hd => Nat.lt_trans (hx.digits d hd) hlt) hy.digits e
  subst e
  have h1 := hx.value
  have h2 := hy.value
  match x, hx with
  | [], hx => rcases hx.lead with h | ⟨_, _, h, _⟩ <;> cases h
  | [a], hx =>
    have := hx.digits a (by simp)
    simp [value] at h1
    omega
  | a :: c :: ds, hx =>
    have h0 : a ≠ 0 := by
      rcases hx.lead with h | ⟨_, _, h, h0⟩
      · cases h
      · cases h
        exact h0
    have := value_base (e := c) (ds := ds) (show 1 ≤ al.length by omega) hlt h0
    omega

theorem column_small {b n : Nat} (h : n < b) : column b n = [n] := by
  have := column_ordinal (b := b) (by omega) [n] (by simp) (by simpa using h)
  simpa [ordinal] using this

/-- C106, no zero digit, counting from 0: likewise. -/
theorem C106_letters_keeps {cfg : Cfg} {T : IntTy} {d d' : DigitSys} {al more : List Char} {n : Nat} (hp : Plain cfg d al)
    (hp' : Plain cfg d' (al ++ more)) (hz : (d.level 0).hasZero = false) (h0 : (d.level 0).zeroBased = true)
    (hz' : (d'.level 0).hasZero = false) (h0' : (d'.level 0).zeroBased = true) (hn : T.Fits cfg n) (h : n < al.length) :
    view (d'.tryFormat cfg T n) = view (d.tryFormat cfg T n) := by
  rw [C10_columns hp hz h0 (by omega) hn, C10_columns hp' hz' h0' (by rw [List.length_append]; omega) hn, column_small h,
    column_small (by rw [List.length_append]; omega), spell_prefix fun d hd => by rw [List.mem_singleton.mp hd]; exact h]

theorem column_differs {al more : List Char} {n : Nat} (hb : 1 ≤ al.length) (hm : more ≠ []) (hd : (al ++ more).Nodup) (h : al.length ≤ n) :
    spell al (column al.length n) ≠ spell (al ++ more) (column (al ++ more).length n) := by
  intro e
  have hlt : al.length < (al ++ more).length := by
    have := List.length_pos_iff.mpr hm
    rw [List.length_append]
    omega
  rw [← spell_prefix (more := more) (column_lt hb n)] at e
  have e := spell_inj hd (fun d hd => Nat.lt_trans (column_lt hb n d hd) hlt) (column_lt (by omega) n) e
  have h1 := ordinal_column hb n
  have h2 := ordinal_column (b := (al ++ more).length) (by omega) n
  rw [← e] at h2
  have h3 := column_lt hb n
  generalize column al.length n = w at h1 h2 h3
  match w with
  | [] => simp [ordinal] at h1
  | [a] =>
    have := h3 a (by simp)
    simp [ordinal] at h1
    omega
  | a :: c :: ds =>
    have := ordinal_base (d := a) (e := c) (ds := ds) hb hlt
    omega

/-- C106, no zero digit, counting from 0: all other numbers get another label, whatever the integer types and builds. -/
theorem C106_letters_changes {cfg cfg' : Cfg} {T T' : IntTy} {d d' : DigitSys} {al more : List Char} {n : Nat} (hp : Plain cfg d al)
    (hp' : Plain cfg' d' (al ++ more)) (hz : (d.level 0).hasZero = false) (h0 : (d.level 0).zeroBased = true)
    (hz' : (d'.level 0).hasZero = false) (h0' : (d'.level 0).zeroBased = true) (hb : 1 ≤ al.length) (hm : more ≠ []) (hd : (al ++ more).Nodup)
    (hn : T.Fits cfg n) (hn' : T'.Fits cfg' n) (h : al.length ≤ n) {t : List Char} {i j : Bool}
    (hv : view (d.tryFormat cfg T n) = .ok (t, i)) : view (d'.tryFormat cfg' T' n) ≠ .ok (t, j) := by
  intro hv'
  rw [C10_columns hp hz h0 hb hn] at hv
  rw [C10_columns hp' hz' h0' (by rw [List.length_append]; omega) hn'] at hv'
  exact column_differs hb hm hd h ((deliver_ok hv).trans (deliver_ok hv').symm)

/-- C106, no zero digit, counting from 1: the numbers up to the old number of symbols keep their labels, the others do not. (With as many
symbols as the integer type has values `one_based()` is ignored, C11.) -/
theorem C106_one_based {cfg : Cfg} {T : IntTy} {d d' : DigitSys} {al more : List Char} {n : Nat} (hp : Plain cfg d al)
    (hp' : Plain cfg d' (al ++ more)) (hz : (d.level 0).hasZero = false) (h0 : (d.level 0).zeroBased = false)
    (hz' : (d'.level 0).hasZero = false) (h0' : (d'.level 0).zeroBased = false) (hb : 1 ≤ al.length)
    (hT : (al ++ more).length < 2 ^ T.bits cfg) :
    (n ≤ al.length → view (d'.tryFormat cfg T n) = view (d.tryFormat cfg T n)) ∧
    (al.length < n → more ≠ [] → (al ++ more).Nodup → ∀ t i j, view (d.tryFormat cfg T n) = .ok (t, i) →
      view (d'.tryFormat cfg T n) ≠ .ok (t, j)) := by
  have hT1 : al.length < 2 ^ T.bits cfg := by rw [List.length_append] at hT; omega
  have hb' : 1 ≤ (al ++ more).length := by rw [List.length_append]; omega
  by_cases hn0 : n = 0
  · subst hn0
    have e1 : d.tryFormat cfg T 0 = .err .noZeroSymbol := format_one_zero (0 + 64) 7 hp hz h0 hT1 (by omega)
    have e2 : d'.tryFormat cfg T 0 = .err .noZeroSymbol := format_one_zero (0 + 64) 7 hp' hz' h0' hT (by omega)
    exact ⟨fun _ => by rw [e1, e2], fun h => by omega⟩
  · have e1 : view (d.tryFormat cfg T n) = deliver cfg.alloc n (spell al (column al.length (n - 1))) :=
      (format_one (n + 64) 7 hp hz h0 hb hT1 (by omega) (by omega)).view
    have e2 : view (d'.tryFormat cfg T n) = deliver cfg.alloc n (spell (al ++ more) (column (al ++ more).length (n - 1))) :=
      (format_one (n + 64) 7 hp' hz' h0' hb' hT (by omega) (by omega)).view
    rw [e1, e2]
    refine ⟨fun h => ?_, fun h hm hd t i j hv hv' => column_differs hb hm hd (by omega) ((deliver_ok hv).trans (deliver_ok hv').symm)⟩
    rw [column_small (show n - 1 < al.length by omega), column_small (by rw [List.length_append]; omega),
      spell_prefix fun d hd => by rw [List.mem_singleton.mp hd]; omega]

/-- C106, `Chain`, `and()`: it adds the digits of the other collection and keeps everything the theorems above ask for. -/
theorem C106_chain {cfg : Cfg} {T : IntTy} {a b : DigitSys} {x y : List Char} {n : Nat} (ha : Plain cfg a x) (hb : HasDigits (b.level 0) y)
    (hu : (x ++ y).length < 2 ^ cfg.ptr.bits) (hn : T.Fits cfg n) :
    ((a.level 0).hasZero = true → 2 ≤ x.length →
      (n < x.length → view ((a.chain b).tryFormat cfg T n) = view (a.tryFormat cfg T n)) ∧
      (x.length ≤ n → y ≠ [] → (x ++ y).Nodup → ∀ t i j, view (a.tryFormat cfg T n) = .ok (t, i) →
        view ((a.chain b).tryFormat cfg T n) ≠ .ok (t, j))) ∧
    ((a.level 0).hasZero = false → (a.level 0).zeroBased = true → 1 ≤ x.length →
      (n < x.length → view ((a.chain b).tryFormat cfg T n) = view (a.tryFormat cfg T n)) ∧
      (x.length ≤ n → y ≠ [] → (x ++ y).Nodup → ∀ t i j, view (a.tryFormat cfg T n) = .ok (t, i) →
        view ((a.chain b).tryFormat cfg T n) ≠ .ok (t, j))) := by
  obtain ⟨h1, h2, h3⟩ := C18_chain ha.digits hb
  have hp : Plain cfg (a.chain b) (x ++ y) := ⟨rfl, h1, hu⟩
  exact ⟨fun hz hl => ⟨fun h => C106_zero_keeps ha hp hz (h2.trans hz) hl hn h,
      fun h hy hd _ _ _ hv => C106_zero_changes ha hp hz (h2.trans hz) hl hy hd hn hn h hv⟩,
    fun hz h0 hl => ⟨fun h => C106_letters_keeps ha hp hz h0 (h2.trans hz) (h3.trans h0) hn h,
      fun h hy hd _ _ _ hv => C106_letters_changes ha hp hz h0 (h2.trans hz) (h3.trans h0) hl hy hd hn hn h hv⟩⟩

/-- C106, `Restrict`: the same from the other side, for digits taken away at the end. -/
theorem C106_restrict {cfg : Cfg} {T : IntTy} {d : DigitSys} {x : List Char} {count n : Nat} (hp : Plain cfg d x) (hc : count < x.length)
    (hn : T.Fits cfg n) :
    ((d.level 0).hasZero = true → 2 ≤ count →
      (n < count → view ((d.restrict count).tryFormat cfg T n) = view (d.tryFormat cfg T n)) ∧
      (count ≤ n → x.Nodup → ∀ t i j, view (d.tryFormat cfg T n) = .ok (t, i) → view ((d.restrict count).tryFormat cfg T n) ≠ .ok (t, j))) ∧
    ((d.level 0).hasZero = false → (d.level 0).zeroBased = true → 1 ≤ count →
      (n < count → view ((d.restrict count).tryFormat cfg T n) = view (d.tryFormat cfg T n)) ∧
      (count ≤ n → x.Nodup → ∀ t i j, view (d.tryFormat cfg T n) = .ok (t, i) →
        view ((d.restrict count).tryFormat cfg T n) ≠ .ok (t, j))) := by
  obtain ⟨h1, h2, h3⟩ := C18_restrict hp.digits (Nat.le_of_lt hc)
  have hl : (x.take count).length = count := by rw [List.length_take]; omega
  have hr : Plain cfg (d.restrict count) (x.take count) := ⟨rfl, h1, by have := hp.usize; omega⟩
  have hp' : Plain cfg d (x.take count ++ x.drop count) := by rw [List.take_append_drop]; exact hp
  have hne : x.drop count ≠ [] := fun e => by
    have := congrArg List.length e
    simp at this
    omega
  refine ⟨fun hz hb => ⟨fun h => ?_, fun h hd t i j hv hv' => ?_⟩, fun hz h0 hb => ⟨fun h => ?_, fun h hd t i j hv hv' => ?_⟩⟩
  · exact (C106_zero_keeps hr hp' (h2.trans hz) hz (by omega) hn (by omega)).symm
  · exact C106_zero_changes hr hp' (h2.trans hz) hz (by omega) hne (by rw [List.take_append_drop]; exact hd) hn hn (by omega) hv' hv
  · exact (C106_letters_keeps hr hp' (h2.trans hz) (h3.trans h0) hz h0 hn (by omega)).symm
  · exact C106_letters_changes hr hp' (h2.trans hz) (h3.trans h0) hz h0 (by omega) hne (by rw [List.take_append_drop]; exact hd) hn hn
      (by omega) hv' hv

/-- C106, fixed collections counting from 1 (like the crate's own ones) with the same fallback: only the numbers of the new symbols change, and
they get these symbols. -/
theorem C106_fixed {cfg : Cfg} {T : IntTy} {d d' : DigitSys} {al more : List Char} {n : Nat} (hf : (d.level 0).fixed = true)
    (hf' : (d'.level 0).fixed = true) (hz : (d.level 0).hasZero = false) (hz' : (d'.level 0).hasZero = false)
    (h0 : (d.level 0).zeroBased = false) (h0' : (d'.level 0).zeroBased = false) (hd : HasDigits (d.level 0) al)
    (hd' : HasDigits (d'.level 0) (al ++ more)) (hb : d'.fallback = d.fallback) (hu : (al ++ more).length < 2 ^ cfg.ptr.bits)
    (hT : (al ++ more).length < 2 ^ T.bits cfg) :
    (n ≤ al.length ∨ (al ++ more).length < n → view (d'.tryFormat cfg T n) = view (d.tryFormat cfg T n)) ∧
    ∀ i, ∀ h : i < more.length, view (d'.tryFormat cfg T (al.length + i + 1)) = .ok ([more[i]], true) := by
  have hl := List.length_append (as := al) (bs := more)
  refine ⟨fun h => ?_, fun i h => ?_⟩
  · rcases h with h | h
    · by_cases hn0 : n = 0
      · subst hn0
        rw [show d.tryFormat cfg T 0 = _ from C15_fixed_zero 63 7 hz h0 (by rw [hd.1]; omega),
          show d'.tryFormat cfg T 0 = _ from C15_fixed_zero 63 7 hz' h0' (by rw [hd'.1]; omega)]
      · rw [show view (d.tryFormat cfg T n) = _ from C15_fixed_in_range (n + 64) 7 hf hz h0 hd (by omega) (by omega) (by omega) h (by omega),
          show view (d'.tryFormat cfg T n) = _ from
            C15_fixed_in_range (n + 64) 7 hf' hz' h0' hd' hu hT (by omega) (by omega) (by omega)]
        rw [List.getD_eq_getElem?_getD, List.getD_eq_getElem?_getD, List.getElem?_append_left (by omega)]
    · have e1 : d.tryFormat cfg T n = _ := C15_fixed_out_of_range (n + 64) 7 hf (by rw [hd.1]; omega) (by rw [h0, hd.1]; simp; omega)
      have e2 : d'.tryFormat cfg T n = _ := C15_fixed_out_of_range (n + 64) 7 hf' (by rw [hd'.1]; omega) (by rw [h0', hd'.1]; simpa using h)
      have e3 : d'.level 1 = d.level 1 := congrArg (fun x : DigitSys => x.level 0) hb
      rw [e1, e2, hb, e3]
  · rw [show view (d'.tryFormat cfg T (al.length + i + 1)) = _ from
      C15_fixed_in_range (al.length + i + 1 + 64) 7 hf' hz' h0' hd' hu hT (by omega) (by omega) (by omega)]
    rw [Nat.add_sub_cancel, List.getD_eq_getElem?_getD, List.getElem?_append_right (by omega), Nat.add_sub_cancel_left,
      List.getElem?_eq_getElem h]
    rfl

/-- An eleventh sign after the ten heavenly stems: 11 was written with the fallback, 12 still is. -/
example : let c : Coll := ⟨true, false, false, 11, fun i => ['甲', '乙', '丙', '丁', '戊', '己', '庚', '辛', '壬', '癸', '*'][i]?⟩
    view ((DigitSys.withFallback c cjkHeavenlyStem.fallback).tryFormat ⟨true, .w64, true⟩ .u8 11) = .ok (['*'], true) ∧
    view (cjkHeavenlyStem.tryFormat ⟨true, .w64, true⟩ .u8 11) = .ok (['一', '一'], true) ∧
    view ((DigitSys.withFallback c cjkHeavenlyStem.fallback).tryFormat ⟨true, .w64, true⟩ .u8 12) =
      view (cjkHeavenlyStem.tryFormat ⟨true, .w64, true⟩ .u8 12) ∧ (cjkHeavenlyStem.level 0).fixed = true := by decide +kernel

/-- C106, additive sets: a label depends only on the symbols whose values do not exceed the number. -/
theorem C106_additive {ε : Type} {cfg : Cfg} {T : IntTy} {table table' : List (List Char × Nat)} {a a' : AdditiveSet} {n : Nat}
    (ha : AdditiveSet.new (ε := ε) table = .ok a) (ha' : AdditiveSet.new (ε := ε) table' = .ok a') (hn : T.Fits cfg n)
    (h : ∀ p : List Char × Nat, p.2 ≤ n → (p ∈ table ↔ p ∈ table')) : view (a'.tryFormat cfg T n) = view (a.tryFormat cfg T n) := by
  by_cases h0 : n = 0
  · subst h0
    obtain ⟨z1, z2, z3⟩ := C23_zero (cfg := cfg) (T := T) ha
    obtain ⟨z1', z2', z3'⟩ := C23_zero (cfg := cfg) (T := T) ha'
    by_cases hz : ∃ p ∈ table, p.2 = 0
    · obtain ⟨z, hz⟩ := z3 hz
      have hm : (z, 0) ∈ table' := (h (z, 0) (Nat.le_refl _)).mp (List.mem_of_getLast? hz)
      obtain ⟨z', hz'⟩ := z3' ⟨_, hm, rfl⟩
      have e : z' = z := by
        have h1 := value_unique (new_ok ha').1 hm (List.mem_of_getLast? hz')
        exact h1.symm
      subst e
      rw [z1 _ hz, z1' _ hz']
    · have hz' : ∀ p ∈ table', p.2 ≠ 0 := fun p hp e => hz ⟨p, (h p (by omega)).mpr hp, e⟩
      rw [z2 fun p hp e => hz ⟨p, hp, e⟩, z2' hz']
  · obtain ⟨ps, hg, hv, -⟩ := C22_lost_remainder ha h0 hn (cfg := cfg)
    obtain ⟨qs, hg', hv', -⟩ := C22_lost_remainder ha' h0 hn (cfg := cfg)
    rw [hv, hv', greedy_unique (new_ok ha').1 hg' (greedy_local hg h)]

/-- C106, additive sets: a symbol put on top changes nothing below its value; from there on the labels begin with it. -/
theorem C106_additive_top {ε : Type} {cfg : Cfg} {T : IntTy} {table : List (List Char × Nat)} {s : List Char} {v : Nat} {a a' : AdditiveSet}
    {n : Nat} (ha : AdditiveSet.new (ε := ε) table = .ok a) (ha' : AdditiveSet.new (ε := ε) ((s, v) :: table) = .ok a') (hv0 : v ≠ 0)
    (hn : T.Fits cfg n) :
    (n < v → view (a'.tryFormat cfg T n) = view (a.tryFormat cfg T n)) ∧
    (v ≤ n → ∀ t i, view (a'.tryFormat cfg T n) = .ok (t, i) → s <+: t) := by
  refine ⟨fun h => C106_additive ha ha' hn fun p hp => ?_, fun h t i hv => ?_⟩
  · have : p ≠ (s, v) := fun e => by rw [e] at hp; simp only at hp; omega
    simp [this]
  · have hd := (new_ok ha').1
    obtain ⟨ps, hg, e, -⟩ := C22_lost_remainder ha' (show n ≠ 0 by omega) hn (cfg := cfg)
    rw [e] at hv
    rw [← deliver_ok hv]
    have hmax : ∀ q ∈ (s, v) :: table, q.2 ≤ v := fun q hq => by
      rcases List.mem_cons.mp hq with rfl | hq
      · exact Nat.le_refl _
      · exact Nat.le_of_lt ((List.pairwise_cons.mp hd).1 q hq)
    rw [greedy_unique hd hg (.take n (s, v) _ (by simp) hv0 h (fun q hq _ => hmax q hq) (picks_greedy hd _))]
    exact ⟨_, rfl⟩

/-- C106, enumerated sets: symbols put at the end change nothing for numbers that had a symbol, and nothing beyond the new end; the numbers
of the new symbols were out of bounds before. -/
theorem C106_enumerated {cfg : Cfg} {T : IntTy} {z : Bool} {syms more : List (List Char)} {n : Nat}
    (hl : (syms ++ more).length < 2 ^ cfg.ptr.bits) :
    (view ((EnumSet.mk z (syms ++ more)).tryFormat cfg T n) = view ((EnumSet.mk z syms).tryFormat cfg T n) ↔
      n < syms.length + (if z then 0 else 1) ∨ (syms ++ more).length + (if z then 0 else 1) ≤ n) ∧
    (syms.length + (if z then 0 else 1) ≤ n → view ((EnumSet.mk z syms).tryFormat cfg T n) = .err (.outOfBounds n)) := by
  have hl' : syms.length < 2 ^ cfg.ptr.bits := by rw [List.length_append] at hl; omega
  rw [C45_enumerated _ hl, C45_enumerated _ hl']
  generalize ho : (if z then 0 else 1) = off
  have hk : (if z then n else n - 1) = n - off := by subst ho; cases z <;> simp
  simp only [hk]
  by_cases h0 : z = false ∧ n = 0
  · have : off = 1 := by subst ho; simp [h0.1]
    simp only [h0, and_self, ↓reduceIte, true_iff]
    omega
  · have hoff : off ≤ n := by
      subst ho
      cases z
      · simp at h0 ⊢; omega
      · simp
    simp only [h0, ↓reduceIte]
    rcases Nat.lt_or_ge (n - off) syms.length with h | h
    · rw [List.getElem?_append_left h]
      exact ⟨⟨fun _ => .inl (by omega), fun _ => rfl⟩, fun h' => by omega⟩
    · rw [List.getElem?_eq_none h]
      refine ⟨?_, fun _ => rfl⟩
      rcases Nat.lt_or_ge (n - off) (syms ++ more).length with h' | h'
      · rw [List.getElem?_eq_getElem h']
        constructor
        · intro e
          simp only at e
          repeat' split at e
          all_goals cases e
        · intro e
          omega
      · rw [List.getElem?_eq_none h']
        exact ⟨fun _ => .inr (by omega), fun _ => rfl⟩

/-- Letters added to the ten digits: 9 keeps its label, 10 and 37 do not. -/
example : view ((decimal.chain letterLower).tryFormat ⟨true, .w64, true⟩ .u8 9) = view (decimal.tryFormat ⟨true, .w64, true⟩ .u8 9) ∧
    view (decimal.tryFormat ⟨true, .w64, true⟩ .u8 37) = .ok (['3', '7'], true) ∧
    view ((decimal.chain letterLower).tryFormat ⟨true, .w64, true⟩ .u8 37) = .ok (['1', '1'], true) ∧
    Plain ⟨true, .w64, true⟩ decimal decimalDigits ∧ (decimalDigits ++ letterLowerDigits).Nodup :=
  ⟨by decide +kernel, by decide +kernel, by decide +kernel, ⟨rfl, named_hasDigits (digitSetNew_hasDigits _), by decide⟩, by decide +kernel⟩

/-- Octal out of decimal: 7 keeps its label, 8 does not. -/
example : view ((decimal.restrict 8).tryFormat ⟨true, .w64, true⟩ .u8 7) = view (decimal.tryFormat ⟨true, .w64, true⟩ .u8 7) ∧
    view ((decimal.restrict 8).tryFormat ⟨true, .w64, true⟩ .u8 8) = .ok (['1', '0'], true) := by decide +kernel

/-- A third letter added to `a` and `b`: the second label stays, the third becomes `c`. -/
example : view ((DigitSys.digitSetZeroless ['a', 'b']).tryFormat ⟨false, .w16, true⟩ .u8 1) = .ok (['b'], true) ∧
    view ((DigitSys.digitSetZeroless ['a', 'b', 'c']).tryFormat ⟨false, .w16, true⟩ .u8 1) = .ok (['b'], true) ∧
    view ((DigitSys.digitSetZeroless ['a', 'b']).tryFormat ⟨false, .w16, true⟩ .u8 2) = .ok (['a', 'a'], true) ∧
    view ((DigitSys.digitSetZeroless ['a', 'b', 'c']).tryFormat ⟨false, .w16, true⟩ .u8 2) = .ok (['c'], true) := by decide +kernel

/-- `X` put on top of `V` and `I`: 9 is still VIIII, 11 becomes XI. -/
example : ∃ a a', AdditiveSet.new (ε := Empty) [(['V'], 5), (['I'], 1)] = .ok a ∧
    AdditiveSet.new (ε := Empty) [(['X'], 10), (['V'], 5), (['I'], 1)] = .ok a' ∧
    view (a'.tryFormat ⟨true, .w64, true⟩ .u8 9) = view (a.tryFormat ⟨true, .w64, true⟩ .u8 9) ∧
    view (a.tryFormat ⟨true, .w64, true⟩ .u8 11) = .ok (['V', 'V', 'I'], true) ∧
    view (a'.tryFormat ⟨true, .w64, true⟩ .u8 11) = .ok (['X', 'I'], true) :=
  ⟨⟨[(['V'], 5), (['I'], 1)], none⟩, ⟨[(['X'], 10), (['V'], 5), (['I'], 1)], none⟩, rfl, rfl, by decide +kernel, by decide +kernel, by decide +kernel⟩

/-- A third symbol added to a series of two. -/
example : view ((EnumSet.mk false [['x'], ['y']]).tryFormat ⟨true, .w64, true⟩ .u8 3) = .err (.outOfBounds 3) ∧
    view ((EnumSet.mk false [['x'], ['y'], ['z']]).tryFormat ⟨true, .w64, true⟩ .u8 3) = .ok (['z'], true) ∧
    view ((EnumSet.mk false [['x'], ['y'], ['z']]).tryFormat ⟨true, .w64, true⟩ .u8 2) =
      view ((EnumSet.mk false [['x'], ['y']]).tryFormat ⟨true, .w64, true⟩ .u8 2) := by decide +kernel

end Props
end Nominals
