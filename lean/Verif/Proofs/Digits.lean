import Verif.Proofs.Outcome
import Verif.Spec.Digits

/-! # The digit loop: which digits it emits, and that emitting them spells a text -/

namespace Nominals

open Nominals.Spec

/-- Digits of `r`, least significant first, none for 0. -/
def digs (b r : Nat) : List Nat :=
  if r = 0 ∨ b < 2 then [] else (r % b) :: digs b (r / b)
termination_by r
decreasing_by exact Nat.div_lt_self (by omega) (by omega)

/-- Bijective digits of `r`, least significant first, none for 0. -/
def bij (b r : Nat) : List Nat :=
  if r = 0 ∨ b = 0 then [] else ((r - 1) % b) :: bij b ((r - 1) / b)
termination_by r
decreasing_by
  have := Nat.div_le_self (r - 1) b
  omega

theorem digs_zero (b : Nat) : digs b 0 = [] := by unfold digs; simp
theorem bij_zero (b : Nat) : bij b 0 = [] := by unfold bij; simp
theorem digs_pos {b r : Nat} (hr : r ≠ 0) (hb : 2 ≤ b) : digs b r = (r % b) :: digs b (r / b) := by
  rw [digs, if_neg (by omega)]
theorem bij_pos {b r : Nat} (hr : r ≠ 0) (hb : 1 ≤ b) : bij b r = ((r - 1) % b) :: bij b ((r - 1) / b) := by
  rw [bij, if_neg (by omega)]

/-- Push the digits with the given indices to the front, one after the other. -/
def emit (cfg : Cfg) (c : Coll) (n : Nat) : List Nat → NStr → Res Error NStr
  | [], s => .ok s
  | i :: is, s =>
    (Res.ofIndex (c.digit i)).bind fun ch =>
    ((s.pushFront cfg ch).withNominal n).bind fun s => emit cfg c n is s

theorem tryFrom_some {cfg : Cfg} {T : IntTy} {v : Nat} (h : v < 2 ^ T.bits cfg) : T.tryFrom cfg v = some v := by
  simp [IntTy.tryFrom, h]

theorem asUsize_of_lt {cfg : Cfg} {v : Nat} (h : v < 2 ^ cfg.ptr.bits) : asUsize cfg v = v := Nat.mod_eq_of_lt h

theorem Res.bind_congr {ε α β : Type} (r : Res ε α) {f g : α → Res ε β} (h : ∀ a, f a = g a) : r.bind f = r.bind g := by
  cases r <;> simp [Res.bind, h]

section Loop

variable {cfg : Cfg} {T : IntTy} {c : Coll} {n : Nat}
variable (hp : c.len < 2 ^ cfg.ptr.bits) (hT : c.len < 2 ^ T.bits cfg)

include hp hT

theorem loop_zero_rest (hz : c.hasZero = true) (hb : 2 ≤ c.len) (fuel r : Nat) (s : NStr) (hf : r < fuel) :
    digitLoop cfg T c n fuel c.len r false s = emit cfg c n (digs c.len r) s := by
  induction fuel generalizing r s with
  | zero => omega
  | succ fuel ih =>
    by_cases hr : r = 0
    · subst hr
      simp [digitLoop, digs_zero, emit]
    · have hm := Nat.mod_lt r (show c.len > 0 by omega)
      have hd := Nat.div_lt_self (n := r) (k := c.len) (by omega) (by omega)
      rw [digs_pos hr hb]
      simp only [digitLoop, ne_eq, hr, not_false_eq_true, Bool.false_eq_true, or_false, ↓reduceIte, hz, Bool.not_true,
        Bool.false_and, Res.bind, remT, divT, show c.len ≠ 0 by omega, emit, tryFrom_some hT,
        asUsize_of_lt (show r % c.len < 2 ^ cfg.ptr.bits by omega)]
      exact Res.bind_congr _ fun ch => Res.bind_congr _ fun s => ih _ _ (by omega)

theorem loop_zero_first (hz : c.hasZero = true) (hb : 2 ≤ c.len) (fuel r : Nat) (s : NStr) (hf : r + 1 < fuel) :
    digitLoop cfg T c n fuel c.len r true s = emit cfg c n ((r % c.len) :: digs c.len (r / c.len)) s := by
  obtain ⟨fuel, rfl⟩ : ∃ k, fuel = k + 1 := ⟨fuel - 1, by omega⟩
  have hm := Nat.mod_lt r (show c.len > 0 by omega)
  have hd := Nat.div_le_self r c.len
  simp only [digitLoop, ne_eq, or_true, ↓reduceIte, hz, Bool.not_true, Bool.false_eq_true,
    Bool.false_and, Res.bind, remT, divT, show c.len ≠ 0 by omega, emit, tryFrom_some hT,
    asUsize_of_lt (show r % c.len < 2 ^ cfg.ptr.bits by omega)]
  exact Res.bind_congr _ fun ch => Res.bind_congr _ fun s => loop_zero_rest hp hT hz hb _ _ _ (by omega)

theorem loop_bij_rest (hz : c.hasZero = false) (hb : 1 ≤ c.len) (fuel r : Nat) (s : NStr) (hf : r < fuel) :
    digitLoop cfg T c n fuel c.len r false s = emit cfg c n (bij c.len r) s := by
  induction fuel generalizing r s with
  | zero => omega
  | succ fuel ih =>
    by_cases hr : r = 0
    · subst hr
      simp [digitLoop, bij_zero, emit]
    · have hm := Nat.mod_lt (r - 1) (show c.len > 0 by omega)
      have hd := Nat.div_le_self (r - 1) c.len
      rw [bij_pos hr hb]
      simp only [digitLoop, ne_eq, hr, not_false_eq_true, Bool.false_eq_true, or_false, ↓reduceIte, hz, Bool.not_false,
        Bool.true_and, Bool.or_true, beq_iff_eq, subT, show 1 ≤ r by omega, Res.bind, remT, divT,
        show c.len ≠ 0 by omega, emit, tryFrom_some hT,
        asUsize_of_lt (show (r - 1) % c.len < 2 ^ cfg.ptr.bits by omega)]
      exact Res.bind_congr _ fun ch => Res.bind_congr _ fun s => ih _ _ (by omega)

theorem loop_bij_first0 (hz : c.hasZero = false) (h0 : c.zeroBased = true) (hb : 1 ≤ c.len) (fuel r : Nat) (s : NStr)
    (hf : r + 1 < fuel) :
    digitLoop cfg T c n fuel c.len r true s = emit cfg c n (bij c.len (r + 1)) s := by
  obtain ⟨fuel, rfl⟩ : ∃ k, fuel = k + 1 := ⟨fuel - 1, by omega⟩
  have hm := Nat.mod_lt r (show c.len > 0 by omega)
  have hd := Nat.div_le_self r c.len
  rw [bij_pos (by omega) hb]
  simp only [digitLoop, ne_eq, or_true, ↓reduceIte, hz, h0, Bool.not_true, Bool.not_false, Bool.or_false, Bool.and_false,
    Bool.false_eq_true, Res.bind, remT, divT, show c.len ≠ 0 by omega, emit, tryFrom_some hT, Nat.add_sub_cancel,
    asUsize_of_lt (show r % c.len < 2 ^ cfg.ptr.bits by omega)]
  exact Res.bind_congr _ fun ch => Res.bind_congr _ fun s => loop_bij_rest hp hT hz hb _ _ _ (by omega)

theorem loop_bij_first1 (hz : c.hasZero = false) (h0 : c.zeroBased = false) (hb : 1 ≤ c.len) (fuel r : Nat) (s : NStr)
    (hf : r + 1 < fuel) :
    digitLoop cfg T c n fuel c.len r true s = if r = 0 then .err .noZeroSymbol else emit cfg c n (bij c.len r) s := by
  obtain ⟨fuel, rfl⟩ : ∃ k, fuel = k + 1 := ⟨fuel - 1, by omega⟩
  have hm := Nat.mod_lt (r - 1) (show c.len > 0 by omega)
  have hd := Nat.div_le_self (r - 1) c.len
  by_cases hr : r = 0
  · subst hr
    simp [digitLoop, hz, h0, Res.bind]
  · rw [if_neg hr, bij_pos hr hb]
    simp only [digitLoop, ne_eq, or_true, ↓reduceIte, hz, h0, Bool.not_true, Bool.not_false, Bool.or_false, Bool.and_self,
      Bool.true_and, beq_iff_eq, hr, subT, show 1 ≤ r by omega,
      Res.bind, remT, divT, show c.len ≠ 0 by omega, emit, tryFrom_some hT,
      asUsize_of_lt (show (r - 1) % c.len < 2 ^ cfg.ptr.bits by omega)]
    exact Res.bind_congr _ fun ch => Res.bind_congr _ fun s => loop_bij_rest hp hT hz hb _ _ _ (by omega)

end Loop

theorem utf8Len_append_le (t u : List Char) : utf8Len u ≤ utf8Len (t ++ u) := by simp

theorem spell_append (al : List Char) (x y : List Nat) : spell al (x ++ y) = spell al x ++ spell al y := by
  simp [spell]

theorem emit_del_of_digits {cfg : Cfg} {c : Coll} {al : List Char} {n : Nat} (ds : List Nat)
    (hd : ∀ d ∈ ds, c.digit d = some (al.getD d '?')) (s : NStr) (t : List Char) (hs : s.Is t)
    (ha : cfg.alloc = true ∨ utf8Len t ≤ 62) :
    Del cfg.alloc (Error.outOfMemory n) (emit cfg c n ds s) (spell al ds.reverse ++ t) := by
  induction ds generalizing s t with
  | nil => exact .ok _ _ hs ha
  | cons d ds ih =>
    simp only [emit, hd d (by simp), Res.ofIndex, Res.bind]
    have h3 := (hs.pushFront ha (al.getD d '?')).withNominal (n := n)
    have h4 : spell al (d :: ds).reverse ++ t = spell al ds.reverse ++ (al.getD d '?' :: t) := by
      simp [spell]
    rw [h4]
    exact h3.bind (by simp) fun s' hs' ha' => ih (fun d hd' => hd d (by simp [hd'])) s' _ hs' ha'

theorem emit_del {cfg : Cfg} {c : Coll} {al : List Char} {n : Nat} (hc : HasDigits c al) (ds : List Nat)
    (hd : ∀ d ∈ ds, d < al.length) (s : NStr) (t : List Char) (hs : s.Is t) (ha : cfg.alloc = true ∨ utf8Len t ≤ 62) :
    Del cfg.alloc (Error.outOfMemory n) (emit cfg c n ds s) (spell al ds.reverse ++ t) := by
  refine emit_del_of_digits ds (fun d hd' => ?_) s t hs ha
  have h1 := hd d hd'
  rw [hc.2 d h1]
  simp [h1]

/-! ## Arithmetic of the digit lists -/

theorem digs_lt {b r : Nat} : ∀ d ∈ digs b r, d < b := by
  intro d hd
  induction r using Nat.strongRecOn with
  | _ r ih =>
    unfold digs at hd
    split at hd
    · simp at hd
    · rename_i h
      rcases List.mem_cons.mp hd with h1 | h1
      · rw [h1]; exact Nat.mod_lt _ (by omega)
      · exact ih _ (Nat.div_lt_self (by omega) (by omega)) h1

theorem bij_lt {b r : Nat} : ∀ d ∈ bij b r, d < b := by
  intro d hd
  induction r using Nat.strongRecOn with
  | _ r ih =>
    unfold bij at hd
    split at hd
    · simp at hd
    · rename_i h
      rcases List.mem_cons.mp hd with h1 | h1
      · rw [h1]; exact Nat.mod_lt _ (by omega)
      · have := Nat.div_le_self (r - 1) b
        exact ih _ (by omega) h1

theorem value_snoc (b : Nat) (ds : List Nat) (d : Nat) : value b (ds ++ [d]) = value b ds * b + d := by
  simp [value]

theorem ordinal_snoc (b : Nat) (ds : List Nat) (d : Nat) : ordinal b (ds ++ [d]) = ordinal b ds * b + (d + 1) := by
  simp [ordinal]

theorem value_digs {b r : Nat} (hb : 2 ≤ b) : value b (digs b r).reverse = r := by
  induction r using Nat.strongRecOn with
  | _ r ih =>
    by_cases hr : r = 0
    · subst hr; simp [digs_zero, value]
    · rw [digs_pos hr hb, List.reverse_cons, value_snoc, ih _ (Nat.div_lt_self (by omega) (by omega))]
      exact Nat.div_add_mod' r b

theorem ordinal_bij {b r : Nat} (hb : 1 ≤ b) : ordinal b (bij b r).reverse = r := by
  induction r using Nat.strongRecOn with
  | _ r ih =>
    by_cases hr : r = 0
    · subst hr; simp [bij_zero, ordinal]
    · have := Nat.div_le_self (r - 1) b
      rw [bij_pos hr hb, List.reverse_cons, ordinal_snoc, ih _ (by omega)]
      have := Nat.div_add_mod' (r - 1) b
      omega

theorem digs_lead {b r : Nat} (hb : 2 ≤ b) (hr : r ≠ 0) : ∃ d rest, (digs b r).reverse = d :: rest ∧ d ≠ 0 := by
  induction r using Nat.strongRecOn with
  | _ r ih =>
    rw [digs_pos hr hb, List.reverse_cons]
    by_cases h : r / b = 0
    · rw [h, digs_zero]
      have : r < b := by
        rcases Nat.div_eq_zero_iff.mp h with h | h <;> omega
      exact ⟨r % b, [], rfl, by rw [Nat.mod_eq_of_lt this]; exact hr⟩
    · obtain ⟨d, rest, h1, h2⟩ := ih _ (Nat.div_lt_self (by omega) (by omega)) h
      exact ⟨d, rest ++ [r % b], by rw [h1]; rfl, h2⟩

/-- The numeral the loop writes for a collection with a zero digit. -/
theorem loop_numeral {b n : Nat} (hb : 2 ≤ b) : IsNumeral b n ((n % b) :: digs b (n / b)).reverse := by
  refine ⟨?_, ?_, ?_⟩
  · intro d hd
    rcases List.mem_cons.mp (List.mem_reverse.mp hd) with h | h
    · rw [h]; exact Nat.mod_lt _ (by omega)
    · exact digs_lt d h
  · rw [List.reverse_cons, value_snoc, value_digs hb]
    exact Nat.div_add_mod' n b
  · by_cases hn : n = 0
    · left; subst hn; simp [digs_zero]
    · right
      rw [← digs_pos hn hb]
      exact digs_lead hb hn

theorem bump_bij {b : Nat} (hb : 1 ≤ b) (r : Nat) : bump b (bij b r) = bij b (r + 1) := by
  induction r using Nat.strongRecOn with
  | _ r ih =>
    by_cases hr : r = 0
    · subst hr
      rw [bij_zero, bij_pos (by omega) hb]
      simp [bump, bij_zero]
    · have hle := Nat.div_le_self (r - 1) b
      have h1 := Nat.div_add_mod (r - 1) b
      have hm := Nat.mod_lt (r - 1) (show b > 0 by omega)
      rw [bij_pos hr hb, bij_pos (r := r + 1) (by omega) hb, bump, Nat.add_sub_cancel]
      by_cases h : (r - 1) % b + 1 < b
      · rw [if_pos h]
        have e : r = b * ((r - 1) / b) + ((r - 1) % b + 1) := by omega
        have e1 : r % b = (r - 1) % b + 1 := by
          conv => lhs; rw [e]
          rw [Nat.mul_add_mod, Nat.mod_eq_of_lt h]
        have e2 : r / b = (r - 1) / b := by
          conv => lhs; rw [e]
          rw [Nat.mul_add_div (by omega), Nat.div_eq_of_lt h]; rfl
        rw [e1, e2]
      · rw [if_neg h, ih _ (by omega)]
        have e : r = b * ((r - 1) / b + 1) := by rw [Nat.mul_add]; omega
        have e1 : r % b = 0 := by
          conv => lhs; rw [e]
          exact Nat.mul_mod_right _ _
        have e2 : r / b = (r - 1) / b + 1 := by
          conv => lhs; rw [e]
          exact Nat.mul_div_cancel_left _ (by omega)
        rw [e1, e2]

theorem column_eq {b : Nat} (hb : 1 ≤ b) (n : Nat) : column b n = (bij b (n + 1)).reverse := by
  induction n with
  | zero =>
    rw [bij_pos (by omega) hb]
    simp [column, bij_zero]
  | succ n ih => rw [column, ih, next, List.reverse_reverse, bump_bij hb]

theorem ordinal_column {b : Nat} (hb : 1 ≤ b) (n : Nat) : ordinal b (column b n) = n + 1 := by
  rw [column_eq hb, ordinal_bij hb]

theorem column_lt {b : Nat} (hb : 1 ≤ b) (n : Nat) : ∀ d ∈ column b n, d < b := by
  rw [column_eq hb]
  intro d hd
  exact bij_lt d (List.mem_reverse.mp hd)

end Nominals
