import Verif.Proofs.Digits

/-! # Uniqueness, inverses, lengths and order of numerals and column names -/

namespace Nominals

open Nominals.Spec

theorem revRec {p : List Nat → Prop} (h0 : p []) (h1 : ∀ l d, p l → p (l ++ [d])) (l : List Nat) : p l := by
  rw [← List.reverse_reverse l]
  induction l.reverse with
  | nil => exact h0
  | cons d l ih => rw [List.reverse_cons]; exact h1 _ _ ih

theorem mul_add_div' {a b d : Nat} (h : d < b) : (a * b + d) / b = a := by
  rw [Nat.mul_comm, Nat.mul_add_div (by omega), Nat.div_eq_of_lt h]; rfl

theorem mul_add_mod'' {a b d : Nat} (h : d < b) : (a * b + d) % b = d := by
  rw [Nat.mul_comm, Nat.mul_add_mod, Nat.mod_eq_of_lt h]

theorem bij_ordinal {b : Nat} (hb : 1 ≤ b) (w : List Nat) (hw : ∀ d ∈ w, d < b) : bij b (ordinal b w) = w.reverse := by
  induction w using revRec with
  | h0 => simp [ordinal, bij_zero]
  | h1 w d ih =>
    have hd : d < b := hw d (by simp)
    rw [ordinal_snoc, bij_pos (by omega) hb, List.reverse_append]
    rw [show ordinal b w * b + (d + 1) - 1 = ordinal b w * b + d by omega, mul_add_mod'' hd, mul_add_div' hd,
      ih fun d hd => hw d (by simp [hd])]
    rfl

theorem ordinal_pos {b : Nat} {w : List Nat} (h : w ≠ []) : 0 < ordinal b w := by
  induction w using revRec with
  | h0 => exact absurd rfl h
  | h1 w d ih => rw [ordinal_snoc]; omega

/-- Every non-empty word is a column name, at the position given by `ordinal`. -/
theorem column_ordinal {b : Nat} (hb : 1 ≤ b) (w : List Nat) (h : w ≠ []) (hw : ∀ d ∈ w, d < b) :
    column b (ordinal b w - 1) = w := by
  have := ordinal_pos (b := b) h
  rw [column_eq hb, show ordinal b w - 1 + 1 = ordinal b w by omega, bij_ordinal hb w hw, List.reverse_reverse]

theorem digs_value {b : Nat} (hb : 2 ≤ b) (w : List Nat) (hw : ∀ d ∈ w, d < b)
    (hl : w = [] ∨ ∃ d rest, w = d :: rest ∧ d ≠ 0) : digs b (value b w) = w.reverse := by
  induction w using revRec with
  | h0 => simp [value, digs_zero]
  | h1 w d ih =>
    have hd : d < b := hw d (by simp)
    have hw' : ∀ d ∈ w, d < b := fun d hd => hw d (by simp [hd])
    have hl' : w = [] ∨ ∃ d rest, w = d :: rest ∧ d ≠ 0 := by
      cases w with
      | nil => exact .inl rfl
      | cons e w =>
        right
        rcases hl with h | ⟨d', rest, h, h'⟩
        · simp at h
        · simp at h; exact ⟨e, w, rfl, by rw [h.1]; exact h'⟩
    have ih := ih hw' hl'
    have hne : value b w * b + d ≠ 0 := by
      cases w with
      | nil =>
        rcases hl with h | ⟨d', rest, h, h'⟩
        · simp at h
        · simp at h; rw [h.1]; simp [value, h']
      | cons e w =>
        intro h0
        have : value b (e :: w) * b = 0 := by omega
        have : value b (e :: w) = 0 := by
          rcases Nat.mul_eq_zero.mp this with h | h <;> omega
        rw [this, digs_zero] at ih
        simp at ih
    rw [value_snoc, digs_pos hne hb, mul_add_mod'' hd, mul_add_div' hd, ih, List.reverse_append]
    rfl

/-- A number has only one standard representation. -/
theorem numeral_unique {b n : Nat} {x y : List Nat} (hb : 2 ≤ b) (hx : IsNumeral b n x) (hy : IsNumeral b n y) : x = y := by
  have key : ∀ {z}, IsNumeral b n z → z = ((n % b) :: digs b (n / b)).reverse := by
    intro z hz
    rcases hz.lead with h | h
    · subst h
      have : n = 0 := by rw [← hz.value]; simp [Spec.value]
      subst this
      simp [digs_zero]
    · have h1 := digs_value hb z hz.digits (.inr h)
      rw [hz.value] at h1
      have hn : n ≠ 0 := by
        intro h0
        rw [h0, digs_zero] at h1
        obtain ⟨d, rest, h, _⟩ := h
        rw [h] at h1
        simp at h1
      rw [digs_pos hn hb] at h1
      rw [h1, List.reverse_reverse]
  rw [key hx, key hy]

theorem numeral_inj {b n m : Nat} {x : List Nat} (hx : IsNumeral b n x) (hy : IsNumeral b m x) : n = m := by
  rw [← hx.value, ← hy.value]

theorem spell_inj {al : List Char} (hn : al.Nodup) {x y : List Nat} (hx : ∀ d ∈ x, d < al.length)
    (hy : ∀ d ∈ y, d < al.length) (h : spell al x = spell al y) : x = y := by
  induction x generalizing y with
  | nil => cases y with
    | nil => rfl
    | cons d y => simp [spell] at h
  | cons c x ih =>
    cases y with
    | nil => simp [spell] at h
    | cons d y =>
      simp only [spell, List.map_cons, List.cons.injEq] at h
      have h1 : c < al.length := hx c (by simp)
      have h2 : d < al.length := hy d (by simp)
      have h3 : c = d := by
        have := h.1
        simp only [List.getD_eq_getElem?_getD, List.getElem?_eq_getElem h1, List.getElem?_eq_getElem h2,
          Option.getD_some] at this
        exact (List.getElem_inj hn).mp this
      rw [h3, ih (fun d hd => hx d (by simp [hd])) (fun d hd => hy d (by simp [hd])) h.2]

theorem value_lt {b : Nat} (w : List Nat) (hw : ∀ d ∈ w, d < b) : value b w < b ^ w.length := by
  induction w using revRec with
  | h0 => simp [value]
  | h1 w d ih =>
    have hd : d < b := hw d (by simp)
    have ih := ih fun d hd => hw d (by simp [hd])
    rw [value_snoc, List.length_append, List.length_singleton, Nat.pow_succ]
    have : value b w * b + b ≤ b ^ w.length * b := by
      rw [← Nat.succ_mul]; exact Nat.mul_le_mul_right _ ih
    omega

theorem value_ge {b : Nat} (w : List Nat) (d : Nat) (hd : d ≠ 0) : b ^ w.length ≤ value b (d :: w) := by
  induction w using revRec with
  | h0 => simp [value]; omega
  | h1 w e ih =>
    rw [← List.cons_append, value_snoc, List.length_append, List.length_singleton, Nat.pow_succ]
    have := Nat.mul_le_mul_right b ih
    omega

/-- Length of the standard representation. -/
theorem numeral_length {b n : Nat} {x : List Nat} (hx : IsNumeral b n x) :
    1 ≤ x.length ∧ n < b ^ x.length ∧ ∀ k, 1 ≤ k → n < b ^ k → x.length ≤ k := by
  have h1 := value_lt x hx.digits
  rw [hx.value] at h1
  rcases hx.lead with h | ⟨d, rest, h, hd⟩
  · subst h
    exact ⟨by simp, h1, fun k hk _ => hk⟩
  · subst h
    refine ⟨by simp, h1, fun k hk hn => ?_⟩
    have h2 := value_ge (b := b) rest d hd
    rw [hx.value] at h2
    have hb : 0 < b := by have := hx.digits d (by simp); omega
    have h3 : b ^ rest.length < b ^ k := by omega
    have : ¬ k ≤ rest.length := fun hk => by
      have := Nat.pow_le_pow_right hb hk
      omega
    simp
    omega

theorem wordsUpTo_succ' (b k : Nat) : wordsUpTo b (k + 1) = (wordsUpTo b k + 1) * b := by
  induction k with
  | zero => simp [wordsUpTo]
  | succ k ih =>
    have e1 : wordsUpTo b (k + 2) = wordsUpTo b (k + 1) + b ^ (k + 1) * b := rfl
    have e2 : wordsUpTo b (k + 1) + 1 = (wordsUpTo b k + 1) + b ^ (k + 1) := by rw [wordsUpTo]; omega
    rw [e1, e2, Nat.add_mul, ← ih]

theorem ordinal_bounds {b : Nat} (w : List Nat) (hw : ∀ d ∈ w, d < b) :
    ordinal b w ≤ wordsUpTo b w.length ∧ (w ≠ [] → wordsUpTo b (w.length - 1) < ordinal b w) := by
  induction w using revRec with
  | h0 => simp [ordinal, wordsUpTo]
  | h1 w d ih =>
    have hd : d < b := hw d (by simp)
    obtain ⟨h1, h2⟩ := ih fun d hd => hw d (by simp [hd])
    rw [ordinal_snoc, List.length_append, List.length_singleton, wordsUpTo_succ', Nat.add_mul]
    have := Nat.mul_le_mul_right b h1
    refine ⟨by omega, fun _ => ?_⟩
    rw [Nat.add_sub_cancel]
    cases w with
    | nil => simp only [wordsUpTo, List.length_nil]; omega
    | cons e w =>
      have h2 := h2 (by simp)
      rw [List.length_cons, Nat.add_sub_cancel] at h2
      rw [List.length_cons, wordsUpTo_succ']
      have := Nat.mul_le_mul_right b h2
      have e : (wordsUpTo b w.length).succ = wordsUpTo b w.length + 1 := rfl
      rw [e] at this
      omega

theorem wordsUpTo_mono {b j k : Nat} (h : j ≤ k) : wordsUpTo b j ≤ wordsUpTo b k := by
  induction h with
  | refl => exact Nat.le_refl _
  | step _ ih => rw [wordsUpTo]; omega

theorem column_ne_nil (b n : Nat) : column b n ≠ [] := by
  cases n with
  | zero => simp [column]
  | succ n =>
    simp only [column, next, ne_eq, List.reverse_eq_nil_iff]
    cases (column b n).reverse with
    | nil => simp [bump]
    | cons d ds => unfold bump; split <;> simp

theorem column_length {b : Nat} (hb : 1 ≤ b) (n : Nat) :
    1 ≤ (column b n).length ∧ n < wordsUpTo b (column b n).length ∧
      ∀ k, n < wordsUpTo b k → (column b n).length ≤ k := by
  have h := ordinal_bounds (column b n) (column_lt hb n)
  rw [ordinal_column hb] at h
  have hne := column_ne_nil b n
  refine ⟨by cases hc : column b n <;> simp_all, by omega, fun k hk => ?_⟩
  have h2 := h.2 hne
  by_cases hlt : (column b n).length ≤ k
  · exact hlt
  · have := wordsUpTo_mono (b := b) (show k ≤ (column b n).length - 1 by omega)
    omega

theorem fold_lt {b : Nat} (v w : List Nat) (hl : v.length = w.length) (hv : ∀ d ∈ v, d < b) (x y : Nat) (h : x < y) :
    v.foldl (fun a d => a * b + (d + 1)) x < w.foldl (fun a d => a * b + (d + 1)) y := by
  induction v generalizing w x y with
  | nil =>
    cases w with
    | nil => exact h
    | cons d w => simp at hl
  | cons d v ih =>
    cases w with
    | nil => simp at hl
    | cons e w =>
      simp only [List.foldl_cons]
      refine ih w (by simpa using hl) (fun d hd => hv d (by simp [hd])) _ _ ?_
      have hd : d < b := hv d (by simp)
      have := Nat.mul_le_mul_right b h
      have e : x.succ * b = x * b + b := Nat.succ_mul x b
      omega

theorem fold_lex {b : Nat} (v w : List Nat) (hl : v.length = w.length) (hw : ∀ d ∈ w, d < b) (x : Nat)
    (h : v.foldl (fun a d => a * b + (d + 1)) x < w.foldl (fun a d => a * b + (d + 1)) x) : List.Lex (· < ·) v w := by
  induction v generalizing w x with
  | nil =>
    cases w with
    | nil => simp at h
    | cons d w => simp at hl
  | cons d v ih =>
    cases w with
    | nil => simp at hl
    | cons e w =>
      simp only [List.foldl_cons] at h
      have hl' : v.length = w.length := by simpa using hl
      rcases Nat.lt_trichotomy d e with h1 | h1 | h1
      · exact .rel h1
      · subst h1
        exact .cons (ih w hl' (fun d hd => hw d (by simp [hd])) _ h)
      · have := fold_lt w v hl'.symm (fun d hd => hw d (by simp [hd])) (x * b + (e + 1)) (x * b + (d + 1)) (by omega)
        omega

theorem column_shortlex {b : Nat} (hb : 1 ≤ b) {n m : Nat} (h : n < m) : shortlexLt (column b n) (column b m) := by
  have h1 := column_length hb n
  have h2 := column_length hb m
  have hle : (column b n).length ≤ (column b m).length := h1.2.2 _ (by omega)
  rcases Nat.lt_or_eq_of_le hle with h3 | h3
  · exact .inl h3
  · refine .inr ⟨h3, fold_lex _ _ h3 (column_lt hb m) 0 ?_⟩
    have e1 := ordinal_column hb n
    have e2 := ordinal_column hb m
    unfold ordinal at e1 e2
    omega

theorem wordsUpTo_two {b k : Nat} (hb : 2 ≤ b) : 2 ^ (k + 1) ≤ wordsUpTo b k + 2 := by
  induction k with
  | zero => simp [wordsUpTo]
  | succ k ih =>
    rw [wordsUpTo_succ']
    have : (wordsUpTo b k + 1) * 2 ≤ (wordsUpTo b k + 1) * b := Nat.mul_le_mul_left _ hb
    rw [Nat.pow_succ]
    omega

end Nominals
