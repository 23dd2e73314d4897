import Verif.Proofs.Outcome
import Verif.Proofs.Digits
import Verif.Spec.Additive
import Verif.Model.Additive

/-! # Additive sets: the loop as division with remainder -/

namespace Nominals

open Nominals.Spec

/-- The symbols the loop writes for `r`. -/
def picks : List (List Char × Nat) → Nat → List (List Char × Nat)
  | [], _ => []
  | p :: rest, r => if p.2 = 0 then [] else List.replicate (r / p.2) p ++ picks rest (r % p.2)

theorem written_append (a b : List (List Char × Nat)) : written (a ++ b) = written a ++ written b := by simp [written]

theorem written_replicate (k : Nat) (p : List Char × Nat) : written (List.replicate k p) = (List.replicate k p.1).flatten := by
  induction k with
  | zero => rfl
  | succ k ih => simp only [List.replicate_succ, written, List.flatMap_cons, List.flatten_cons] at *; rw [ih]

theorem total_append (a b : List (List Char × Nat)) : total (a ++ b) = total a + total b := by simp [total]

theorem total_replicate (k : Nat) (p : List Char × Nat) : total (List.replicate k p) = k * p.2 := by simp [total]

theorem total_cons (p : List Char × Nat) (a : List (List Char × Nat)) : total (p :: a) = p.2 + total a := by simp [total]

theorem while_del {cfg : Cfg} {n v : Nat} {sym : List Char} (hv : v ≠ 0) (k : Nat × NStr → Res Error NStr) (t' : List Char)
    (fuel r : Nat) (s : NStr) (t : List Char) (hf : r < fuel) (hs : s.Is t) (ha : cfg.alloc = true ∨ utf8Len t ≤ 62)
    (hlen : utf8Len (t ++ (List.replicate (r / v) sym).flatten) ≤ utf8Len t')
    (hk : ∀ s', s'.Is (t ++ (List.replicate (r / v) sym).flatten) →
      (cfg.alloc = true ∨ utf8Len (t ++ (List.replicate (r / v) sym).flatten) ≤ 62) →
      Del cfg.alloc (Error.outOfMemory n) (k (r % v, s')) t') :
    Del cfg.alloc (Error.outOfMemory n) ((additiveWhile cfg T n sym v fuel r s).bind k) t' := by
  induction fuel generalizing r s t with
  | zero => omega
  | succ fuel ih =>
    unfold additiveWhile
    by_cases hr : r ≥ v
    · have hdiv : r / v = (r - v) / v + 1 := by
        rw [Nat.div_eq_sub_div (by omega) hr]
      have hmod : r % v = (r - v) % v := Nat.mod_eq_sub_mod hr
      have happ : t ++ (List.replicate (r / v) sym).flatten = t ++ sym ++ (List.replicate ((r - v) / v) sym).flatten := by
        rw [hdiv, List.replicate_succ, List.flatten_cons, List.append_assoc]
      rw [happ, hmod] at hk
      rw [happ] at hlen
      rw [if_pos hr, subT_le hr]
      simp only [Res.bind_ok]
      rw [Res.bind_assoc]
      refine ((hs.pushStr ha sym).withNominal (n := n)).bind ?_ fun s' hs' ha' => ?_
      · rw [utf8Len_append] at hlen
        omega
      · exact ih (r - v) s' (t ++ sym) (by omega) hs' ha' hlen hk
    · rw [if_neg hr]
      rw [Nat.div_eq_of_lt (by omega)] at hk
      rw [Nat.mod_eq_of_lt (by omega)] at hk
      simp only [List.replicate_zero, List.flatten_nil, List.append_nil] at hk
      exact hk s hs ha

theorem for_del {cfg : Cfg} {T : IntTy} {n : Nat} (table : List (List Char × Nat)) (r : Nat) (hr : T.Fits cfg r) (s : NStr)
    (t : List Char) (hs : s.Is t) (ha : cfg.alloc = true ∨ utf8Len t ≤ 62) :
    Del cfg.alloc (Error.outOfMemory n) (additiveFor cfg T n table r s) (t ++ written (picks table r)) := by
  induction table generalizing r s t with
  | nil =>
    simp only [picks, written, List.flatMap_nil, List.append_nil, additiveFor]
    exact .ok s t hs ha
  | cons p rest ih =>
    obtain ⟨sym, v⟩ := p
    unfold additiveFor picks
    by_cases hv : v = 0
    · simp only [hv, ↓reduceIte, written, List.flatMap_nil, List.append_nil]
      exact .ok _ _ hs ha
    · simp only [hv, ↓reduceIte]
      by_cases hT : v < 2 ^ T.bits cfg
      · rw [tryFrom_some hT]
        simp only
        rw [written_append, written_replicate, ← List.append_assoc]
        refine while_del hv _ _ (r + 1) r s t (by omega) hs ha (by simp) fun s' hs' ha' => ?_
        exact ih (r % v) (Nat.lt_of_le_of_lt (Nat.mod_le _ _) hr) s' _ hs' ha'
      · have h1 : T.tryFrom cfg v = none := by simp [IntTy.tryFrom]; omega
        have hr' : r < 2 ^ T.bits cfg := hr
        rw [h1]
        simp only
        rw [Nat.div_eq_of_lt (by omega), Nat.mod_eq_of_lt (by omega), List.replicate_zero, List.nil_append]
        exact ih r hr s t hs ha

theorem additive_del {cfg : Cfg} {T : IntTy} {a : AdditiveSet} {n : Nat} (hn : T.Fits cfg n) (h0 : n ≠ 0) :
    Del cfg.alloc (Error.outOfMemory n) (a.tryFormat cfg T n) (written (picks a.symbols n)) := by
  unfold AdditiveSet.tryFormat
  rw [if_neg h0]
  exact for_del a.symbols n hn NStr.new [] NStr.new_is (.inr (by simp))

/-! ## `picks` is greedy -/

theorem strictlyDescending_iff (table : List (List Char × Nat)) : strictlyDescending table = true ↔ Descending table := by
  unfold Descending
  induction table with
  | nil => simp [strictlyDescending]
  | cons a rest ih =>
    cases rest with
    | nil => simp [strictlyDescending]
    | cons b rest =>
      rw [strictlyDescending, Bool.and_eq_true, ih, decide_eq_true_iff, List.pairwise_cons (a := a)]
      constructor
      · rintro ⟨h1, h2⟩
        refine ⟨fun q hq => ?_, h2⟩
        rcases List.mem_cons.mp hq with rfl | hq
        · exact h1
        · have := (List.pairwise_cons.mp h2).1 q hq
          omega
      · rintro ⟨h1, h2⟩
        exact ⟨h1 b (by simp), h2⟩

theorem picks_greedy_aux (done rest : List (List Char × Nat)) (hd : Descending (done ++ rest)) (r : Nat)
    (hr : ∀ q ∈ done, r < q.2) : Greedy (done ++ rest) r (picks rest r) := by
  induction rest generalizing done r with
  | nil => exact .stop r fun q hq _ => hr q (by simpa using hq)
  | cons p rest ih =>
    have hd' := List.pairwise_append.mp hd
    have hrest := List.pairwise_cons.mp hd'.2.1
    unfold picks
    by_cases hv : p.2 = 0
    · rw [if_pos hv]
      refine .stop r fun q hq h0 => ?_
      rcases List.mem_append.mp hq with hq | hq
      · exact hr q hq
      · rcases List.mem_cons.mp hq with rfl | hq
        · exact absurd hv h0
        · have := hrest.1 q hq
          omega
    · rw [if_neg hv]
      have key : ∀ k r, r / p.2 = k → (∀ q ∈ done, r < q.2) →
          Greedy (done ++ p :: rest) r (List.replicate k p ++ picks rest (r % p.2)) := by
        intro k
        induction k with
        | zero =>
          intro r hk hr
          have hlt : r < p.2 := by
            rcases Nat.div_eq_zero_iff.mp hk with h | h
            · exact absurd h hv
            · exact h
          rw [Nat.mod_eq_of_lt hlt]
          have := ih (done ++ [p]) (by simpa using hd) r (fun q hq => by
            rcases List.mem_append.mp hq with hq | hq
            · exact hr q hq
            · rw [List.mem_singleton.mp hq]; exact hlt)
          simpa using this
        | succ k ihk =>
          intro r hk hr
          have hge : p.2 ≤ r := by
            rcases Nat.lt_or_ge r p.2 with h | h
            · rw [Nat.div_eq_of_lt h] at hk; omega
            · exact h
          rw [List.replicate_succ, List.cons_append]
          refine .take r p _ (by simp) hv hge (fun q hq hle => ?_) ?_
          · rcases List.mem_append.mp hq with hq | hq
            · have := hr q hq; omega
            · rcases List.mem_cons.mp hq with rfl | hq
              · exact Nat.le_refl _
              · have := hrest.1 q hq; omega
          · rw [Nat.mod_eq_sub_mod hge]
            refine ihk (r - p.2) ?_ (fun q hq => by have := hr q hq; omega)
            rw [Nat.div_eq_sub_div (by omega) hge] at hk
            omega
      exact key _ r rfl hr

theorem picks_greedy {table : List (List Char × Nat)} (hd : Descending table) (n : Nat) : Greedy table n (picks table n) :=
  picks_greedy_aux [] table hd n (by simp)

theorem greedy_le {table ps : List (List Char × Nat)} {n : Nat} (h : Greedy table n ps) :
    total ps ≤ n ∧ (∀ q ∈ table, q.2 ≠ 0 → n < total ps + q.2) ∧ ∀ p ∈ ps, p ∈ table ∧ p.2 ≠ 0 ∧ p.2 ≤ n := by
  induction h with
  | stop n h => exact ⟨by simp [total], fun q hq h0 => by have := h q hq h0; simp [total]; omega, by simp⟩
  | take n p ps hm h0 hle hmax _ ih =>
    refine ⟨by rw [total_cons]; omega, fun q hq hq0 => ?_, fun q hq => ?_⟩
    · have := ih.2.1 q hq hq0
      rw [total_cons]
      omega
    · rcases List.mem_cons.mp hq with rfl | hq
      · exact ⟨hm, h0, hle⟩
      · have := ih.2.2 q hq
        exact ⟨this.1, this.2.1, by omega⟩

theorem greedy_total {table ps : List (List Char × Nat)} {n : Nat} (hu : ∃ s, (s, 1) ∈ table) (h : Greedy table n ps) :
    total ps = n := by
  obtain ⟨s, hs⟩ := hu
  have h1 := greedy_le h
  have h2 := h1.2.1 _ hs (by simp)
  simp only at h2
  omega

theorem greedy_descending {table ps : List (List Char × Nat)} {n : Nat} (h : Greedy table n ps) :
    ps.Pairwise fun a b => a.2 ≥ b.2 := by
  induction h with
  | stop => exact .nil
  | take n p ps hm h0 hle hmax hg ih =>
    refine .cons (fun q hq => ?_) ih
    have h1 := (greedy_le hg).2.2 q hq
    exact hmax q h1.1 (by omega)

theorem descending_inj {table : List (List Char × Nat)} (hd : Descending table) {p q : List Char × Nat} (hp : p ∈ table)
    (hq : q ∈ table) (h : p.2 = q.2) : p = q := by
  unfold Descending at hd
  induction hd with
  | nil => cases hp
  | @cons a l h1 _ ih =>
    rcases List.mem_cons.mp hp with rfl | hp' <;> rcases List.mem_cons.mp hq with rfl | hq'
    · rfl
    · have := h1 _ hq'; omega
    · have := h1 _ hp'; omega
    · exact ih hp' hq'

theorem greedy_unique {table ps qs : List (List Char × Nat)} {n : Nat} (hd : Descending table) (h : Greedy table n ps)
    (h' : Greedy table n qs) : ps = qs := by
  induction h generalizing qs with
  | stop n h =>
    cases h' with
    | stop => rfl
    | take _ p ps hm h0 hle _ _ => have := h p hm h0; omega
  | take n p ps hm h0 hle hmax _ ih =>
    cases h' with
    | stop _ h => have := h p hm h0; omega
    | take _ q qs hm' h0' hle' hmax' hg' =>
      have h1 := hmax q hm' hle'
      have h2 := hmax' p hm hle
      have : p = q := descending_inj hd hm hm' (by omega)
      subst this
      rw [ih hg']

/-! ## Digit by digit -/

/-- What is left of `r` after the symbols of a table. -/
def leftover : List (List Char × Nat) → Nat → Nat
  | [], r => r
  | p :: rest, r => leftover rest (r % p.2)

theorem picks_append (a b : List (List Char × Nat)) (ha : ∀ p ∈ a, p.2 ≠ 0) (r : Nat) :
    picks (a ++ b) r = picks a r ++ picks b (leftover a r) := by
  induction a generalizing r with
  | nil => simp [picks, leftover]
  | cons p a ih =>
    simp only [List.cons_append, picks, ha p (by simp), ↓reduceIte, leftover, List.append_assoc]
    rw [ih fun q hq => ha q (by simp [hq])]

/-- Multiply the values of a table. -/
def scale (m : Nat) (a : List (List Char × Nat)) : List (List Char × Nat) := a.map fun p => (p.1, p.2 * m)

theorem picks_scale (m : Nat) (hm : m ≠ 0) (a : List (List Char × Nat)) (ha : ∀ p ∈ a, p.2 ≠ 0) (r : Nat) :
    picks (scale m a) r = scale m (picks a (r / m)) ∧ leftover (scale m a) r = leftover a (r / m) * m + r % m := by
  induction a generalizing r with
  | nil => exact ⟨rfl, by simp only [scale, List.map_nil, leftover]; rw [Nat.mul_comm]; exact (Nat.div_add_mod r m).symm⟩
  | cons p a ih =>
    have hp := ha p (by simp)
    obtain ⟨h1, h2⟩ := ih (fun q hq => ha q (by simp [hq])) (r % (p.2 * m))
    have e1 : r % (p.2 * m) / m = r / m % p.2 := by
      rw [Nat.mul_comm, Nat.mod_mul_right_div_self]
    have e2 : r % (p.2 * m) % m = r % m := by
      rw [Nat.mul_comm, Nat.mod_mul_right_mod]
    have e3 : r / (p.2 * m) = r / m / p.2 := by
      rw [Nat.mul_comm, Nat.div_div_eq_div_mul]
    rw [e1] at h1
    rw [e1, e2] at h2
    unfold scale at h1 h2 ⊢
    simp only [List.map_cons, picks, leftover, Nat.mul_ne_zero hp hm, hp, ↓reduceIte, List.map_append, List.map_replicate]
    rw [h1, h2, e3]
    exact ⟨rfl, rfl⟩

theorem written_scale (m : Nat) (a : List (List Char × Nat)) : written (scale m a) = written a := by
  simp [written, scale, List.flatMap_map]

/-- A block of nine (or four) symbols for one decimal place, applied to a remainder below ten places. -/
theorem picks_block {m : Nat} (hm : m ≠ 0) (a b : List (List Char × Nat)) (ha : ∀ p ∈ a, p.2 ≠ 0)
    (hd : ∀ d, d < 10 → leftover a d = 0) (r : Nat) (hr : r < 10 * m) :
    picks (scale m a ++ b) r = scale m (picks a (r / m)) ++ picks b (r % m) := by
  obtain ⟨h1, h2⟩ := picks_scale m hm a ha r
  rw [picks_append, h1, h2, hd _ (Nat.div_lt_of_lt_mul (by rw [Nat.mul_comm]; exact hr)), Nat.zero_mul, Nat.zero_add]
  intro p hp
  obtain ⟨q, hq, rfl⟩ := List.mem_map.mp hp
  exact Nat.mul_ne_zero (ha q hq) hm

end Nominals
