import Verif.Proofs.Additive
import Verif.Spec.Hebrew

/-! # Hebrew -/

namespace Nominals

open Nominals.Spec

/-- What the loop appends for `r`, `e` telling whether nothing has been written yet. -/
def hebEval : Nat → List (Char × Nat) → Nat → Bool → Option (List Char)
  | 0, _, _, _ => none
  | _ + 1, [], _, _ => some []
  | f + 1, p :: rest, r, e =>
    if r ≥ p.2 then
      if r = 15 then some hebrewFifteen
      else if r = 16 then some hebrewSixteen
      else if e && decide (p.2 = r) then some [geresh, p.1, gershayim]
      else (hebEval f (p :: rest) (r - p.2) false).map (p.1 :: ·)
    else hebEval f rest r e

theorem hebrewWhile_fuel (cfg : Cfg) (n : Nat) (c : Char) (v : Nat) (hv : 1 ≤ v) :
    ∀ (f f' r : Nat) (s : NStr), r < f → r < f' → hebrewWhile cfg T n c v f r s = hebrewWhile cfg T n c v f' r s := by
  intro f
  induction f with
  | zero => intro f' r s h; omega
  | succ f ih =>
    intro f' r s h h'
    cases f' with
    | zero => omega
    | succ f' =>
      unfold hebrewWhile
      by_cases hr : r ≥ v
      · simp only [hr, ↓reduceIte]
        split
        · rfl
        · split
          · rfl
          · refine Res.bind_congr _ fun s1 => ?_
            simp only [subT_le hr, Res.bind_ok]
            refine Res.bind_congr _ fun s2 => ?_
            split
            · rfl
            · exact ih f' (r - v) s2 (by omega) (by omega)
      · simp [hr]

theorem hebrewFor_zero {cfg : Cfg} {T : IntTy} {n : Nat} (table : List (Char × Nat)) (hv : ∀ p ∈ table, 1 ≤ p.2) (s : NStr) :
    hebrewFor cfg T n table 0 s = .ok s := by
  induction table with
  | nil => rfl
  | cons p rest ih =>
    have h1 := hv p (by simp)
    have ih := ih fun q hq => hv q (by simp [hq])
    have hn : ¬ p.2 = 0 := by omega
    unfold hebrewFor
    simp only [IntTy.tryFrom]
    split
    · exact ih
    · next v' hv' =>
      split at hv'
      · cases hv'
        simp [hebrewWhile, hn, Res.bind_ok, ih]
      · cases hv'

theorem hebrewFor_del {cfg : Cfg} {T : IntTy} {n : Nat} (fuel : Nat) : ∀ (table : List (Char × Nat)) (_ : ∀ p ∈ table, 1 ≤ p.2)
    (r : Nat) (_ : T.Fits cfg r) (s : NStr) (t out : List Char) (_ : s.Is t) (_ : cfg.alloc = true ∨ utf8Len t ≤ 62)
    (_ : hebEval fuel table r t.isEmpty = some out),
    Del cfg.alloc (Error.outOfMemory n) (hebrewFor cfg T n table r s) (t ++ out) := by
  induction fuel with
  | zero => intro _ _ _ _ _ _ _ _ _ h; cases h
  | succ fuel ih =>
    intro table hv r hr s t out hs ha h
    cases table with
    | nil =>
      simp only [hebEval, Option.some.injEq] at h
      subst h
      simp only [hebrewFor, List.append_nil]
      exact .ok _ _ hs ha
    | cons p rest =>
      have h1 := hv p (by simp)
      have hrest : ∀ q ∈ rest, 1 ≤ q.2 := fun q hq => hv q (by simp [hq])
      have hr' : r < 2 ^ T.bits cfg := hr
      obtain ⟨c, v⟩ := p
      simp only at h1
      unfold hebrewFor
      by_cases hT : v < 2 ^ T.bits cfg
      · rw [tryFrom_some hT]
        simp only
        unfold hebEval at h
        simp only at h
        unfold hebrewWhile
        by_cases hge : r ≥ v
        · simp only [hge, ↓reduceIte] at h ⊢
          by_cases h15 : r = 15
          · simp only [h15, ↓reduceIte, Option.some.injEq] at h ⊢
            subst h
            rw [Res.bind_assoc]
            exact ((hs.pushStr ha hebrewFifteen).withNominal (n := n)).bind (by simp) fun s' hs' ha' => .ok _ _ hs' ha'
          · by_cases h16 : r = 16
            · subst h16
              simp only [h15, ↓reduceIte, Option.some.injEq] at h ⊢
              subst h
              rw [Res.bind_assoc]
              exact ((hs.pushStr ha hebrewSixteen).withNominal (n := n)).bind (by simp) fun s' hs' ha' => .ok _ _ hs' ha'
            · simp only [h15, h16, ↓reduceIte] at h ⊢
              rw [hs.isEmpty]
              by_cases hsing : v = r ∧ t.isEmpty = true
              · obtain ⟨hvr, he⟩ := hsing
                have ht : t = [] := by simpa using he
                subst ht
                simp only [hvr, List.isEmpty_nil, decide_true, Bool.and_self, ↓reduceIte, Option.some.injEq] at h ⊢
                subst h
                rw [Res.bind_assoc]
                refine ((hs.push ha geresh).withNominal (n := n)).bind (by simp) fun s1 hs1 ha1 => ?_
                simp only [subT_le (Nat.le_refl _), Res.bind_ok, Nat.sub_self]
                rw [Res.bind_assoc]
                refine ((hs1.push ha1 c).withNominal (n := n)).bind (by simp) fun s2 hs2 ha2 => ?_
                rw [Res.bind_assoc]
                refine ((hs2.push ha2 gershayim).withNominal (n := n)).bind (by simp) fun s3 hs3 ha3 => ?_
                rw [Res.bind_ok]
                simp only
                rw [hebrewFor_zero rest hrest]
                exact .ok _ _ hs3 ha3
              · have hb1 : (t.isEmpty && decide (v = r)) = false := by
                  cases e : t.isEmpty <;> simp_all
                have hb2 : (decide (v = r) && t.isEmpty) = false := by rw [Bool.and_comm]; exact hb1
                simp only [hb1, hb2, Bool.false_eq_true, ↓reduceIte, Res.bind_ok] at h ⊢
                simp only [subT_le hge, Res.bind_ok]
                rw [Res.bind_assoc]
                cases h2 : hebEval fuel ((c, v) :: rest) (r - v) false with
                | none => rw [h2] at h; cases h
                | some out' =>
                  rw [h2] at h
                  simp only [Option.map_some, Option.some.injEq] at h
                  subst h
                  refine ((hs.push ha c).withNominal (n := n)).bind (by simp) fun s' hs' ha' => ?_
                  have ih := ih ((c, v) :: rest) hv (r - v) (Nat.lt_of_le_of_lt (Nat.sub_le _ _) hr) s' (t ++ [c]) out' hs' ha'
                    (by rw [show (t ++ [c]).isEmpty = false by cases t <;> rfl]; exact h2)
                  unfold hebrewFor at ih
                  rw [tryFrom_some hT] at ih
                  simp only at ih
                  rw [hebrewWhile_fuel cfg n c v h1 r (r - v + 1) (r - v) s' (by omega) (by omega)]
                  simpa using ih
        · simp only [hge, ↓reduceIte, Res.bind_ok] at h ⊢
          exact ih rest hrest r hr s t out hs ha h
      · have e1 : T.tryFrom cfg v = none := by simp [IntTy.tryFrom]; omega
        rw [e1]
        simp only
        have hlt : ¬ r ≥ v := by omega
        unfold hebEval at h
        simp only [hlt, ↓reduceIte] at h
        exact ih rest hrest r hr s t out hs ha h

theorem hebEval_tav (f k m : Nat) :
    hebEval (f + k) hebrewTable (400 * k + m) false = (hebEval f hebrewTable m false).map (List.replicate k 'ת' ++ ·) := by
  induction k with
  | zero => simp
  | succ k ih =>
    have e : hebrewTable = ('ת', 400) :: hebrewTable.tail := rfl
    rw [← Nat.add_assoc, e, hebEval]
    simp only [Bool.false_and, Bool.false_eq_true, ↓reduceIte]
    rw [if_pos (by omega), if_neg (by omega), if_neg (by omega), ← e,
      show 400 * (k + 1) + m - 400 = 400 * k + m by omega, ih, Option.map_map]
    congr 1

theorem hebEval_below : ∀ m, m < 400 →
    hebEval 60 hebrewTable m false = some (hebrewDigit 2 (m / 100) ++ hebrewBelow100 (m % 100)) ∧
    (m ≠ 0 → hebEval 60 hebrewTable m true = some (hebrewText m)) := by decide +kernel

theorem hebEval_text (n : Nat) (h0 : n ≠ 0) : hebEval (60 + n / 400) hebrewTable n true = some (hebrewText n) := by
  by_cases h : n < 400
  · rw [Nat.div_eq_of_lt h]
    exact (hebEval_below n h).2 h0
  · have hm := (hebEval_below (n % 400) (Nat.mod_lt _ (by omega))).1
    have hk : n / 400 = (n / 400 - 1) + 1 := by omega
    have e : hebrewTable = ('ת', 400) :: hebrewTable.tail := rfl
    by_cases h4 : n = 400
    · subst h4; decide +kernel
    · have hlen : (hebrewPlain n).length ≠ 1 := by
        unfold hebrewPlain hebrewDigit hebrewBelow100 hebrewDigit
        simp only [List.length_append, List.length_replicate]
        by_cases h1 : n / 400 = 1
        · rw [h1]
          by_cases hh : n % 400 / 100 = 0
          · have h2 : n % 100 ≠ 0 := by omega
            rw [if_pos hh]
            by_cases ha : n % 100 = 15
            · rw [if_pos ha]; simp
            · rw [if_neg ha]
              by_cases hb : n % 100 = 16
              · rw [if_pos hb]; simp
              · rw [if_neg hb]
                by_cases hc : n % 100 / 10 = 0
                · have hd : ¬ n % 100 % 10 = 0 := by omega
                  rw [if_pos hc, if_neg hd]; simp
                · rw [if_neg hc]; simp
          · rw [if_neg hh]; simp; omega
        · omega
      rw [hebrewText, if_neg hlen, hk, ← Nat.add_assoc, e, hebEval]
      have h4' : (true && decide (400 = n)) = false := by simp; omega
      simp only [h4', Bool.false_eq_true, ↓reduceIte]
      rw [if_pos (by omega), if_neg (by omega), if_neg (by omega), ← e,
        show n - 400 = 400 * (n / 400 - 1) + n % 400 by omega, hebEval_tav, hm]
      simp only [Option.map_some, Option.some.injEq]
      rw [hebrewPlain, hk, List.replicate_succ]
      have e1 : n % 400 % 100 = n % 100 := by omega
      rw [e1]
      simp

theorem hebrew_del {cfg : Cfg} {T : IntTy} {n : Nat} (hn : T.Fits cfg n) (h0 : n ≠ 0) :
    Del cfg.alloc (Error.outOfMemory n) (hebrewTryFormat cfg T n) (hebrewText n) := by
  unfold hebrewTryFormat
  rw [if_neg h0]
  exact hebrewFor_del (60 + n / 400) hebrewTable (by decide) n hn NStr.new [] _ NStr.new_is (.inr (by simp))
    (hebEval_text n h0)

end Nominals
