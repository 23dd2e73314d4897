import Verif.Spec.Width
import Verif.Proofs.TextLength
import Verif.Proofs.ChineseDigits

/-! # Lengths of texts in characters -/

namespace Nominals

open Nominals.Spec

/-! ## Digits and letters -/

theorem toDigits_width {b : Nat} (hb : 2 ≤ b) {k n : Nat} :
    (1 ≤ k → n < b ^ k → (Nat.toDigits b n).length ≤ k) ∧ (b ^ k ≤ n → k < (Nat.toDigits b n).length) := by
  have hn : IsNumeral b n _ := loop_numeral hb
  obtain ⟨_, h2, h3⟩ := numeral_length hn
  rw [numeral_toDigits hb hn, List.length_map]
  refine ⟨h3 k, fun h => ?_⟩
  rcases Nat.lt_or_ge k (((n % b) :: digs b (n / b)).reverse).length with h' | h'
  · exact h'
  · have := Nat.pow_le_pow_right (n := b) (by omega) h'
    omega

theorem column_width {b : Nat} (hb : 1 ≤ b) {k n : Nat} :
    (n < wordsUpTo b k → (column b n).length ≤ k) ∧ (wordsUpTo b k ≤ n → k < (column b n).length) := by
  obtain ⟨_, h2, h3⟩ := column_length hb n
  refine ⟨h3 k, fun h => ?_⟩
  rcases Nat.lt_or_ge k (column b n).length with h' | h'
  · exact h'
  · have := wordsUpTo_mono (b := b) h'
    omega

/-! ## Sums over the decimal digits -/

/-- `g k d` summed over the digits `d` of `n` at the places `k` below `K`. -/
def digSum (g : Nat → Nat → Nat) : Nat → Nat → Nat
  | 0, _ => 0
  | k + 1, n => g k (n / 10 ^ k % 10) + digSum g k n

/-- The largest of `f 0`, …, `f d`. -/
def maxTo (f : Nat → Nat) : Nat → Nat
  | 0 => f 0
  | d + 1 => max (f (d + 1)) (maxTo f d)

theorem le_maxTo (f : Nat → Nat) {e d : Nat} (h : e ≤ d) : f e ≤ maxTo f d := by
  induction d with
  | zero => rw [show e = 0 by omega]; exact Nat.le_refl _
  | succ d ih =>
    rw [maxTo]
    by_cases he : e = d + 1
    · subst he; omega
    · have := ih (by omega); omega

/-- The largest digit sum of any number. -/
def bestSum (g : Nat → Nat → Nat) : Nat → Nat
  | 0 => 0
  | k + 1 => maxTo (g k) 9 + bestSum g k

/-- The largest digit sum of a number up to `r`. -/
def bestUpTo (g : Nat → Nat → Nat) : Nat → Nat → Nat
  | 0, _ => 0
  | k + 1, r =>
    max (g k (r / 10 ^ k % 10) + bestUpTo g k r)
      (if r / 10 ^ k % 10 = 0 then 0 else maxTo (g k) (r / 10 ^ k % 10 - 1) + bestSum g k)

theorem digSum_le_best (g : Nat → Nat → Nat) : ∀ k n, digSum g k n ≤ bestSum g k := by
  intro k n
  induction k with
  | zero => exact Nat.le_refl _
  | succ k ih =>
    rw [digSum, bestSum]
    have := le_maxTo (g k) (show n / 10 ^ k % 10 ≤ 9 by omega)
    omega

theorem digSum_le_upTo (g : Nat → Nat → Nat) : ∀ k n r, n % 10 ^ k ≤ r % 10 ^ k → digSum g k n ≤ bestUpTo g k r := by
  intro k
  induction k with
  | zero => intro n r _; exact Nat.le_refl _
  | succ k ih =>
    intro n r h
    rw [digSum, bestUpTo]
    have hp : 0 < 10 ^ k := Nat.pow_pos (by omega)
    have e : ∀ m, m % 10 ^ (k + 1) = 10 ^ k * (m / 10 ^ k % 10) + m % 10 ^ k := by
      intro m
      rw [Nat.pow_succ, Nat.mod_mul]
      omega
    rw [e n, e r] at h
    have h1 := Nat.mod_lt n hp
    have h2 := Nat.mod_lt r hp
    generalize n / 10 ^ k % 10 = d at *
    generalize r / 10 ^ k % 10 = c at *
    rcases Nat.lt_trichotomy d c with hdc | hdc | hdc
    · rw [if_neg (by omega)]
      have a := le_maxTo (g k) (show d ≤ c - 1 by omega)
      have b := digSum_le_best g k n
      omega
    · subst hdc
      have := ih n r (by omega)
      omega
    · have := Nat.mul_le_mul_left (10 ^ k) (show c + 1 ≤ d from hdc)
      rw [Nat.mul_add, Nat.mul_one] at this
      omega

/-- The length of an additive text: `c` for every `top`, then the digits of the rest. -/
def linLen (top c : Nat) (g : Nat → Nat → Nat) (K n : Nat) : Nat := n / top * c + digSum g K (n % top)

/-- The largest length up to `N`. -/
def linMax (top c : Nat) (g : Nat → Nat → Nat) (K N : Nat) : Nat :=
  max (N / top * c + bestUpTo g K (N % top)) (if N / top = 0 then 0 else (N / top - 1) * c + bestUpTo g K (top - 1))

theorem linLen_le {top c K n N : Nat} {g : Nat → Nat → Nat} (ht : 0 < top) (hK : top ≤ 10 ^ K) (h : n ≤ N) :
    linLen top c g K n ≤ linMax top c g K N := by
  unfold linLen linMax
  have hq : n / top ≤ N / top := Nat.div_le_div_right h
  have h1 := Nat.mod_lt n ht
  have h2 := Nat.mod_lt N ht
  have small : ∀ m, m < top → m % 10 ^ K = m := fun m hm => Nat.mod_eq_of_lt (by omega)
  by_cases he : n / top = N / top
  · have hr : n % top ≤ N % top := by
      have a := Nat.div_add_mod n top
      have b := Nat.div_add_mod N top
      rw [he] at a
      omega
    have := digSum_le_upTo g K (n % top) (N % top) (by rw [small _ h1, small _ h2]; exact hr)
    rw [he]
    omega
  · have hlt : n / top < N / top := Nat.lt_of_le_of_ne hq he
    have := digSum_le_upTo g K (n % top) (top - 1) (by rw [small _ h1, small _ (by omega)]; omega)
    have hm := Nat.mul_le_mul_right c (Nat.le_sub_one_of_lt hlt)
    rw [if_neg (Nat.ne_of_gt (Nat.lt_of_le_of_lt (Nat.zero_le _) hlt))]
    omega

/-- Characters of digit `d` at place `10^k`. -/
def symWidth (sym : Nat → Nat → List Char) (k d : Nat) : Nat := if d = 0 then 0 else (sym k d).length

theorem length_flatten_replicate (k : Nat) (z : List Char) : (List.replicate k z).flatten.length = k * z.length := by
  induction k with
  | zero => simp
  | succ k ih => rw [List.replicate_succ, List.flatten_cons, List.length_append, ih, Nat.add_mul, Nat.one_mul, Nat.add_comm]

theorem repeatedTop_width (top : Nat) (z : List Char) (sym : Nat → Nat → List Char) (n : Nat) :
    (repeatedTop top z sym n).length = linLen top z.length (symWidth sym) 4 n := by
  have e : ∀ k d, (if d = 0 then [] else sym k d).length = symWidth sym k d := by
    intro k d
    unfold symWidth
    split <;> simp
  rw [repeatedTop, List.length_append, length_flatten_replicate, linLen]
  simp only [digitwise, List.length_append, e, digSum, Nat.reducePow, Nat.div_one]
  omega

/-- Characters of a Roman digit at place `10^k`. -/
def romanWidth (k d : Nat) : Nat :=
  if k = 5 then (romanGroup (bar 'C') (bar 'C' ++ bar 'D') (bar 'D') (bar 'D' ++ bar 'M') d).length
  else if k = 4 then (romanGroup (bar 'X') (bar 'X' ++ bar 'L') (bar 'L') (bar 'L' ++ bar 'C') d).length
  else if k = 3 then (romanGroup ['M'] (bar 'I' ++ bar 'V') (bar 'V') (bar 'I' ++ bar 'X') d).length
  else if k = 2 then (romanGroup ['C'] ['C', 'D'] ['D'] ['C', 'M'] d).length
  else if k = 1 then (romanGroup ['X'] ['X', 'L'] ['L'] ['X', 'C'] d).length
  else (romanGroup ['I'] ['I', 'V'] ['V'] ['I', 'X'] d).length

theorem roman_width (n : Nat) : (romanText n).length = linLen (10 ^ 6) 2 romanWidth 6 n := by
  have e5 : n % 10 ^ 6 / 10 ^ 5 % 10 = n / 10 ^ 5 % 10 := by omega
  have e4 : n % 10 ^ 6 / 10 ^ 4 % 10 = n / 10 ^ 4 % 10 := by omega
  have e3 : n % 10 ^ 6 / 10 ^ 3 % 10 = n / 10 ^ 3 % 10 := by omega
  have e2 : n % 10 ^ 6 / 10 ^ 2 % 10 = n / 10 ^ 2 % 10 := by omega
  have e1 : n % 10 ^ 6 / 10 ^ 1 % 10 = n / 10 % 10 := by omega
  have e0 : n % 10 ^ 6 / 10 ^ 0 % 10 = n % 10 := by omega
  simp only [romanText, linLen, digSum, List.length_append, length_flatten_replicate, e5, e4, e3, e2, e1, e0]
  simp only [romanWidth, Nat.reduceEqDiff, ↓reduceIte, show (bar 'M').length = 2 from rfl]
  omega

/-! ## Hebrew -/

theorem hebrew_rest : ∀ m, m < 400 → (hebrewDigit 2 (m / 100) ++ hebrewBelow100 (m % 100)).length ≤ 4 ∧
    (m < 115 → (hebrewDigit 2 (m / 100) ++ hebrewBelow100 (m % 100)).length ≤ 3) := fun m hm => ⟨(hebrew_parts m hm).1, (hebrew_parts m hm).2.1⟩

theorem hebrew_width (n : Nat) : (hebrewPlain n).length =
    n / 400 + (hebrewDigit 2 (n % 400 / 100) ++ hebrewBelow100 (n % 400 % 100)).length := by
  rw [hebrewPlain, List.append_assoc, List.length_append, List.length_replicate, show n % 400 % 100 = n % 100 by omega]

theorem hebrewText_width (n : Nat) : (hebrewText n).length = if (hebrewPlain n).length = 1 then 3 else (hebrewPlain n).length := by
  unfold hebrewText
  split
  · simp [*]
  · rfl

/-! ## Ethiopic -/

theorem ethFrom_width : ∀ D i n, n < 10 ^ D → i ≠ 0 → (ethFrom i n).length ≤ D + (D + 1) / 2
  | 0, i, n, h, _ => by rw [show n = 0 by omega, ethFrom_zero]; simp
  | 1, i, n, h, hi => by
    have h1 := (ethFrom_step i n hi).2 (by omega)
    rw [show n / 100 = 0 by omega, ethFrom_zero] at h1
    exact h1
  | D + 2, i, n, h, hi => by
    have h1 := (ethFrom_step i n hi).1
    have h2 := ethFrom_width D (i + 1) (n / 100) (by rw [Nat.pow_add] at h; omega) (by omega)
    omega

/-- One character per digit, and one between the groups of two digits. -/
theorem ethiopic_width {D n : Nat} (hD : 1 ≤ D) (h : n < 10 ^ D) : (ethiopicText n).length + 1 ≤ D + (D + 1) / 2 := by
  by_cases h1 : n = 1
  · subst h1
    have : (ethiopicText 1).length = 1 := rfl
    omega
  rw [ethiopicText_eq h1]
  match D, hD with
  | 1, _ =>
    have h1 := (ethFrom_step0 n).2 (by omega)
    rw [show n / 100 = 0 by omega, ethFrom_zero] at h1
    simpa using h1
  | D + 2, _ =>
    have h1 := (ethFrom_step0 n).1
    have h2 := ethFrom_width D 1 (n / 100) (by rw [Nat.pow_add] at h; omega) (by omega)
    omega

/-! ## Chinese -/

theorem placeUnit_width (p : Nat) : (placeUnit p).length = if p = 0 then 0 else 1 := by
  match p with
  | 0 | 1 | 2 | 3 => rfl
  | p + 4 => rfl

/-- Two characters per digit; a digit after a gap has 零 in addition, which the gap pays for. -/
theorem places_width {n : Nat} : ∀ p prev, (placesFrom n p prev).length ≤ 2 * p ∧
    ((prev = none ∨ prev = some p) → (placesFrom n p prev).length ≤ 2 * p - 1) := by
  intro p
  induction p with
  | zero => intro prev; exact ⟨Nat.le_refl _, fun _ => Nat.le_refl _⟩
  | succ p ih =>
    intro prev
    rw [placesFrom]
    split
    · have h1 := (ih prev).1
      refine ⟨by omega, fun h => by omega⟩
    · have h1 := (ih (some p)).2 (.inr rfl)
      simp only [List.length_append, List.length_cons, placeUnit_width]
      refine ⟨?_, fun h => ?_⟩
      · split <;> split <;> simp only [List.length_nil, List.length_cons] <;> omega
      · rw [if_pos h]
        split <;> simp only [List.length_nil] <;> omega

theorem places_drop {n D : Nat} (hn : n < 10 ^ D) : ∀ w, D ≤ w → placesFrom n w none = placesFrom n D none := by
  intro w
  induction w with
  | zero => intro h; rw [show D = 0 by omega]
  | succ w ih =>
    intro h
    by_cases h1 : D = w + 1
    · rw [h1]
    · have h2 : n < 10 ^ w := Nat.lt_of_lt_of_le hn (Nat.pow_le_pow_right (by omega) (by omega))
      rw [placesFrom, Nat.div_eq_of_lt h2]
      exact ih (by omega)

theorem places_digits {n D w : Nat} (hD : n < 10 ^ D) (hw : D ≤ w) : (placesFrom n w none).length ≤ 2 * D - 1 := by
  rw [places_drop hD w hw]
  exact (places_width D none).2 (.inl rfl)

theorem groups_width {u sp : Nat → Nat} {n : Nat} : ∀ j s, (groupsFrom u sp n j s).length ≤ 8 * j - 1 := by
  intro j
  induction j with
  | zero => intro s; exact Nat.le_refl _
  | succ j ih =>
    intro s
    rw [groupsFrom]
    have h1 := ih (s || n / 10000 ^ j % 10000 != 0)
    have h4 := places_digits (n := n / 10000 ^ j % 10000) (D := 4) (w := 4) (by omega) (by omega)
    have h3 : n / 10000 ^ j % 10000 < 1000 → (placesFrom (n / 10000 ^ j % 10000) 4 none).length ≤ 5 :=
      fun h => places_digits (D := 3) h (by omega)
    have hg : (if n / 10000 ^ j % 10000 = 0 then [] else
        (if s = true ∧ n / 10000 ^ j % 10000 < 1000 then [CTok.zero] else []) ++ placesFrom (n / 10000 ^ j % 10000) 4 none).length ≤ 7 := by
      split
      · simp
      · rw [List.length_append]
        split
        · next h => have := h3 h.2; simp only [List.length_cons, List.length_nil]; omega
        · simp only [List.length_nil]; omega
    have hu : (if j = 0 ∨ n / 10000 ^ j % 10000 ^ sp j = 0 then [] else [CTok.large (u j)]).length ≤ if j = 0 then 0 else 1 := by
      split
      · simp
      · next h => rw [if_neg fun h' => h (.inl h')]; exact Nat.le_refl _
    simp only [List.length_append] at hg ⊢
    by_cases hj : j = 0
    · rw [if_pos hj] at hu; omega
    · rw [if_neg hj] at hu; omega

theorem groups_digits {u sp : Nat → Nat} {n D w : Nat} (hD : n < 10 ^ D) (hw : D ≤ 4 * w) :
    (groupsFrom u sp n w false).length ≤ 2 * D - 1 := by
  have e : D = 4 * (D / 4) + D % 4 := by omega
  generalize hq : D / 4 = q at e
  generalize hr : D % 4 = r at e
  have hr4 : r < 4 := by omega
  have hp : ∀ k, 10 ^ (4 * k) = 10000 ^ k := fun k => by rw [Nat.pow_mul]
  by_cases h0 : r = 0
  · subst h0
    rw [e, Nat.add_zero, hp] at hD
    rw [groups_drop hD false w (by omega)]
    have := groups_width (u := u) (sp := sp) (n := n) q false
    omega
  · have hD' : n < 10000 ^ (q + 1) := by
      rw [← hp]
      exact Nat.lt_of_lt_of_le hD (Nat.pow_le_pow_right (by omega) (by omega))
    rw [groups_drop hD' false w (by omega), groupsFrom]
    have h1 := groups_width (u := u) (sp := sp) (n := n) q (false || n / 10000 ^ q % 10000 != 0)
    have hg : n / 10000 ^ q % 10000 < 10 ^ r := by
      rw [e, Nat.pow_add, hp] at hD
      have : n / 10000 ^ q < 10 ^ r := Nat.div_lt_of_lt_mul hD
      exact Nat.lt_of_le_of_lt (Nat.mod_le _ _) this
    have h2 := places_digits (w := 4) hg (by omega)
    have hg' : (if n / 10000 ^ q % 10000 = 0 then [] else
        (if false = true ∧ n / 10000 ^ q % 10000 < 1000 then [CTok.zero] else []) ++ placesFrom (n / 10000 ^ q % 10000) 4 none).length ≤ 2 * r - 1 := by
      split
      · simp
      · simpa using h2
    have hu : (if q = 0 ∨ n / 10000 ^ q % 10000 ^ sp q = 0 then [] else [CTok.large (u q)]).length ≤ if q = 0 then 0 else 1 := by
      split
      · simp
      · next h => rw [if_neg fun h' => h (.inl h')]; exact Nat.le_refl _
    simp only [List.length_append] at hg' ⊢
    by_cases hj : q = 0
    · rw [if_pos hj] at hu; omega
    · rw [if_neg hj] at hu; omega

theorem drop_width (ts : List CTok) : (dropLeadingOne ts).length ≤ ts.length := by
  unfold dropLeadingOne
  split <;> simp

/-- Every digit but the last takes at most two characters. -/
theorem flat_width {scale : ChineseScale} {n D : Nat} (hn : n < 10 ^ D) (hr : inRange scale n) :
    (flatTokens scale n).length ≤ 2 * D - 1 ∧ (scale = .short → (flatTokens scale n).length ≤ 29) := by
  have h39 : n < 10 ^ 39 := Nat.lt_of_lt_of_le hr.1 (by decide)
  have key : ∀ E, n < 10 ^ E → ((flatTokens scale n).length ≤ 2 * E - 1 ∨ (if scale = .short then 15 else 39) < E) := by
    intro E hE
    by_cases hs : scale = .short
    · subst hs
      by_cases h : E ≤ 15
      · exact .inl (places_digits hE h)
      · exact .inr (by rw [if_pos rfl]; omega)
    · rw [if_neg hs]
      by_cases h : E ≤ 39
      · left
        cases scale with
        | short => exact absurd rfl hs
        | myriad => exact groups_digits hE (by omega)
        | mid => exact groups_digits hE (by omega)
        | long => exact groups_digits hE (by omega)
      · exact .inr (by omega)
  refine ⟨?_, fun hs => ?_⟩
  · rcases key D hn with h | h
    · exact h
    · split at h
      · next hs => rcases key 15 (hr.2 hs) with h' | h'
                   · omega
                   · rw [if_pos hs] at h'; omega
      · next hs => rcases key 39 h39 with h' | h'
                   · omega
                   · rw [if_neg hs] at h'; omega
  · rcases key 15 (hr.2 hs) with h' | h'
    · exact h'
    · rw [if_pos hs] at h'; omega

end Nominals
