import Verif.Spec.Inline
import Verif.Proofs.DigitNamed
import Verif.Proofs.AdditiveNamed
import Verif.Proofs.Ethiopic
import Verif.Proofs.ChineseFormat

/-! # Lengths of texts in bytes -/

namespace Nominals

open Nominals.Spec

theorem utf8Len_uniform {w : Nat} {t : List Char} (h : ∀ c ∈ t, c.utf8Size = w) : utf8Len t = w * t.length := by
  induction t with
  | nil => simp
  | cons c t ih =>
    rw [utf8Len_cons, h c (by simp), ih fun c hc => h c (by simp [hc]), List.length_cons, Nat.mul_add, Nat.mul_one, Nat.add_comm]

theorem getD_mem {al : List Char} {i : Nat} (h : i < al.length) : al.getD i '?' ∈ al := by
  rw [List.getD_eq_getElem?_getD, List.getElem?_eq_getElem h]
  exact List.getElem_mem _

theorem spell_len {w : Nat} {al : List Char} (h : ∀ c ∈ al, c.utf8Size = w) {ds : List Nat} (hd : ∀ d ∈ ds, d < al.length) :
    utf8Len (spell al ds) = w * ds.length := by
  rw [utf8Len_uniform (w := w)]
  · simp [spell]
  · intro c hc
    obtain ⟨i, hi, rfl⟩ := List.mem_map.mp hc
    exact h _ (getD_mem (hd i hi))

/-! ## Digit systems -/

/-- Decimal numerals with digits of `w` bytes each. -/
theorem decimal_len {w : Nat} {f : Char → Char} (hf : ∀ i, i < 10 → (f (Nat.digitChar i)).utf8Size = w) (n : Nat) :
    utf8Len ((Nat.toDigits 10 n).map f) = w * (Nat.toDigits 10 n).length ∧ n < 10 ^ (Nat.toDigits 10 n).length ∧
      ∀ k, 1 ≤ k → n < 10 ^ k → (Nat.toDigits 10 n).length ≤ k := by
  have hn : IsNumeral 10 n _ := loop_numeral (by omega)
  have hl := numeral_length hn
  rw [numeral_toDigits (by omega) hn, List.map_map, List.length_map]
  refine ⟨?_, hl.2.1, hl.2.2⟩
  rw [utf8Len_uniform (w := w), List.length_map]
  intro c hc
  obtain ⟨i, hi, rfl⟩ := List.mem_map.mp hc
  exact hf i (hn.digits i hi)

theorem decimal_short_iff {w K : Nat} {f : Char → Char} (hf : ∀ i, i < 10 → (f (Nat.digitChar i)).utf8Size = w) (hK : 1 ≤ K) (h1 : w * K ≤ 62)
    (h2 : 62 < w * (K + 1)) (n : Nat) : utf8Len ((Nat.toDigits 10 n).map f) ≤ 62 ↔ n < 10 ^ K := by
  obtain ⟨e, hlt, hmin⟩ := decimal_len hf n
  rw [e]
  constructor
  · intro h
    have hle : (Nat.toDigits 10 n).length ≤ K := by
      rcases Nat.lt_or_ge K (Nat.toDigits 10 n).length with h' | h'
      · have := Nat.mul_le_mul_left w (show K + 1 ≤ _ from h')
        omega
      · exact h'
    exact Nat.lt_of_lt_of_le hlt (Nat.pow_le_pow_right (by omega) hle)
  · intro h
    have := Nat.mul_le_mul_left w (hmin K hK h)
    omega

theorem column_short_iff {w K : Nat} {al : List Char} (h : ∀ c ∈ al, c.utf8Size = w) (hb : 1 ≤ al.length) (h1 : w * K ≤ 62)
    (h2 : 62 < w * (K + 1)) (n : Nat) : utf8Len (spell al (column al.length n)) ≤ 62 ↔ n < wordsUpTo al.length K := by
  obtain ⟨_, hlt, hmin⟩ := column_length hb n
  rw [spell_len h (column_lt hb n)]
  constructor
  · intro h
    have hle : (column al.length n).length ≤ K := by
      rcases Nat.lt_or_ge K (column al.length n).length with h' | h'
      · have := Nat.mul_le_mul_left w (show K + 1 ≤ _ from h')
        omega
      · exact h'
    exact Nat.lt_of_lt_of_le hlt (wordsUpTo_mono hle)
  · intro h
    have := Nat.mul_le_mul_left w (hmin K h)
    omega

/-! ## Additive systems -/

/-- Bytes of digit `d` at place `10^k`. -/
def symLen (sym : Nat → Nat → List Char) (k d : Nat) : Nat := if d = 0 then 0 else utf8Len (sym k d)

theorem digitwise_len (sym : Nat → Nat → List Char) (n : Nat) :
    utf8Len (digitwise sym n) = symLen sym 3 (n / 1000 % 10) + symLen sym 2 (n / 100 % 10) + symLen sym 1 (n / 10 % 10) + symLen sym 0 (n % 10) := by
  have e : ∀ k d, utf8Len (if d = 0 then [] else sym k d) = symLen sym k d := by
    intro k d
    unfold symLen
    split <;> simp
  simp only [digitwise, utf8Len_append, e]

theorem utf8Len_flatten_replicate (k : Nat) (z : List Char) : utf8Len (List.replicate k z).flatten = k * utf8Len z := by
  induction k with
  | zero => simp
  | succ k ih => rw [List.replicate_succ, List.flatten_cons, utf8Len_append, ih, Nat.add_mul, Nat.one_mul, Nat.add_comm]

theorem repeatedTop_len (top : Nat) (z : List Char) (sym : Nat → Nat → List Char) (n : Nat) :
    utf8Len (repeatedTop top z sym n) = n / top * utf8Len z + (symLen sym 3 (n % top / 1000 % 10) + symLen sym 2 (n % top / 100 % 10) +
      symLen sym 1 (n % top / 10 % 10) + symLen sym 0 (n % top % 10)) := by
  rw [repeatedTop, utf8Len_append, utf8Len_flatten_replicate, digitwise_len]

/-- One letter of `w` bytes per non-zero digit. -/
theorem letters_len {w : Nat} {sym : Nat → Nat → List Char} (h : ∀ k, k < 4 → ∀ d, d < 10 → symLen sym k d = if d = 0 then 0 else w)
    (n : Nat) : symLen sym 3 (n / 1000 % 10) + symLen sym 2 (n / 100 % 10) + symLen sym 1 (n / 10 % 10) + symLen sym 0 (n % 10) ≤ 4 * w ∧
      (n < 1111 → symLen sym 3 (n / 1000 % 10) + symLen sym 2 (n / 100 % 10) + symLen sym 1 (n / 10 % 10) + symLen sym 0 (n % 10) ≤ 3 * w) := by
  rw [h 3 (by omega) _ (by omega), h 2 (by omega) _ (by omega), h 1 (by omega) _ (by omega), h 0 (by omega) _ (by omega)]
  by_cases h3 : n / 1000 % 10 = 0 <;> by_cases h2 : n / 100 % 10 = 0 <;> by_cases h1 : n / 10 % 10 = 0 <;> by_cases h0 : n % 10 = 0 <;>
    simp only [h3, h2, h1, h0, ↓reduceIte] <;> refine ⟨by omega, fun h => ?_⟩ <;> omega

theorem armenianLower_short {n : Nat} (h : n < 253111) : utf8Len (repeatedTop 9000 ['ք'] armenianLowerSym n) ≤ 62 := by
  rw [repeatedTop_len]
  have hl := letters_len (w := 2) (sym := armenianLowerSym) (by decide +kernel) (n % 9000)
  have e : utf8Len ['ք'] = 2 := by decide
  rw [e]
  omega

theorem armenianUpper_short {n : Nat} (h : n < 244111) : utf8Len (repeatedTop 9000 ['Ք'] armenianUpperSym n) ≤ 62 := by
  rw [repeatedTop_len]
  have key : ∀ k, k < 4 → ∀ d, d < 10 → symLen armenianUpperSym k d = if d = 0 then 0 else if k = 0 ∧ d = 1 then 3 else 2 := by decide +kernel
  have e : utf8Len ['Ք'] = 2 := by decide
  rw [key 3 (by omega) _ (by omega), key 2 (by omega) _ (by omega), key 1 (by omega) _ (by omega), key 0 (by omega) _ (by omega), e]
  simp only [Nat.reduceEqDiff, false_and, true_and, ↓reduceIte]
  by_cases h3 : n % 9000 / 1000 % 10 = 0 <;> by_cases h2 : n % 9000 / 100 % 10 = 0 <;> by_cases h1 : n % 9000 / 10 % 10 = 0 <;>
    by_cases h0 : n % 9000 % 10 = 0 <;> by_cases h0' : n % 9000 % 10 = 1 <;> simp only [h3, h2, h1, h0, h0', ↓reduceIte, Nat.one_ne_zero] <;> omega

theorem georgian_short {n : Nat} (h : n < 171111) : utf8Len (repeatedTop 10000 ['ჵ'] georgianSym n) ≤ 62 := by
  rw [repeatedTop_len]
  have hl := letters_len (w := 3) (sym := georgianSym) (by decide +kernel) (n % 10000)
  have e : utf8Len ['ჵ'] = 3 := by decide
  rw [e]
  omega

theorem formalPlace_short {z : List Char} {sym : Nat → Nat → List Char} (hz : utf8Len z = 6)
    (key : ∀ k, k < 4 → ∀ d, d < 10 → symLen sym k d = if d = 0 then 0 else if k = 0 then 3 else 6) {n : Nat} (h : n < 64111) :
    utf8Len (repeatedTop 9000 z sym n) ≤ 62 := by
  rw [repeatedTop_len, key 3 (by omega) _ (by omega), key 2 (by omega) _ (by omega), key 1 (by omega) _ (by omega),
    key 0 (by omega) _ (by omega), hz]
  simp only [Nat.reduceEqDiff, ↓reduceIte]
  by_cases h3 : n % 9000 / 1000 % 10 = 0 <;> by_cases h2 : n % 9000 / 100 % 10 = 0 <;> by_cases h1 : n % 9000 / 10 % 10 = 0 <;>
    by_cases h0 : n % 9000 % 10 = 0 <;> simp only [h3, h2, h1, h0, ↓reduceIte] <;> omega

theorem informalPlace_short {z : List Char} {sym : Nat → Nat → List Char} (hz : utf8Len z = 6)
    (key : ∀ k, k < 4 → ∀ d, d < 10 → symLen sym k d = if d = 0 then 0 else if k = 0 ∨ d = 1 then 3 else 6) {n : Nat} (h : n < 65221) :
    utf8Len (repeatedTop 9000 z sym n) ≤ 62 := by
  rw [repeatedTop_len, key 3 (by omega) _ (by omega), key 2 (by omega) _ (by omega), key 1 (by omega) _ (by omega),
    key 0 (by omega) _ (by omega), hz]
  simp only [Nat.reduceEqDiff, false_or, true_or, ↓reduceIte]
  have e : ∀ d : Nat, (if d = 0 then 0 else if d = 1 then 3 else 6) = (if d = 0 then 0 else 3) + (if d ≤ 1 then 0 else 3) := by
    intro d
    rcases d with _ | _ | d <;> simp
  have le : ∀ d : Nat, (if d = 0 then 0 else 3) ≤ 3 := by intro d; split <;> omega
  have l3 := le (n % 9000 / 1000 % 10)
  have l2 := le (n % 9000 / 100 % 10)
  have l1 := le (n % 9000 / 10 % 10)
  simp only [e]
  by_cases h3 : n % 9000 / 1000 % 10 ≤ 1 <;> by_cases h2 : n % 9000 / 100 % 10 ≤ 1 <;> by_cases h1 : n % 9000 / 10 % 10 ≤ 1 <;>
    by_cases h0 : n % 9000 % 10 = 0 <;> simp only [h3, h2, h1, h0, ↓reduceIte] <;> omega

/-! ## Roman numerals -/

theorem roman_short {n : Nat} (h : n < 7884888) : utf8Len (romanText n) ≤ 62 := by
  have g5 : ∀ d, d < 10 → utf8Len (romanGroup (bar 'C') (bar 'C' ++ bar 'D') (bar 'D') (bar 'D' ++ bar 'M') d) ≤ if d < 8 then 9 else 12 := by decide
  have g4 : ∀ d, d < 10 → utf8Len (romanGroup (bar 'X') (bar 'X' ++ bar 'L') (bar 'L') (bar 'L' ++ bar 'C') d) ≤ if d < 8 then 9 else 12 := by decide
  have g3 : ∀ d, d < 10 → utf8Len (romanGroup ['M'] (bar 'I' ++ bar 'V') (bar 'V') (bar 'I' ++ bar 'X') d) ≤ if d < 4 then 3 else 6 := by decide
  have g2 : ∀ d, d < 10 → utf8Len (romanGroup ['C'] ['C', 'D'] ['D'] ['C', 'M'] d) ≤ if d < 8 then 3 else 4 := by decide
  have g1 : ∀ d, d < 10 → utf8Len (romanGroup ['X'] ['X', 'L'] ['L'] ['X', 'C'] d) ≤ if d < 8 then 3 else 4 := by decide
  have g0 : ∀ d, d < 10 → utf8Len (romanGroup ['I'] ['I', 'V'] ['V'] ['I', 'X'] d) ≤ if d < 8 then 3 else 4 := by decide
  have e : utf8Len (bar 'M') = 3 := by decide
  simp only [romanText, utf8Len_append, utf8Len_flatten_replicate, e]
  have h5 := g5 (n / 10 ^ 5 % 10) (by omega)
  have h4 := g4 (n / 10 ^ 4 % 10) (by omega)
  have h3 := g3 (n / 10 ^ 3 % 10) (by omega)
  have h2 := g2 (n / 10 ^ 2 % 10) (by omega)
  have h1 := g1 (n / 10 % 10) (by omega)
  have h0 := g0 (n % 10) (by omega)
  revert h5 h4 h3 h2 h1 h0
  generalize utf8Len (romanGroup (bar 'C') _ _ _ _) = x5
  generalize utf8Len (romanGroup (bar 'X') _ _ _ _) = x4
  generalize utf8Len (romanGroup ['M'] _ _ _ _) = x3
  generalize utf8Len (romanGroup ['C'] _ _ _ _) = x2
  generalize utf8Len (romanGroup ['X'] _ _ _ _) = x1
  generalize utf8Len (romanGroup ['I'] _ _ _ _) = x0
  intro h5 h4 h3 h2 h1 h0
  split at h5 <;> split at h4 <;> split at h3 <;> split at h2 <;> split at h1 <;> split at h0 <;> omega

/-! ## Hebrew -/

theorem hebrew_parts : ∀ m, m < 400 → (hebrewDigit 2 (m / 100) ++ hebrewBelow100 (m % 100)).length ≤ 4 ∧
    (m < 115 → (hebrewDigit 2 (m / 100) ++ hebrewBelow100 (m % 100)).length ≤ 3) ∧
    ∀ c ∈ hebrewDigit 2 (m / 100) ++ hebrewBelow100 (m % 100), c.utf8Size = 2 := by decide +kernel

theorem hebrew_short {n : Nat} (h : n < 11315) : utf8Len (hebrewText n) ≤ 62 := by
  have e : hebrewPlain n = List.replicate (n / 400) 'ת' ++ (hebrewDigit 2 (n % 400 / 100) ++ hebrewBelow100 (n % 400 % 100)) := by
    rw [hebrewPlain, List.append_assoc, show n % 400 % 100 = n % 100 by omega]
  obtain ⟨h1, h2, h3⟩ := hebrew_parts (n % 400) (by omega)
  have hl : utf8Len (hebrewPlain n) = 2 * (hebrewPlain n).length := by
    refine utf8Len_uniform fun c hc => ?_
    rw [e] at hc
    rcases List.mem_append.mp hc with hc | hc
    · rw [List.eq_of_mem_replicate hc]; decide
    · exact h3 c hc
  have hll : (hebrewPlain n).length ≤ 31 := by
    rw [e, List.length_append, List.length_replicate]
    omega
  have e1 : Char.utf8Size '׳' = 2 := by decide
  have e2 : Char.utf8Size '״' = 2 := by decide
  unfold hebrewText
  split
  · rename_i h'
    simp only [List.cons_append, utf8Len_cons, utf8Len_append, utf8Len_nil, e1, e2]
    omega
  · omega

/-! ## Ethiopic -/

theorem eth_size {i g : Nat} {ms : Bool} (hg : g < 100) : ∀ c ∈ ethGroupText i g ms, c.utf8Size = 3 := by
  have key : ∀ g, g < 100 → ∀ c ∈ ethDigits g, c.utf8Size = 3 := by decide +kernel
  have k1 : Char.utf8Size ethHundred = 3 := by decide
  have k2 : Char.utf8Size ethMyriad = 3 := by decide
  intro c hc
  unfold ethGroupText at hc
  rcases List.mem_append.mp hc with hc | hc
  · split at hc
    · cases hc
    · exact key g hg c hc
  · split at hc <;> split at hc <;> simp only [List.mem_singleton, List.not_mem_nil] at hc <;> subst hc <;> assumption

theorem ethFrom_size (n : Nat) : ∀ i, ∀ c ∈ ethFrom i n, c.utf8Size = 3 := by
  induction n using Nat.strongRecOn with
  | _ n ih =>
    intro i c hc
    rw [ethFrom] at hc
    split at hc
    · cases hc
    · rcases List.mem_append.mp hc with hc | hc
      · exact ih (n / 100) (by omega) _ c hc
      · exact eth_size (by omega) c hc

theorem eth_group_length {i g : Nat} {ms : Bool} (hg : g < 100) :
    (ethGroupText i g ms).length ≤ (if i = 0 then 2 else 3) ∧ (g < 11 → (ethGroupText i g ms).length ≤ (if i = 0 then 1 else 2)) ∧
      (i % 2 = 1 → g = 1 → (ethGroupText i g ms).length = 1) := by
  have key : ∀ g, g < 100 → (ethDigits g).length ≤ 2 ∧ (g < 11 → (ethDigits g).length ≤ 1) := by decide +kernel
  obtain ⟨k1, k2⟩ := key g hg
  unfold ethGroupText
  refine ⟨?_, fun h => ?_, fun h1 h2 => ?_⟩
  · rw [List.length_append]
    split <;> split <;> split <;> (try split) <;> simp <;> omega
  · have := k2 h
    rw [List.length_append]
    split <;> split <;> split <;> (try split) <;> simp <;> omega
  · simp [h1, h2]

theorem ethFrom_step (i n : Nat) (hi : i ≠ 0) : (ethFrom i n).length ≤ (ethFrom (i + 1) (n / 100)).length + 3 ∧
    (n % 100 < 11 → (ethFrom i n).length ≤ (ethFrom (i + 1) (n / 100)).length + 2) := by
  obtain ⟨h1, h2, _⟩ := eth_group_length (i := i) (g := n % 100) (ms := decide (n / 100 = 0)) (by omega)
  rw [if_neg hi] at h1 h2
  rw [ethFrom]
  split
  · simp
  · rw [List.length_append]
    exact ⟨by omega, fun h => by have := h2 h; omega⟩

theorem ethFrom_step0 (n : Nat) : (ethFrom 0 n).length ≤ (ethFrom 1 (n / 100)).length + 2 ∧
    (n % 100 < 11 → (ethFrom 0 n).length ≤ (ethFrom 1 (n / 100)).length + 1) := by
  obtain ⟨h1, h2, _⟩ := eth_group_length (i := 0) (g := n % 100) (ms := decide (n / 100 = 0)) (by omega)
  rw [if_pos rfl] at h1 h2
  rw [ethFrom, Nat.zero_add]
  split
  · simp
  · rw [List.length_append]
    exact ⟨by omega, fun h => by have := h2 h; omega⟩

theorem ethFrom_zero (i : Nat) : ethFrom i 0 = [] := by rw [ethFrom, dif_pos rfl]

theorem ethiopic_short {n : Nat} (h : n < 111111111111111) : utf8Len (ethiopicText n) ≤ 62 := by
  by_cases h1 : n = 1
  · subst h1; decide
  rw [ethiopicText_eq h1, utf8Len_uniform (ethFrom_size n 0)]
  obtain ⟨a0, b0⟩ := ethFrom_step0 n
  obtain ⟨a1, b1⟩ := ethFrom_step 1 (n / 100) (by omega)
  obtain ⟨a2, b2⟩ := ethFrom_step 2 (n / 100 / 100) (by omega)
  obtain ⟨a3, b3⟩ := ethFrom_step 3 (n / 100 / 100 / 100) (by omega)
  obtain ⟨a4, b4⟩ := ethFrom_step 4 (n / 100 / 100 / 100 / 100) (by omega)
  obtain ⟨a5, b5⟩ := ethFrom_step 5 (n / 100 / 100 / 100 / 100 / 100) (by omega)
  obtain ⟨a6, b6⟩ := ethFrom_step 6 (n / 100 / 100 / 100 / 100 / 100 / 100) (by omega)
  simp only [Nat.reduceAdd] at a1 b1 a2 b2 a3 b3 a4 b4 a5 b5 a6 b6
  have h7 : (ethFrom 7 (n / 100 / 100 / 100 / 100 / 100 / 100 / 100)).length = n / 100 / 100 / 100 / 100 / 100 / 100 / 100 := by
    have : n / 100 / 100 / 100 / 100 / 100 / 100 / 100 = 0 ∨ n / 100 / 100 / 100 / 100 / 100 / 100 / 100 = 1 := by omega
    rcases this with e | e
    · rw [e, ethFrom_zero]; rfl
    · rw [e, ethFrom, dif_neg (by omega), show 1 / 100 = 0 by omega, ethFrom_zero]
      exact (eth_group_length (i := 7) (g := 1) (by omega)).2.2 (by omega) rfl
  omega

end Nominals
