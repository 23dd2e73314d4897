import Verif.Spec.Css
import Verif.Proofs.AdditiveNamed
import Verif.Proofs.DigitNamed
import Verif.Proofs.ChineseDigits

/-! # The loops of CSS Counter Styles -/

namespace Nominals

open Nominals.Spec

theorem numericLoop_eq {b : Nat} (hb : 2 ≤ b) (fuel v : Nat) (hf : v ≤ fuel) (s : List Nat) :
    numericLoop b fuel v s = (digs b v).reverse ++ s := by
  induction fuel generalizing v s with
  | zero =>
    have : v = 0 := by omega
    subst this
    simp [numericLoop, digs_zero]
  | succ fuel ih =>
    unfold numericLoop
    split
    · next h => subst h; simp [digs_zero]
    · next h =>
      have := Nat.div_lt_self (show 0 < v by omega) (show 1 < b by omega)
      rw [ih _ (by omega), digs_pos h hb, List.reverse_cons, List.append_assoc]
      rfl

theorem alphabeticLoop_eq {b : Nat} (hb : 1 ≤ b) (fuel v : Nat) (hf : v ≤ fuel) (s : List Nat) :
    alphabeticLoop b fuel v s = (bij b v).reverse ++ s := by
  induction fuel generalizing v s with
  | zero =>
    have : v = 0 := by omega
    subst this
    simp [alphabeticLoop, bij_zero]
  | succ fuel ih =>
    unfold alphabeticLoop
    split
    · next h => subst h; simp [bij_zero]
    · next h =>
      have := Nat.div_le_self (v - 1) b
      rw [ih _ (by omega), bij_pos h hb, List.reverse_cons, List.append_assoc]
      rfl

theorem represent_numeric {al : List Char} (hb : 2 ≤ al.length) {n : Nat} {ds : List Nat} (h : IsNumeral al.length n ds) :
    (CounterSystem.numeric al).represent n = some (spell al ds) := by
  rw [numeral_unique hb h (loop_numeral hb)]
  unfold CounterSystem.represent
  simp only
  split
  · next h0 => subst h0; simp [digs_zero, spell]
  · next h0 => rw [numericLoop_eq hb _ _ (Nat.le_refl _), List.append_nil, ← digs_pos h0 hb]

theorem represent_alphabetic {al : List Char} (hb : 1 ≤ al.length) (n : Nat) :
    (CounterSystem.alphabetic al).represent (n + 1) = some (spell al (column al.length n)) := by
  unfold CounterSystem.represent
  simp only
  rw [if_neg (by omega), alphabeticLoop_eq hb _ _ (Nat.le_refl _), List.append_nil, column_eq hb]

theorem additiveLoop_eq {table : List (List Char × Nat)} (hd : Descending table) (r : Nat) :
    additiveLoop table r = (written (picks table r), r - total (picks table r)) := by
  induction table generalizing r with
  | nil => simp [additiveLoop, picks, written, total]
  | cons p rest ih =>
    obtain ⟨sym, w⟩ := p
    have hd' := List.pairwise_cons.mp hd
    unfold additiveLoop picks
    by_cases hw : w = 0
    · subst hw
      have : rest = [] := List.eq_nil_iff_forall_not_mem.mpr fun q hq => absurd (hd'.1 q hq) (Nat.not_lt_zero _)
      subst this
      simp [additiveLoop, written, total]
    · by_cases hr : r < w
      · simp only [hw, hr, or_true, ↓reduceIte, Nat.div_eq_of_lt hr, Nat.mod_eq_of_lt hr, List.replicate_zero, List.nil_append]
        exact ih hd'.2 r
      · have e : r - w * (r / w) = r % w := by have := Nat.div_add_mod r w; omega
        simp only [hw, hr, or_self, ↓reduceIte, e, ih hd'.2, written_append, written_replicate, total_append]
        have ht : total (List.replicate (r / w) (sym, w)) = w * (r / w) := by
          simp [total, Nat.mul_comm]
        rw [ht]
        congr 1
        omega

theorem find_zero {table : List (List Char × Nat)} (hd : Descending table) :
    (table.find? (·.2 = 0)).map (·.1) = match table.getLast? with
      | some (z, 0) => some z
      | _ => none := by
  induction table with
  | nil => rfl
  | cons p rest ih =>
    obtain ⟨s, w⟩ := p
    have hd' := List.pairwise_cons.mp hd
    by_cases hw : w = 0
    · subst hw
      have : rest = [] := List.eq_nil_iff_forall_not_mem.mpr fun q hq => absurd (hd'.1 q hq) (Nat.not_lt_zero _)
      subst this
      rfl
    · rw [List.find?_cons_of_neg (by simpa using hw), ih hd'.2]
      cases rest with
      | nil => simp [hw]
      | cons q rest => rw [List.getLast?_cons_cons]

theorem represent_additive {table : List (List Char × Nat)} (hd : Descending table) {n : Nat} (h0 : n ≠ 0) :
    (CounterSystem.additive table).represent n = if total (picks table n) = n then some (written (picks table n)) else none := by
  unfold CounterSystem.represent
  simp only
  have := (greedy_le (picks_greedy hd n)).1
  rw [if_neg h0, additiveLoop_eq hd]
  by_cases h : total (picks table n) = n
  · rw [if_pos (show n - total (picks table n) = 0 by omega), if_pos h]
  · rw [if_neg (show ¬ n - total (picks table n) = 0 by omega), if_neg h]

/-- Symbols that are too large do not matter. -/
theorem picks_skip (a b : List (List Char × Nat)) (n : Nat) (ha : ∀ p ∈ a, n < p.2) : picks (a ++ b) n = picks b n := by
  induction a with
  | nil => rfl
  | cons p a ih =>
    have hp := ha p (by simp)
    have h0 : p.2 ≠ 0 := by omega
    simp only [List.cons_append, picks, h0, ↓reduceIte, Nat.div_eq_of_lt hp, Nat.mod_eq_of_lt hp, List.replicate_zero, List.nil_append]
    exact ih fun q hq => ha q (by simp [hq])

/-- A final symbol for zero does not matter. -/
theorem picks_zero (a : List (List Char × Nat)) (z : List Char) (n : Nat) : picks (a ++ [(z, 0)]) n = picks a n := by
  induction a generalizing n with
  | nil => simp [picks]
  | cons p a ih => simp only [List.cons_append, picks, ih]

/-! ## Chinese -/

theorem placesFrom_skip {n p : Nat} (h : n < 10 ^ p) (k : Nat) : placesFrom n (p + k) none = placesFrom n p none := by
  induction k with
  | zero => rfl
  | succ k ih =>
    rw [← Nat.add_assoc, placesFrom]
    have : n / 10 ^ (p + k) = 0 := Nat.div_eq_of_lt (Nat.lt_of_lt_of_le h (Nat.pow_le_pow_right (by omega) (by omega)))
    simp only [this, Nat.zero_mod, ↓reduceIte]
    exact ih

theorem groupsFrom_skip {unit span : Nat → Nat} {n : Nat} (h : n < 10000) (k : Nat) :
    groupsFrom unit span n (k + 1) false = groupsFrom unit span n 1 false := by
  induction k with
  | zero => rfl
  | succ k ih =>
    rw [groupsFrom]
    have : n / 10000 ^ (k + 1) = 0 :=
      Nat.div_eq_of_lt (Nat.lt_of_lt_of_le h (by have := Nat.pow_le_pow_right (show 10000 > 0 by omega) (show 1 ≤ k + 1 by omega); simpa using this))
    simp only [this, Nat.zero_mod, ↓reduceIte, or_true, List.nil_append]
    exact ih

theorem flat_small (scale : ChineseScale) {n : Nat} (h0 : n ≠ 0) (h : n < 10000) : flatTokens scale n = placesFrom n 4 none := by
  have hg : ∀ unit span, groupsFrom unit span n 1 false = placesFrom n 4 none := by
    intro unit span
    simp [groupsFrom, Nat.mod_eq_of_lt h, h0]
  cases scale
  · exact placesFrom_skip (p := 4) h 11
  · unfold flatTokens; exact (groupsFrom_skip h 9).trans (hg _ _)
  · unfold flatTokens; exact (groupsFrom_skip h 9).trans (hg _ _)
  · unfold flatTokens; exact (groupsFrom_skip h 15).trans (hg _ _)

theorem digits_small {n : Nat} (h0 : n ≠ 0) (h : n < 10000) :
    numericLoop 10 n n [] = [n / 1000, n / 100 % 10, n / 10 % 10, n % 10].dropWhile (· = 0) := by
  rw [numericLoop_eq (by omega) _ _ (Nat.le_refl _), List.append_nil, digs_pos h0 (by omega)]
  by_cases h1 : n / 10 = 0
  · have e : n / 100 % 10 = 0 ∧ n / 10 % 10 = 0 ∧ n / 1000 = 0 ∧ n % 10 ≠ 0 := by omega
    simp [h1, digs_zero, e]
  · rw [digs_pos h1 (by omega), Nat.div_div_eq_div_mul]
    by_cases h2 : n / 100 = 0
    · have e : n / 10 % 10 ≠ 0 ∧ n / 1000 = 0 := by omega
      simp [h2, digs_zero, e]
    · rw [digs_pos h2 (by omega), Nat.div_div_eq_div_mul]
      by_cases h3 : n / 1000 = 0
      · have e : n / 100 % 10 ≠ 0 := by omega
        simp [h3, digs_zero, e]
      · rw [digs_pos h3 (by omega), Nat.div_div_eq_div_mul]
        have e : n / 1000 % 10 = n / 1000 ∧ n / 10000 = 0 := by omega
        simp [h3, digs_zero, e]

/-- The token of a piece. -/
def pieceToken : LonghandPiece → CTok
  | .digit d => if d = 0 then .zero else .num d
  | .marker 1 => .ten
  | .marker 2 => .hundred
  | .marker _ => .thousand

theorem longhand_places (a b c d n : Nat) (h3 : n / 10 ^ 3 % 10 = a) (h2 : n / 10 ^ 2 % 10 = b) (h1 : n / 10 ^ 1 % 10 = c)
    (h0 : n / 10 ^ 0 % 10 = d) (hn : a ≠ 0 ∨ b ≠ 0 ∨ c ≠ 0 ∨ d ≠ 0) :
    (collapseZeros (dropTrailingZeros (longhandMarked ([a, b, c, d].dropWhile (· = 0))))).map pieceToken = placesFrom n 4 none := by
  simp only [placesFrom, h3, h2, h1, h0]
  clear h3 h2 h1 h0
  by_cases ha : a = 0 <;> by_cases hb : b = 0 <;> by_cases hc : c = 0 <;> by_cases hd : d = 0 <;>
    simp_all [longhandMarked, dropTrailingZeros, collapseZeros, pieceToken, placeUnit]

theorem longhand_tens (a b c d n : Nat) (h3 : n / 10 ^ 3 % 10 = a) (h2 : n / 10 ^ 2 % 10 = b) (h1 : n / 10 ^ 1 % 10 = c)
    (h0 : n / 10 ^ 0 % 10 = d) (hn : a ≠ 0 ∨ b ≠ 0 ∨ c ≠ 0 ∨ d ≠ 0) :
    (collapseZeros (dropTrailingZeros (if a = 0 ∧ b = 0 ∧ c = 1 then (longhandMarked ([a, b, c, d].dropWhile (· = 0))).drop 1
      else longhandMarked ([a, b, c, d].dropWhile (· = 0))))).map pieceToken = dropLeadingOne (placesFrom n 4 none) := by
  simp only [placesFrom, h3, h2, h1, h0]
  clear h3 h2 h1 h0
  by_cases ha : a = 0 <;> by_cases hb : b = 0 <;> by_cases hc : c = 0 <;> by_cases hd : d = 0 <;> by_cases hc1 : c = 1 <;>
    simp_all [longhandMarked, dropTrailingZeros, collapseZeros, pieceToken, placeUnit, dropLeadingOne]

/-- The pieces that occur: digits and the markers of the three places. -/
def goodPiece : LonghandPiece → Prop
  | .digit d => d < 10
  | .marker p => 1 ≤ p ∧ p ≤ 3

theorem piece_glyph (tr fin : Bool) : ∀ p, goodPiece p →
    pieceChar (chineseDigits tr fin) (chineseMarkers fin) p = chineseGlyph tr fin (pieceToken p) := by
  intro p hp
  cases p with
  | digit d =>
    have : ∀ tr fin d, d < 10 → (chineseDigits tr fin).getD d '?' = chineseGlyph tr fin (if d = 0 then .zero else .num d) := by decide
    exact this tr fin d hp
  | marker p =>
    have : ∀ tr fin p, p < 4 → 1 ≤ p → (chineseMarkers fin).getD (p - 1) '?' = chineseGlyph tr fin (pieceToken (.marker p)) := by decide
    exact this tr fin p (by have := hp.2; omega) hp.1

theorem marked_good : ∀ (ds : List Nat), (∀ d ∈ ds, d < 10) → ds.length ≤ 4 → ∀ p ∈ longhandMarked ds, goodPiece p
  | [], _, _ => by simp [longhandMarked]
  | d :: ds, h, hl => by
    intro p hp
    rw [longhandMarked] at hp
    rcases List.mem_cons.mp hp with rfl | hp
    · exact h d (by simp)
    · rcases List.mem_append.mp hp with hp | hp
      · split at hp
        · cases hp
        · next hne =>
          have hne' : ds ≠ [] := fun e => hne (.inr e)
          have := List.length_pos_iff.mpr hne'
          rw [List.mem_singleton.mp hp]
          rw [List.length_cons] at hl
          exact ⟨by omega, by omega⟩
      · exact marked_good ds (fun d hd => h d (by simp [hd])) (by rw [List.length_cons] at hl; omega) p hp

theorem mem_collapse : ∀ (ps : List LonghandPiece), ∀ p ∈ collapseZeros ps, p ∈ ps := by
  intro ps
  fun_induction collapseZeros ps with
  | case1 ps ih => intro p hp; have := ih p hp; simp_all
  | case2 p ps _ ih =>
    intro q hq
    rcases List.mem_cons.mp hq with rfl | hq
    · simp
    · exact List.mem_cons_of_mem _ (ih q hq)
  | case3 => intro p hp; cases hp

theorem mem_dropTrailing (ps : List LonghandPiece) : ∀ p ∈ dropTrailingZeros ps, p ∈ ps := by
  intro p hp
  rw [dropTrailingZeros, List.mem_reverse] at hp
  exact List.mem_reverse.mp ((List.dropWhile_sublist _).subset hp)

theorem longhand_eq (informal tr fin : Bool) {n : Nat} (h : n < 10000) (scale : ChineseScale) (hs : n ≠ 0 →
    chineseTokens (!informal) scale n = if informal then dropLeadingOne (flatTokens scale n) else flatTokens scale n) :
    longhand informal (chineseDigits tr fin) (chineseMarkers fin) n = (chineseTokens (!informal) scale n).map (chineseGlyph tr fin) := by
  unfold longhand
  by_cases h0 : n = 0
  · subst h0
    rw [if_pos rfl]
    cases tr <;> cases fin <;> rfl
  · rw [if_neg h0, digits_small h0 h, hs h0, flat_small scale h0 h]
    have hgood : ∀ p ∈ longhandMarked ([n / 1000, n / 100 % 10, n / 10 % 10, n % 10].dropWhile (· = 0)), goodPiece p := by
      apply marked_good
      · intro d hd
        have := (List.dropWhile_sublist _).subset hd
        simp only [List.mem_cons, List.not_mem_nil, or_false] at this
        omega
      · exact (List.dropWhile_sublist _).length_le
    have hd : n / 10 ^ 3 % 10 = n / 1000 ∧ n / 10 ^ 0 % 10 = n % 10 ∧ n / 10 ^ 1 % 10 = n / 10 % 10 ∧ n / 10 ^ 2 % 10 = n / 100 % 10 := by omega
    have hn : n / 1000 ≠ 0 ∨ n / 100 % 10 ≠ 0 ∨ n / 10 % 10 ≠ 0 ∨ n % 10 ≠ 0 := by omega
    have key : ∀ ps : List LonghandPiece, (∀ p ∈ ps, goodPiece p) → (collapseZeros (dropTrailingZeros ps)).map (pieceChar (chineseDigits tr fin) (chineseMarkers fin)) =
        ((collapseZeros (dropTrailingZeros ps)).map pieceToken).map (chineseGlyph tr fin) := by
      intro ps hp
      rw [List.map_map]
      exact List.map_congr_left fun p hm => piece_glyph tr fin p (hp p (mem_dropTrailing _ p (mem_collapse _ p hm)))
    simp only
    cases informal with
    | false =>
      simp only [Bool.false_eq_true, false_and, ↓reduceIte]
      rw [key _ hgood, longhand_places _ _ _ _ n hd.1 hd.2.2.2 hd.2.2.1 hd.2.1 hn]
    | true =>
      have hc : (10 ≤ n ∧ n ≤ 19) ↔ (n / 1000 = 0 ∧ n / 100 % 10 = 0 ∧ n / 10 % 10 = 1) := by omega
      simp only [true_and, ↓reduceIte, hc]
      rw [key, longhand_tens _ _ _ _ n hd.1 hd.2.2.2 hd.2.2.1 hd.2.1 hn]
      intro p hp
      split at hp
      · exact hgood p ((List.drop_sublist _ _).subset hp)
      · exact hgood p hp

end Nominals
