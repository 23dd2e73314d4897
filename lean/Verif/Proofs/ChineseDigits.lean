import Verif.Spec.ChineseDigits
import Verif.Proofs.ChineseRead
import Verif.Proofs.ChineseScaled
import Verif.Props.Scales

/-! # Chinese: the numeral from the digits -/

namespace Nominals

open Nominals.Spec

/-! ## Places -/

theorem places_mod {n w : Nat} : ∀ (p : Nat) (prev : Option Nat), p ≤ w → placesFrom n p prev = placesFrom (n % 10 ^ w) p prev := by
  intro p
  induction p with
  | zero => intros; rfl
  | succ p ih =>
    intro prev h
    have e : n % 10 ^ w / 10 ^ p % 10 = n / 10 ^ p % 10 := by
      obtain ⟨k, rfl⟩ : ∃ k, w = p + (k + 1) := ⟨w - p - 1, by omega⟩
      rw [Nat.pow_add, Nat.mod_mul_right_div_self, Nat.mod_mod_of_dvd _ (by rw [Nat.pow_succ]; exact Nat.dvd_mul_left _ _)]
    simp only [placesFrom, e]
    rw [← ih _ (by omega), ← ih _ (by omega)]

theorem places_prev {p q n : Nat} (h : p ≤ q) (hn : n < 10 ^ p) :
    placesFrom n p (some q) = (if n ≠ 0 ∧ 10 * n < 10 ^ q then [CTok.zero] else []) ++ placesFrom n p none := by
  induction p with
  | zero =>
    have : n = 0 := by simpa using hn
    simp [this, placesFrom]
  | succ p ih =>
    have h1 : 10 ^ (p + 1) = 10 ^ p * 10 := Nat.pow_succ ..
    have hp : 0 < 10 ^ p := Nat.pow_pos (by omega)
    by_cases h2 : n < 10 ^ p
    · have e : n / 10 ^ p % 10 = 0 := by rw [Nat.div_eq_of_lt h2]
      simp only [placesFrom, e, if_pos]
      exact ih (by omega) h2
    · have h3 : n / 10 ^ p < 10 := (Nat.div_lt_iff_lt_mul hp).mpr (by omega)
      have h4 : 0 < n / 10 ^ p := Nat.div_pos (by omega) hp
      have e : ¬ n / 10 ^ p % 10 = 0 := by omega
      simp only [placesFrom, e, if_false]
      have h5 : (n ≠ 0 ∧ 10 * n < 10 ^ q) ↔ ¬ (q = p + 1) := by
        constructor
        · rintro ⟨-, h6⟩ rfl; omega
        · intro h6
          have h7 : 10 ^ (p + 1 + 1) ≤ 10 ^ q := Nat.pow_le_pow_right (by omega) (by omega)
          rw [Nat.pow_succ] at h7
          omega
      by_cases h6 : q = p + 1
      · simp [h6, h1]; omega
      · simp [h5, h6]

/-- The units of the places below `p`. -/
def placeUnits : Nat → Units
  | 0 => []
  | p + 1 => (placeUnit p).map (fun u => (10 ^ p, u)) ++ placeUnits p

theorem placeUnits_ge : ∀ p, ∀ q ∈ placeUnits p, 10 ≤ q.1 := by
  intro p
  induction p with
  | zero => simp [placeUnits]
  | succ p ih =>
    intro q hq
    rw [placeUnits, List.mem_append] at hq
    rcases hq with hq | hq
    · match p, hq with
      | 0, hq => simp [placeUnit] at hq
      | p + 1, hq =>
        rw [List.mem_map] at hq
        obtain ⟨u, _, rfl⟩ := hq
        show 10 ≤ 10 ^ (p + 1)
        have : 0 < 10 ^ p := Nat.pow_pos (by omega)
        rw [Nat.pow_succ]; omega
    · exact ih q hq

theorem placeUnit_one {p : Nat} (h : p ≠ 0) : ∃ u, placeUnit p = [u] := by
  match p, h with
  | 0, h => exact absurd rfl h
  | 1, _ | 2, _ | 3, _ | p + 4, _ => exact ⟨_, rfl⟩

theorem spell_places {z : Nat → Nat → Bool} (P : Nat) (hz : ∀ p lo, p < P → z (10 ^ p) lo = decide (lo ≠ 0 ∧ 10 * lo < 10 ^ p)) :
    ∀ p, 1 ≤ p → p ≤ P → ∀ n, n < 10 ^ p → spellWith z (placeUnits p) n = placesFrom n p none := by
  have base : 1 ≤ P → ∀ n, n < 10 ^ 1 → spellWith z (placeUnits 1) n = placesFrom n 1 none := by
    intro _ n hn
    have hn : n < 10 := by simpa using hn
    have e : n / 10 ^ 0 % 10 = n := by simp; omega
    simp only [placeUnits, placeUnit, List.map_nil, List.nil_append, placesFrom, e]
    rw [spellWith]
    split <;> simp
  intro p
  induction p with
  | zero => omega
  | succ p ih =>
    intro _ hP
    by_cases h1 : p = 0
    · subst h1; exact base hP
    intro n hn
    have ih := ih (by omega) (by omega)
    have e1 : 10 ^ (p + 1) = 10 ^ p * 10 := Nat.pow_succ ..
    have hp : 0 < 10 ^ p := Nat.pow_pos (by omega)
    obtain ⟨u, hu⟩ := placeUnit_one (p := p) (by omega)
    simp only [placeUnits, hu, List.map_cons, List.map_nil, List.cons_append, List.nil_append, placesFrom]
    rw [spellWith]
    by_cases h2 : n < 10 ^ p
    · rw [if_pos h2, ih n h2, if_pos (by rw [Nat.div_eq_of_lt h2])]
    · have h3 : n / 10 ^ p < 10 := (Nat.div_lt_iff_lt_mul hp).mpr (by omega)
      have h4 : 0 < n / 10 ^ p := Nat.div_pos (by omega) hp
      have h5 : n / 10 ^ p % 10 = n / 10 ^ p := by omega
      have h6 : ¬ n / 10 ^ p = 0 := by omega
      rw [if_neg h2, spell_digit z _ (placeUnits_ge p) h3, h5, if_neg h6, if_neg h6, hz p _ (by omega),
        ih _ (Nat.mod_lt _ hp), places_mod (w := p) p (some p) (Nat.le_refl _), places_prev (Nat.le_refl _) (Nat.mod_lt _ hp)]
      simp

theorem short_flat {n : Nat} (h : n < 10 ^ 15) : spellWith (needsZero .short) (scaleUnits .short) n = placesFrom n 15 none := by
  have : scaleUnits .short = placeUnits 15 := by decide +kernel
  rw [this]
  exact spell_places 15 (by intro p lo _; rfl) 15 (by omega) (by omega) n h

theorem section_flat {z : Nat → Nat → Bool} (hz : SectionRule z) {n : Nat} (h : n < 10000) :
    spellWith z sectionUnits n = placesFrom n 4 none := by
  have : sectionUnits = placeUnits 4 := by decide +kernel
  rw [this]
  refine spell_places 4 (fun p lo hp => hz _ _ ?_) 4 (by omega) (by omega) n h
  have : 10 ^ p ≤ 10 ^ 3 := Nat.pow_le_pow_right (by omega) (by omega)
  omega

/-! ## Groups -/

theorem mod_group {n w j m : Nat} (h : j + m ≤ w) : n % 10000 ^ w / 10000 ^ j % 10000 ^ m = n / 10000 ^ j % 10000 ^ m := by
  obtain ⟨k, rfl⟩ : ∃ k, w = j + (m + k) := ⟨w - j - m, by omega⟩
  rw [Nat.pow_add, Nat.mod_mul_right_div_self, Nat.mod_mod_of_dvd _ (by rw [Nat.pow_add]; exact Nat.dvd_mul_right _ _)]

theorem groups_mod {u sp : Nat → Nat} {n w : Nat} (hsp : ∀ j, j < w → 1 ≤ j → j + sp j ≤ w) : ∀ (j : Nat) (s : Bool), j ≤ w →
    groupsFrom u sp n j s = groupsFrom u sp (n % 10000 ^ w) j s := by
  intro j
  induction j with
  | zero => intros; rfl
  | succ j ih =>
    intro s h
    have e1 : n % 10000 ^ w / 10000 ^ j % 10000 = n / 10000 ^ j % 10000 := by
      have := mod_group (n := n) (w := w) (j := j) (m := 1) (by omega)
      simpa using this
    have e2 : (j = 0 ∨ n % 10000 ^ w / 10000 ^ j % 10000 ^ sp j = 0) ↔ (j = 0 ∨ n / 10000 ^ j % 10000 ^ sp j = 0) := by
      by_cases h0 : j = 0
      · simp [h0]
      · rw [mod_group (hsp j (by omega) (by omega))]
    simp only [groupsFrom, e1, e2]
    rw [← ih _ (by omega)]

theorem groups_zero {u sp : Nat → Nat} : ∀ (j : Nat) (s : Bool), groupsFrom u sp 0 j s = [] := by
  intro j
  induction j with
  | zero => intros; rfl
  | succ j ih => intro s; simp [groupsFrom, ih]

/-- Leading groups that are zero write nothing. -/
theorem groups_drop {u sp : Nat → Nat} {n m : Nat} (hn : n < 10000 ^ m) (s : Bool) : ∀ w, m ≤ w → groupsFrom u sp n w s = groupsFrom u sp n m s := by
  intro w
  induction w with
  | zero => intro h; rw [show m = 0 by omega]
  | succ w ih =>
    intro h
    by_cases h1 : m = w + 1
    · rw [h1]
    · have h2 : n < 10000 ^ w := Nat.lt_of_lt_of_le hn (Nat.pow_le_pow_right (by omega) (by omega))
      rw [← ih (by omega)]
      simp [groupsFrom, Nat.div_eq_of_lt h2]

/-- The rule for 零 after a unit. -/
theorem groups_started {u sp : Nat → Nat} : ∀ (w n : Nat), n < 10000 ^ w → n ≠ 0 →
    groupsFrom u sp n w true = gapTok n ++ groupsFrom u sp n w false := by
  intro w
  induction w with
  | zero => intro n hn h0; simp at hn; omega
  | succ w ih =>
    intro n hn h0
    by_cases h2 : n < 10000 ^ w
    · have e : n / 10000 ^ w = 0 := Nat.div_eq_of_lt h2
      simp only [groupsFrom, e]
      simp only [Nat.zero_mod, or_true, if_true, List.nil_append, bne_self_eq_false, Bool.or_false]
      exact ih n h2 h0
    · have hp : 0 < 10000 ^ w := Nat.pow_pos (by omega)
      have h3 : n / 10000 ^ w < 10000 := (Nat.div_lt_iff_lt_mul hp).mpr (by rw [Nat.pow_succ] at hn; omega)
      have h4 : 0 < n / 10000 ^ w := Nat.div_pos (by omega) hp
      have h5 : n / 10000 ^ w % 10000 = n / 10000 ^ w := Nat.mod_eq_of_lt h3
      have h6 : ¬ n / 10000 ^ w = 0 := by omega
      have e10 : 10000 ^ w = 10 ^ (4 * w) := by rw [Nat.pow_mul]
      have h7 : gapTok n = if n / 10000 ^ w < 1000 then [CTok.zero] else [] := by
        unfold gapTok
        rw [topPlace_pow (k := 4 * w) (by omega), ← e10]
        have h8 := topPlace_group h3
        by_cases h9 : n / 10000 ^ w < 1000
        · rw [if_pos h9, if_neg (by omega)]
        · rw [if_neg h9, if_pos (by omega)]
      rw [h7]
      simp only [groupsFrom, h5, h6, if_false]
      have h10 : (n / 10000 ^ w != 0) = true := by simpa using h6
      simp [h10]

/-- Splitting at a position `w` whose unit spans everything above it. -/
theorem groups_split {u sp : Nat → Nat} {n w k : Nat} (hw : 1 ≤ w) : ∀ m, 1 ≤ m →
    (∀ j, j < m → 1 ≤ j → u (w + j) = u j ∧ sp (w + j) = sp j) → u w = k → ∀ s,
    groupsFrom u sp n (w + m) s = groupsFrom u sp (n / 10000 ^ w) m s ++
      ((if n / 10000 ^ w % 10000 ^ sp w = 0 then [] else [CTok.large k]) ++
      groupsFrom u sp n w (s || (n / 10000 ^ w % 10000 ^ m != 0))) := by
  intro m
  induction m with
  | zero => omega
  | succ m ih =>
    intro _ hj hk s
    by_cases h0 : m = 0
    · subst h0
      have hw0 : ¬ w = 0 := by omega
      simp [groupsFrom, hk, hw0]
    · have ih := ih (by omega) (fun j h1 h2 => hj j (by omega) h2) hk
      obtain ⟨e1, e2⟩ := hj m (by omega) (by omega)
      have e3 : n / 10000 ^ (w + m) = n / 10000 ^ w / 10000 ^ m := by rw [Nat.pow_add, Nat.div_div_eq_div_mul]
      have e4 : ¬ w + m = 0 := by omega
      rw [← Nat.add_assoc, groupsFrom, groupsFrom, e1, e2, e3, ih]
      simp only [e4, h0, false_or, List.append_assoc]
      generalize n / 10000 ^ w = h
      have e5 : ((s || h / 10000 ^ m % 10000 != 0) || h % 10000 ^ m != 0) = (s || h % 10000 ^ (m + 1) != 0) := by
        rw [Bool.or_assoc]
        congr 1
        have e6 : h % 10000 ^ (m + 1) = h % 10000 ^ m + 10000 ^ m * (h / 10000 ^ m % 10000) := by
          rw [Nat.pow_succ, Nat.mod_mul]
        rw [e6]
        have hp : 0 < 10000 ^ m := Nat.pow_pos (by omega)
        by_cases h1 : h / 10000 ^ m % 10000 = 0
        · simp [h1]
        · have : 0 < 10000 ^ m * (h / 10000 ^ m % 10000) := Nat.mul_pos hp (by omega)
          have h2 : (h / 10000 ^ m % 10000 != 0) = true := by simpa using h1
          rw [h2, Bool.true_or]
          symm
          simp only [bne_iff_ne]
          omega
      rw [e5]

/-- What the three grouped scales have in common: `w k` groups lie below the unit `k`. -/
structure GroupShape (e w u sp : Nat → Nat) (K : Nat) : Prop where
  exp : ∀ k, k ≤ K → e k = 4 * w k
  first : w 0 = 1
  mono : ∀ k, k < K → w k < w (k + 1) ∧ w (k + 1) ≤ 2 * w k
  unit : ∀ k, k < K → u (w k) = k ∧ sp (w k) = w (k + 1) - w k
  shift : ∀ k, k < K → ∀ j, j < w (k + 1) - w k → 1 ≤ j → u (w k + j) = u j ∧ sp (w k + j) = sp j
  inside : ∀ k, k < K → ∀ j, j < w k → 1 ≤ j → j + sp j ≤ w k

theorem groups_flat {z : Nat → Nat → Bool} (hz : GroupRule z) {e w u sp : Nat → Nat} {K : Nat} (hs : GroupShape e w u sp K) :
    ∀ k, k ≤ K → ∀ n, n < 10000 ^ w k → spellWith z (unitsOf e k) n = groupsFrom u sp n (w k) false := by
  intro k
  induction k with
  | zero =>
    intro _ n hn
    rw [hs.first] at hn ⊢
    have hn : n < 10000 := by simpa using hn
    rw [unitsOf, section_flat hz.sec hn]
    by_cases h0 : n = 0
    · subst h0
      simp [groupsFrom, placesFrom]
    · simp [groupsFrom, Nat.mod_eq_of_lt hn, h0]
  | succ k ih =>
    intro hk n hn
    have ih := ih (by omega)
    obtain ⟨m1, m2⟩ := hs.mono k (by omega)
    obtain ⟨u1, u2⟩ := hs.unit k (by omega)
    have hw : 1 ≤ w k := by
      clear ih hn m1 m2 u1 u2
      induction k with
      | zero => rw [hs.first]; omega
      | succ k ih => have := hs.mono k (by omega); omega
    have e1 : 10 ^ e k = 10000 ^ w k := by rw [hs.exp k (by omega), Nat.pow_mul]
    rw [unitsOf, spellWith, e1]
    by_cases h2 : n < 10000 ^ w k
    · rw [if_pos h2, ih n h2, groups_drop h2 false (w (k + 1)) (by omega)]
    · have hp : 0 < 10000 ^ w k := Nat.pow_pos (by omega)
      obtain ⟨m, hm⟩ : ∃ m, w (k + 1) = w k + m := ⟨w (k + 1) - w k, by omega⟩
      have hm' : w (k + 1) - w k = m := by omega
      have hhi : n / 10000 ^ w k < 10000 ^ m := by
        rw [Nat.div_lt_iff_lt_mul hp, ← Nat.pow_add, Nat.add_comm, ← hm]; exact hn
      have hhi' : n / 10000 ^ w k < 10000 ^ w k := Nat.lt_of_lt_of_le hhi (Nat.pow_le_pow_right (by omega) (by omega))
      have h0 : ¬ n / 10000 ^ w k = 0 := by have := Nat.div_pos (Nat.le_of_not_lt h2) hp; omega
      have h1 : (n / 10000 ^ w k != 0) = true := by simpa using h0
      rw [if_neg h2, ih _ hhi', ih _ (Nat.mod_lt _ hp), hm,
        groups_split hw m (by omega) (by rw [← hm']; exact hs.shift k (by omega)) u1, u2, hm', Nat.mod_eq_of_lt hhi, if_neg h0, h1,
        groups_drop hhi false (w k) (by omega), groups_mod (n := n) (hs.inside k (by omega)) (w k) _ (Nat.le_refl _)]
      by_cases h3 : n % 10000 ^ w k = 0
      · rw [h3, hz.zero, groups_zero, groups_zero]
        rfl
      · have h4 : 1000 < 10000 ^ w k := by
          have : 10000 ^ 1 ≤ 10000 ^ w k := Nat.pow_le_pow_right (by omega) hw
          omega
        rw [hz.large _ _ h4 h3, Bool.or_true, groups_started _ _ (Nat.mod_lt _ hp) h3]
        simp

theorem myriad_shape : GroupShape (fun i => 4 * (i + 1)) (fun k => k + 1) (fun j => j - 1) (fun _ => 1) 9 :=
  ⟨fun _ _ => rfl, rfl, by intro k _; constructor <;> omega, by intro k _; simp, by intro k _ j h1 h2; omega,
    by intro k _ j h1 h2; omega⟩

theorem mid_shape : GroupShape (fun i => if i = 0 then 4 else 8 * i) (fun k => if k = 0 then 1 else 2 * k)
    (fun j => if j % 2 = 1 then 0 else j / 2) (fun j => if j % 2 = 1 then 1 else 2) 5 :=
  ⟨by decide, rfl, by decide, by decide, by decide, by decide⟩

theorem long_shape : GroupShape (fun i => 4 * 2 ^ i) (fun k => 2 ^ k) twos (fun j => 2 ^ twos j) 4 :=
  ⟨by decide, rfl, by decide, by decide, by decide, by decide⟩

/-- Both descriptions of the numerals agree. -/
theorem spell_flat {scale : ChineseScale} {n : Nat} (h : inRange scale n) :
    spellWith (needsZero scale) (scaleUnits scale) n = flatTokens scale n := by
  obtain ⟨h1, h2⟩ := h
  cases scale with
  | short => exact short_flat (h2 rfl)
  | myriad => exact groups_flat (groupRule (by decide)) myriad_shape 9 (Nat.le_refl _) n (Nat.lt_trans h1 (by decide))
  | mid => exact groups_flat (groupRule (by decide)) mid_shape 5 (Nat.le_refl _) n (Nat.lt_trans h1 (by decide))
  | long => exact groups_flat (groupRule (by decide)) long_shape 4 (Nat.le_refl _) n (Nat.lt_trans h1 (by decide))

/-! ## Digits -/

/-- The decimal digits of `n` that are not zero. -/
def nonzeroDigits (n : Nat) : List Nat := ((Nat.toDigits 10 n).filter (· ≠ '0')).map fun c => c.toNat - '0'.toNat

theorem digitChar_small : ∀ d, d < 10 → ((Nat.digitChar d ≠ '0') ↔ d ≠ 0) ∧ (Nat.digitChar d).toNat - '0'.toNat = d := by decide

theorem nonzero_small {d : Nat} (h : d < 10) : nonzeroDigits d = if d = 0 then [] else [d] := by
  unfold nonzeroDigits
  obtain ⟨h1, h2⟩ := digitChar_small d h
  rw [Nat.toDigits_eq_if (by omega), if_pos h]
  by_cases h0 : d = 0
  · subst h0; decide
  · have : decide (Nat.digitChar d ≠ '0') = true := by simpa using h1.mpr h0
    rw [if_neg h0, List.filter_cons, this, if_pos rfl]
    simp only [List.filter_nil, List.map_cons, List.map_nil, h2]

theorem nonzero_step (n : Nat) : nonzeroDigits n = nonzeroDigits (n / 10) ++ nonzeroDigits (n % 10) := by
  by_cases h : n < 10
  · rw [Nat.div_eq_of_lt h, Nat.mod_eq_of_lt h, nonzero_small (d := 0) (by omega)]; rfl
  · have h1 : n % 10 < 10 := Nat.mod_lt _ (by omega)
    conv => lhs; unfold nonzeroDigits
    rw [Nat.toDigits_eq_if (by omega), if_neg h, List.filter_append, List.map_append]
    congr 1
    unfold nonzeroDigits
    rw [Nat.toDigits_eq_if (by omega), if_pos h1]

theorem nonzero_split (e n : Nat) : nonzeroDigits n = nonzeroDigits (n / 10 ^ e) ++ nonzeroDigits (n % 10 ^ e) := by
  induction e generalizing n with
  | zero => rw [Nat.pow_zero, Nat.div_one, Nat.mod_one, nonzero_small (d := 0) (by omega)]; simp
  | succ e ih =>
    rw [nonzero_step n, ih (n / 10), nonzero_step (n % 10 ^ (e + 1)), Nat.pow_succ, Nat.mul_comm (10 ^ e) 10,
      Nat.mod_mul_right_div_self, Nat.mod_mod_of_dvd _ (Nat.dvd_mul_right ..), Nat.div_div_eq_div_mul, List.append_assoc]

/-- The digit of a token. -/
def tokDigit : CTok → Option Nat
  | .num d => some d
  | _ => none

theorem spell_digits {z : Nat → Nat → Bool} : ∀ (units : Units), (∀ p ∈ units, (∃ e, p.1 = 10 ^ e) ∧ tokDigit p.2 = none) → ∀ n,
    (∀ t ∈ spellWith z units n, t.Valid) → (spellWith z units n).filterMap tokDigit = nonzeroDigits n := by
  intro units
  induction units with
  | nil =>
    intro _ n hv
    rw [spellWith] at hv ⊢
    by_cases h0 : n = 0
    · subst h0; rw [nonzero_small (by omega)]; rfl
    · rw [if_neg h0] at hv ⊢
      have : CTok.Valid (.num n) := hv _ (by simp)
      rw [nonzero_small this.2, if_neg h0]
      rfl
  | cons p rest ih =>
    intro hp n hv
    obtain ⟨s, u⟩ := p
    obtain ⟨⟨e, he⟩, hu⟩ := hp (s, u) (by simp)
    simp only at he hu
    have ih := ih fun q hq => hp q (by simp [hq])
    rw [spellWith] at hv ⊢
    split at hv
    · next h => rw [if_pos h]; exact ih n hv
    · next h =>
      rw [if_neg h, List.filterMap_append, List.filterMap_cons, hu]
      simp only
      rw [List.filterMap_append, ih _ fun t ht => hv t (by simp [ht]), ih _ fun t ht => hv t (by simp [ht]), he, nonzero_split e n]
      congr 1
      split <;> rfl

theorem units_digits (scale : ChineseScale) : ∀ p ∈ scaleUnits scale, (∃ e, p.1 = 10 ^ e) ∧ tokDigit p.2 = none := by
  have key : ∀ e k, ∀ p ∈ unitsOf e k, (∃ e, p.1 = 10 ^ e) ∧ tokDigit p.2 = none := by
    intro e k
    induction k with
    | zero =>
      intro p hp
      simp only [unitsOf, sectionUnits, List.mem_cons, List.not_mem_nil, or_false] at hp
      rcases hp with rfl | rfl | rfl
      · exact ⟨⟨3, rfl⟩, rfl⟩
      · exact ⟨⟨2, rfl⟩, rfl⟩
      · exact ⟨⟨1, rfl⟩, rfl⟩
    | succ k ih =>
      intro p hp
      rw [unitsOf, List.mem_cons] at hp
      rcases hp with rfl | hp
      · exact ⟨⟨_, rfl⟩, rfl⟩
      · exact ih p hp
  cases scale <;> exact key _ _

/-! ## The start of a numeral -/

theorem places_head {n : Nat} (h0 : n ≠ 0) : ∀ p, n < 10 ^ p →
    ∃ q r, 10 ^ q ≤ n ∧ n / 10 ^ q < 10 ∧ placesFrom n p none = .num (n / 10 ^ q) :: (placeUnit q ++ r) ∧ (q = 0 → r = []) := by
  intro p
  induction p with
  | zero => intro hn; simp at hn; omega
  | succ p ih =>
    intro hn
    have hp : 0 < 10 ^ p := Nat.pow_pos (by omega)
    by_cases h : n < 10 ^ p
    · obtain ⟨q, r, h1, h2, h3, h4⟩ := ih h
      exact ⟨q, r, h1, h2, by rw [← h3]; simp [placesFrom, Nat.div_eq_of_lt h], h4⟩
    · have h3 : n / 10 ^ p < 10 := (Nat.div_lt_iff_lt_mul hp).mpr (by rw [Nat.pow_succ] at hn; omega)
      have h4 : 0 < n / 10 ^ p := Nat.div_pos (by omega) hp
      have h5 : n / 10 ^ p % 10 = n / 10 ^ p := by omega
      have h6 : ¬ n / 10 ^ p = 0 := by omega
      refine ⟨p, placesFrom n p (some p), by omega, h3, ?_, ?_⟩
      · simp only [placesFrom, h5, h6, if_false, true_or, if_true, List.nil_append, List.cons_append]
      · rintro rfl; rfl

theorem groups_head {u sp : Nat → Nat} (hsp : ∀ j, 1 ≤ sp j) : ∀ (w n : Nat), n < 10000 ^ w → n ≠ 0 →
    ∃ j r, 10000 ^ j ≤ n ∧ n / 10000 ^ j < 10000 ∧ groupsFrom u sp n w false = placesFrom (n / 10000 ^ j) 4 none ++ r ∧
      (r = [] ∨ ∃ i r', r = .large i :: r') := by
  intro w
  induction w with
  | zero => intro n hn h0; simp at hn; omega
  | succ w ih =>
    intro n hn h0
    by_cases h2 : n < 10000 ^ w
    · obtain ⟨j, r, h3, h4, h5, h6⟩ := ih n h2 h0
      exact ⟨j, r, h3, h4, by rw [groups_drop h2 false (w + 1) (by omega), h5], h6⟩
    · have hp : 0 < 10000 ^ w := Nat.pow_pos (by omega)
      have h3 : n / 10000 ^ w < 10000 := (Nat.div_lt_iff_lt_mul hp).mpr (by rw [Nat.pow_succ] at hn; omega)
      have h4 : 0 < n / 10000 ^ w := Nat.div_pos (by omega) hp
      have h5 : n / 10000 ^ w % 10000 = n / 10000 ^ w := Nat.mod_eq_of_lt h3
      have h6 : ¬ n / 10000 ^ w = 0 := by omega
      have h7 : n / 10000 ^ w % 10000 ^ sp w = n / 10000 ^ w := by
        refine Nat.mod_eq_of_lt (Nat.lt_of_lt_of_le h3 ?_)
        have : 10000 ^ 1 ≤ 10000 ^ sp w := Nat.pow_le_pow_right (by omega) (hsp w)
        simpa using this
      refine ⟨w, (if w = 0 then [] else [CTok.large (u w)]) ++ groupsFrom u sp n w true, by omega, h3, ?_, ?_⟩
      · simp only [groupsFrom, h5, h6, h7, if_false, Bool.false_eq_true, false_and, List.nil_append, or_false, List.append_assoc]
        have h10 : (n / 10000 ^ w != 0) = true := by simpa using h6
        rw [h10]
        rfl
      · by_cases h8 : w = 0
        · subst h8; left; simp [groupsFrom]
        · right; rw [if_neg h8]; exact ⟨_, _, rfl⟩

/-- Every numeral starts with the leading digit and its unit. -/
theorem flat_lead {scale : ChineseScale} {n : Nat} (h : inRange scale n) (h0 : n ≠ 0) :
    ∃ j q r, 10000 ^ j ≤ n ∧ (scale = .short → j = 0) ∧ (scale ≠ .short → n / 10000 ^ j < 10000) ∧
    10 ^ q ≤ n / 10000 ^ j ∧ n / 10000 ^ j / 10 ^ q < 10 ∧
    flatTokens scale n = .num (n / 10000 ^ j / 10 ^ q) :: (placeUnit q ++ r) ∧ (q = 0 → ∀ r', r ≠ .ten :: r') := by
  have grouped : ∀ (u sp : Nat → Nat) (w : Nat), (∀ j, 1 ≤ sp j) → n < 10000 ^ w → ∃ j q r, 10000 ^ j ≤ n ∧ n / 10000 ^ j < 10000 ∧
      10 ^ q ≤ n / 10000 ^ j ∧ n / 10000 ^ j / 10 ^ q < 10 ∧
      groupsFrom u sp n w false = .num (n / 10000 ^ j / 10 ^ q) :: (placeUnit q ++ r) ∧ (q = 0 → ∀ r', r ≠ .ten :: r') := by
    intro u sp w hsp hn
    obtain ⟨j, r, h1, h2, h3, h4⟩ := groups_head (u := u) hsp w n hn h0
    have hp : 0 < 10000 ^ j := Nat.pow_pos (by omega)
    have h5 : 0 < n / 10000 ^ j := Nat.div_pos h1 hp
    obtain ⟨q, r1, h6, h7, h8, h9⟩ := places_head (n := n / 10000 ^ j) (by omega) 4 h2
    refine ⟨j, q, r1 ++ r, h1, h2, h6, h7, by rw [h3, h8]; simp, fun hq r' => ?_⟩
    rw [h9 hq, List.nil_append]
    rcases h4 with rfl | ⟨i, r2, rfl⟩ <;> simp
  cases scale with
  | short =>
    obtain ⟨q, r, h1, h2, h3, h4⟩ := places_head h0 15 (h.2 rfl)
    exact ⟨0, q, r, by simp; omega, fun _ => rfl, by simp, by simpa using h1, by simpa using h2, by simpa [flatTokens] using h3,
      fun hq r' => by simp [h4 hq]⟩
  | myriad =>
    obtain ⟨j, q, r, h1, h2, h3⟩ := grouped (fun j => j - 1) (fun _ => 1) 10 (fun _ => Nat.le_refl _) (Nat.lt_trans h.1 (by decide))
    exact ⟨j, q, r, h1, nofun, fun _ => h2, h3⟩
  | mid =>
    obtain ⟨j, q, r, h1, h2, h3⟩ := grouped (fun j => if j % 2 = 1 then 0 else j / 2) (fun j => if j % 2 = 1 then 1 else 2) 10
      (by intro j; split <;> omega) (Nat.lt_trans h.1 (by decide))
    exact ⟨j, q, r, h1, nofun, fun _ => h2, h3⟩
  | long =>
    obtain ⟨j, q, r, h1, h2, h3⟩ := grouped twos (fun j => 2 ^ twos j) 16 (fun j => Nat.pow_pos (by omega))
      (Nat.lt_trans h.1 (by decide))
    exact ⟨j, q, r, h1, nofun, fun _ => h2, h3⟩

/-- When a formal numeral starts with 一十: the leading group, or in the short scale the number, lies between 10 and 19. -/
theorem flat_head {scale : ChineseScale} {n : Nat} (h : inRange scale n) (h0 : n ≠ 0) :
    (∃ r, flatTokens scale n = .num 1 :: .ten :: r) ↔
      ∃ j, 10 * 10000 ^ j ≤ n ∧ n < 20 * 10000 ^ j ∧ (scale = .short → j = 0) := by
  obtain ⟨j, q, r, h1, h2, h2', h3, h4, h5, h6⟩ := flat_lead h h0
  have hp : 0 < 10000 ^ j := Nat.pow_pos (by omega)
  have hpre : (∃ r, flatTokens scale n = .num 1 :: .ten :: r) ↔ q = 1 ∧ n / 10000 ^ j / 10 ^ q = 1 := by
    rw [h5]
    constructor
    · rintro ⟨r', e⟩
      rw [List.cons.injEq, CTok.num.injEq] at e
      obtain ⟨e1, e2⟩ := e
      refine ⟨?_, e1⟩
      match q, e2 with
      | 0, e2 => exact absurd e2 (h6 rfl _)
      | 1, _ => rfl
      | 2, e2 => simp [placeUnit] at e2
      | 3, e2 => simp [placeUnit] at e2
      | q + 4, e2 => simp [placeUnit] at e2
    · rintro ⟨rfl, e⟩
      rw [e]
      exact ⟨r, rfl⟩
  rw [hpre]
  constructor
  · rintro ⟨rfl, e⟩
    refine ⟨j, ?_, ?_, h2⟩
    · rw [← Nat.le_div_iff_mul_le hp]; omega
    · rw [← Nat.div_lt_iff_lt_mul hp]; omega
  · rintro ⟨j', a, b, c⟩
    have hp' : 0 < 10000 ^ j' := Nat.pow_pos (by omega)
    have hj : j' = j := by
      by_cases hs : scale = .short
      · rw [h2 hs, c hs]
      · have h7 := h2' hs
        rw [Nat.div_lt_iff_lt_mul hp] at h7
        rcases Nat.lt_trichotomy j' j with hlt | he | hgt
        · have : 10000 ^ (j' + 1) ≤ 10000 ^ j := Nat.pow_le_pow_right (by omega) hlt
          rw [Nat.pow_succ] at this
          omega
        · exact he
        · have : 10000 ^ (j + 1) ≤ 10000 ^ j' := Nat.pow_le_pow_right (by omega) hgt
          rw [Nat.pow_succ] at this
          omega
    subst hj
    rw [← Nat.le_div_iff_mul_le hp] at a
    rw [← Nat.div_lt_iff_lt_mul hp] at b
    generalize n / 10000 ^ j' = g at *
    have hq : q = 1 := by
      match q, h3, h4 with
      | 0, _, h4 => simp at h4; omega
      | 1, _, _ => rfl
      | q + 2, h3, _ =>
        have : 10 ^ 2 ≤ 10 ^ (q + 2) := Nat.pow_le_pow_right (by omega) (by omega)
        omega
    subst hq
    exact ⟨rfl, by omega⟩

end Nominals
