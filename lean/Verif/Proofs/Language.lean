import Verif.Spec.Language
import Verif.Proofs.Ethiopic

/-!
# Texts and regular expressions
-/

namespace Nominals.Language

open Nominals.Spec

theorem matches_opt {r : Rx} {t : List Char} : (Rx.opt r).Matches t ↔ t = [] ∨ r.Matches t := Iff.rfl

theorem matches_oneOf {ws : List (List Char)} {t : List Char} : (Rx.oneOf ws).Matches t → ws = [] ∨ t ∈ ws := by
  induction ws with
  | nil => intro; exact .inl rfl
  | cons w ws ih =>
    intro h
    cases ws with
    | nil => exact .inr (by rw [show t = w from h]; exact List.mem_cons_self)
    | cons w' ws =>
      rcases h with h | h
      · exact .inr (by rw [show t = w from h]; exact List.mem_cons_self)
      · rcases ih h with h | h
        · cases h
        · exact .inr (List.mem_cons_of_mem _ h)

theorem oneOf_matches {ws : List (List Char)} {t : List Char} (h : t ∈ ws) : (Rx.oneOf ws).Matches t := by
  induction ws with
  | nil => cases h
  | cons w ws ih =>
    cases ws with
    | nil => rcases List.mem_cons.mp h with h | h; exact h; cases h
    | cons w' ws =>
      rcases List.mem_cons.mp h with h | h
      · exact .inl h
      · exact .inr (ih h)

/-- `w{0,k}`: some number of copies, at most `k`. -/
theorem matches_upTo_word {k : Nat} {w t : List Char} :
    (Rx.upTo k (.word w)).Matches t ↔ ∃ j, j ≤ k ∧ t = (List.replicate j w).flatten := by
  constructor
  · rintro ⟨us, hl, hu, rfl⟩
    refine ⟨us.length, hl, ?_⟩
    rw [← List.eq_replicate_of_mem (fun u h => hu u h)]
  · rintro ⟨j, hj, rfl⟩
    exact ⟨List.replicate j w, by simpa using hj, fun u h => (List.mem_replicate.mp h).2, rfl⟩

theorem romanPlace_iff {one four five nine t : List Char} :
    (romanPlace one four five nine).Matches t ↔ ∃ d, d < 10 ∧ t = romanGroup one four five nine d := by
  constructor
  · rintro (h | h | ⟨u, v, rfl, hu, hv⟩)
    · exact ⟨9, by omega, h⟩
    · exact ⟨4, by omega, h⟩
    · obtain ⟨j, hj, rfl⟩ := matches_upTo_word.mp hv
      have hj' : j = 0 ∨ j = 1 ∨ j = 2 ∨ j = 3 := by omega
      rcases hu with rfl | rfl
      · refine ⟨j, by omega, ?_⟩
        rcases hj' with rfl | rfl | rfl | rfl <;> simp [romanGroup, List.replicate]
      · refine ⟨5 + j, by omega, ?_⟩
        rcases hj' with rfl | rfl | rfl | rfl <;> simp [romanGroup, List.replicate]
  · rintro ⟨d, hd, rfl⟩
    have low : ∀ j, j ≤ 3 → (romanPlace one four five nine).Matches ((List.replicate j one).flatten) := fun j hj =>
      .inr (.inr ⟨[], _, by simp, .inl rfl, matches_upTo_word.mpr ⟨j, hj, rfl⟩⟩)
    have high : ∀ j, j ≤ 3 → (romanPlace one four five nine).Matches (five ++ (List.replicate j one).flatten) := fun j hj =>
      .inr (.inr ⟨five, _, rfl, .inr rfl, matches_upTo_word.mpr ⟨j, hj, rfl⟩⟩)
    rcases d with _ | _ | _ | _ | _ | _ | _ | _ | _ | _ | d
    · exact low 0 (by omega)
    · simpa [romanGroup, List.replicate] using low 1 (by omega)
    · simpa [romanGroup, List.replicate] using low 2 (by omega)
    · simpa [romanGroup, List.replicate] using low 3 (by omega)
    · exact .inr (.inl rfl)
    · simpa [romanGroup, List.replicate] using high 0 (by omega)
    · simpa [romanGroup, List.replicate] using high 1 (by omega)
    · simpa [romanGroup, List.replicate] using high 2 (by omega)
    · simpa [romanGroup, List.replicate] using high 3 (by omega)
    · exact .inl rfl
    · omega

theorem romanLong_iff {k : Nat} {t : List Char} : (romanLong k).Matches t ↔ ∃ n, n < 10 ^ 6 * (k + 1) ∧ t = romanText n := by
  constructor
  · rintro ⟨u, v, rfl, hu, a, v', rfl, ha, b, v'', rfl, hb, c, v''', rfl, hc, d, w, rfl, hd, e, f, rfl, he, hf⟩
    obtain ⟨j, hj, rfl⟩ := matches_upTo_word.mp hu
    obtain ⟨a, ha, rfl⟩ := romanPlace_iff.mp ha
    obtain ⟨b, hb, rfl⟩ := romanPlace_iff.mp hb
    obtain ⟨c, hc, rfl⟩ := romanPlace_iff.mp hc
    obtain ⟨d, hd, rfl⟩ := romanPlace_iff.mp hd
    obtain ⟨e, he, rfl⟩ := romanPlace_iff.mp he
    obtain ⟨f, hf, rfl⟩ := romanPlace_iff.mp hf
    refine ⟨10 ^ 6 * j + 10 ^ 5 * a + 10 ^ 4 * b + 10 ^ 3 * c + 10 ^ 2 * d + 10 * e + f, by omega, ?_⟩
    rw [romanText]
    rw [show (10 ^ 6 * j + 10 ^ 5 * a + 10 ^ 4 * b + 10 ^ 3 * c + 10 ^ 2 * d + 10 * e + f) / 10 ^ 6 = j by omega,
      show (10 ^ 6 * j + 10 ^ 5 * a + 10 ^ 4 * b + 10 ^ 3 * c + 10 ^ 2 * d + 10 * e + f) / 10 ^ 5 % 10 = a by omega,
      show (10 ^ 6 * j + 10 ^ 5 * a + 10 ^ 4 * b + 10 ^ 3 * c + 10 ^ 2 * d + 10 * e + f) / 10 ^ 4 % 10 = b by omega,
      show (10 ^ 6 * j + 10 ^ 5 * a + 10 ^ 4 * b + 10 ^ 3 * c + 10 ^ 2 * d + 10 * e + f) / 10 ^ 3 % 10 = c by omega,
      show (10 ^ 6 * j + 10 ^ 5 * a + 10 ^ 4 * b + 10 ^ 3 * c + 10 ^ 2 * d + 10 * e + f) / 10 ^ 2 % 10 = d by omega,
      show (10 ^ 6 * j + 10 ^ 5 * a + 10 ^ 4 * b + 10 ^ 3 * c + 10 ^ 2 * d + 10 * e + f) / 10 % 10 = e by omega,
      show (10 ^ 6 * j + 10 ^ 5 * a + 10 ^ 4 * b + 10 ^ 3 * c + 10 ^ 2 * d + 10 * e + f) % 10 = f by omega]
    simp only [List.append_assoc]
  · rintro ⟨n, hn, rfl⟩
    rw [romanText]
    simp only [List.append_assoc]
    exact ⟨_, _, rfl, matches_upTo_word.mpr ⟨_, by omega, rfl⟩, _, _, rfl, romanPlace_iff.mpr ⟨_, by omega, rfl⟩,
      _, _, rfl, romanPlace_iff.mpr ⟨_, by omega, rfl⟩, _, _, rfl, romanPlace_iff.mpr ⟨_, by omega, rfl⟩,
      _, _, rfl, romanPlace_iff.mpr ⟨_, by omega, rfl⟩, _, _, rfl, romanPlace_iff.mpr ⟨_, by omega, rfl⟩,
      romanPlace_iff.mpr ⟨_, by omega, rfl⟩⟩

theorem romanGroup_M {c : Nat} (h : c ≤ 3) (four five nine : List Char) :
    romanGroup ['M'] four five nine c = (List.replicate c ['M']).flatten := by
  rcases c with _ | _ | _ | _ | c
  · rfl
  · rfl
  · rfl
  · rfl
  · omega

theorem romanText_classic {n : Nat} (h : n < 4000) : romanText n = (List.replicate (n / 10 ^ 3) ['M']).flatten ++
    (romanGroup ['C'] ['C', 'D'] ['D'] ['C', 'M'] (n / 10 ^ 2 % 10) ++ (romanGroup ['X'] ['X', 'L'] ['L'] ['X', 'C'] (n / 10 % 10) ++
      romanGroup ['I'] ['I', 'V'] ['V'] ['I', 'X'] (n % 10))) := by
  rw [romanText, show n / 10 ^ 6 = 0 by omega, show n / 10 ^ 5 % 10 = 0 by omega, show n / 10 ^ 4 % 10 = 0 by omega,
    romanGroup_M (by omega), show n / 10 ^ 3 % 10 = n / 10 ^ 3 by omega]
  simp [romanGroup]

theorem romanClassic_iff {t : List Char} : romanClassic.Matches t ↔ ∃ n, n < 4000 ∧ t = romanText n := by
  constructor
  · rintro ⟨u, v, rfl, hu, d, w, rfl, hd, e, f, rfl, he, hf⟩
    obtain ⟨j, hj, rfl⟩ := matches_upTo_word.mp hu
    obtain ⟨d, hd, rfl⟩ := romanPlace_iff.mp hd
    obtain ⟨e, he, rfl⟩ := romanPlace_iff.mp he
    obtain ⟨f, hf, rfl⟩ := romanPlace_iff.mp hf
    refine ⟨10 ^ 3 * j + 10 ^ 2 * d + 10 * e + f, by omega, ?_⟩
    rw [romanText_classic (by omega), show (10 ^ 3 * j + 10 ^ 2 * d + 10 * e + f) / 10 ^ 3 = j by omega,
      show (10 ^ 3 * j + 10 ^ 2 * d + 10 * e + f) / 10 ^ 2 % 10 = d by omega,
      show (10 ^ 3 * j + 10 ^ 2 * d + 10 * e + f) / 10 % 10 = e by omega,
      show (10 ^ 3 * j + 10 ^ 2 * d + 10 * e + f) % 10 = f by omega]
  · rintro ⟨n, hn, rfl⟩
    rw [romanText_classic hn]
    exact ⟨_, _, rfl, matches_upTo_word.mpr ⟨_, by omega, rfl⟩, _, _, rfl, romanPlace_iff.mpr ⟨_, by omega, rfl⟩,
      _, _, rfl, romanPlace_iff.mpr ⟨_, by omega, rfl⟩, romanPlace_iff.mpr ⟨_, by omega, rfl⟩⟩

theorem maybeDigit_iff {sym : Nat → List Char} {m : Nat} {t : List Char} :
    (maybeDigit sym m).Matches t ↔ ∃ d, d ≤ m ∧ t = if d = 0 then [] else sym d := by
  induction m with
  | zero =>
    constructor
    · intro h; exact ⟨0, by omega, h⟩
    · rintro ⟨d, hd, rfl⟩; rw [if_pos (by omega)]; exact rfl
  | succ m ih =>
    constructor
    · rintro (h | h)
      · obtain ⟨d, hd, h⟩ := ih.mp h; exact ⟨d, by omega, h⟩
      · exact ⟨m + 1, by omega, by rw [if_neg (by omega)]; exact h⟩
    · rintro ⟨d, hd, rfl⟩
      by_cases h : d = m + 1
      · subst h; right; rw [if_neg (by omega)]; exact rfl
      · left; exact ih.mpr ⟨d, by omega, rfl⟩

theorem placeShape_iff {top : List Char} {sym : Nat → Nat → List Char} {m k : Nat} (hm : m ≤ 9) {t : List Char} :
    (placeShape top sym m k).Matches t ↔ ∃ n, n < 1000 * (m + 1) * (k + 1) ∧ t = repeatedTop (1000 * (m + 1)) top sym n := by
  constructor
  · rintro ⟨u, v, rfl, hu, a, v', rfl, ha, b, v'', rfl, hb, c, d, rfl, hc, hd⟩
    obtain ⟨j, hj, rfl⟩ := matches_upTo_word.mp hu
    obtain ⟨a, ha, rfl⟩ := maybeDigit_iff.mp ha
    obtain ⟨b, hb, rfl⟩ := maybeDigit_iff.mp hb
    obtain ⟨c, hc, rfl⟩ := maybeDigit_iff.mp hc
    obtain ⟨d, hd, rfl⟩ := maybeDigit_iff.mp hd
    have hr : 1000 * a + 100 * b + 10 * c + d < 1000 * (m + 1) := by omega
    refine ⟨1000 * (m + 1) * j + (1000 * a + 100 * b + 10 * c + d), ?_, ?_⟩
    · have : 1000 * (m + 1) * (j + 1) ≤ 1000 * (m + 1) * (k + 1) := Nat.mul_le_mul_left _ (by omega)
      rw [Nat.mul_succ] at this
      omega
    · rw [repeatedTop, Nat.mul_add_mod, Nat.mod_eq_of_lt hr, Nat.mul_add_div (by omega), Nat.div_eq_of_lt hr, digitwise]
      rw [show (1000 * a + 100 * b + 10 * c + d) / 1000 % 10 = a by omega, show (1000 * a + 100 * b + 10 * c + d) / 100 % 10 = b by omega,
        show (1000 * a + 100 * b + 10 * c + d) / 10 % 10 = c by omega, show (1000 * a + 100 * b + 10 * c + d) % 10 = d by omega]
      simp only [List.append_assoc, Nat.add_zero]
  · rintro ⟨n, hn, rfl⟩
    have hr := Nat.mod_lt n (show 0 < 1000 * (m + 1) by omega)
    rw [repeatedTop, digitwise]
    simp only [List.append_assoc]
    exact ⟨_, _, rfl, matches_upTo_word.mpr ⟨_, Nat.le_of_lt_succ (Nat.div_lt_of_lt_mul hn), rfl⟩,
      _, _, rfl, maybeDigit_iff.mpr ⟨_, by omega, rfl⟩, _, _, rfl, maybeDigit_iff.mpr ⟨_, by omega, rfl⟩,
      _, _, rfl, maybeDigit_iff.mpr ⟨_, by omega, rfl⟩, maybeDigit_iff.mpr ⟨_, by omega, rfl⟩⟩

/-! ## Hebrew -/

theorem opt_oneOf_iff {ws : List (List Char)} (h : ws ≠ []) {t : List Char} : (Rx.opt (Rx.oneOf ws)).Matches t ↔ t ∈ [] :: ws := by
  rw [matches_opt, List.mem_cons]
  exact ⟨fun | .inl e => .inl e | .inr m => .inr ((matches_oneOf m).resolve_left h), fun | .inl e => .inl e | .inr m => .inr (oneOf_matches m)⟩

theorem hebrewBelow_split : ∀ r ∈ List.range 100, hebrewBelow100 r = ['ט', '״', 'ו'] ∨ hebrewBelow100 r = ['ט', '״', 'ז'] ∨
    (hebrewBelow100 r = ['י'] ++ hebrewDigit 0 (r % 10) ∧
      hebrewDigit 0 (r % 10) ∈ [[], ['א'], ['ב'], ['ג'], ['ד'], ['ז'], ['ח'], ['ט']]) ∨
    (hebrewBelow100 r = hebrewDigit 1 (r / 10) ++ hebrewDigit 0 (r % 10) ∧
      hebrewDigit 1 (r / 10) ∈ [[], ['כ'], ['ל'], ['מ'], ['נ'], ['ס'], ['ע'], ['פ'], ['צ']] ∧
      hebrewDigit 0 (r % 10) ∈ [[], ['א'], ['ב'], ['ג'], ['ד'], ['ה'], ['ו'], ['ז'], ['ח'], ['ט']]) := by decide +kernel

theorem hebrewBelow_join1 : ∀ v ∈ [[], ['א'], ['ב'], ['ג'], ['ד'], ['ז'], ['ח'], ['ט']],
    ∃ r ∈ List.range 100, ['י'] ++ v = hebrewBelow100 r := by decide +kernel

theorem hebrewBelow_join2 : ∀ u ∈ [[], ['כ'], ['ל'], ['מ'], ['נ'], ['ס'], ['ע'], ['פ'], ['צ']],
    ∀ v ∈ [[], ['א'], ['ב'], ['ג'], ['ד'], ['ה'], ['ו'], ['ז'], ['ח'], ['ט']], ∃ r ∈ List.range 100, u ++ v = hebrewBelow100 r := by
  decide +kernel

theorem hebrewBelow_iff {t : List Char} : hebrewShapeBelow100.Matches t ↔ ∃ r, r < 100 ∧ t = hebrewBelow100 r := by
  constructor
  · rintro (h | h | ⟨u, v, rfl, hu, hv⟩ | ⟨u, v, rfl, hu, hv⟩)
    · exact ⟨15, by omega, h⟩
    · exact ⟨16, by omega, h⟩
    · obtain ⟨r, hr, h⟩ := hebrewBelow_join1 v ((opt_oneOf_iff (by simp)).mp hv)
      exact ⟨r, List.mem_range.mp hr, by rw [show u = ['י'] from hu]; exact h⟩
    · obtain ⟨r, hr, h⟩ := hebrewBelow_join2 u ((opt_oneOf_iff (by simp)).mp hu) v ((opt_oneOf_iff (by simp)).mp hv)
      exact ⟨r, List.mem_range.mp hr, h⟩
  · rintro ⟨r, hr, rfl⟩
    rcases hebrewBelow_split r (List.mem_range.mpr hr) with h | h | ⟨h, hv⟩ | ⟨h, hu, hv⟩
    · exact .inl h
    · exact .inr (.inl h)
    · exact .inr (.inr (.inl ⟨_, _, h, rfl, (opt_oneOf_iff (by simp)).mpr hv⟩))
    · exact .inr (.inr (.inr ⟨_, _, h, (opt_oneOf_iff (by simp)).mpr hu, (opt_oneOf_iff (by simp)).mpr hv⟩))

theorem hebrewHundreds_iff {t : List Char} :
    (Rx.opt (Rx.oneOf [['ק'], ['ר'], ['ש']])).Matches t ↔ ∃ h, h < 4 ∧ t = hebrewDigit 2 h := by
  rw [opt_oneOf_iff (by simp)]
  constructor
  · intro h
    have : ∀ t ∈ [[], ['ק'], ['ר'], ['ש']], ∃ h ∈ List.range 4, t = hebrewDigit 2 h := by decide +kernel
    obtain ⟨h, hh, e⟩ := this t h
    exact ⟨h, List.mem_range.mp hh, e⟩
  · rintro ⟨h, hh, rfl⟩
    have : ∀ h ∈ List.range 4, hebrewDigit 2 h ∈ [[], ['ק'], ['ר'], ['ש']] := by decide +kernel
    exact this h (List.mem_range.mpr hh)

theorem flatten_replicate_single (j : Nat) (c : Char) : (List.replicate j [c]).flatten = List.replicate j c := by
  induction j with
  | zero => rfl
  | succ j ih => rw [List.replicate_succ, List.replicate_succ, List.flatten_cons, ih]; rfl

theorem hebrewShape_iff {k : Nat} {t : List Char} : (hebrewShape k).Matches t ↔ ∃ n, n < 400 * (k + 1) ∧ t = hebrewPlain n := by
  constructor
  · rintro ⟨u, v, rfl, hu, a, b, rfl, ha, hb⟩
    obtain ⟨j, hj, rfl⟩ := matches_upTo_word.mp hu
    obtain ⟨h, hh, rfl⟩ := hebrewHundreds_iff.mp ha
    obtain ⟨r, hr, rfl⟩ := hebrewBelow_iff.mp hb
    refine ⟨400 * j + 100 * h + r, by omega, ?_⟩
    rw [hebrewPlain, flatten_replicate_single, show (400 * j + 100 * h + r) / 400 = j by omega,
      show (400 * j + 100 * h + r) % 400 / 100 = h by omega, show (400 * j + 100 * h + r) % 100 = r by omega, List.append_assoc]
  · rintro ⟨n, hn, rfl⟩
    rw [hebrewPlain, ← flatten_replicate_single, List.append_assoc]
    exact ⟨_, _, rfl, matches_upTo_word.mpr ⟨_, by omega, rfl⟩, _, _, rfl, hebrewHundreds_iff.mpr ⟨_, by omega, rfl⟩,
      hebrewBelow_iff.mpr ⟨_, by omega, rfl⟩⟩

/-! ## Ethiopic -/

theorem ethOnesRx_iff {t : List Char} : (Rx.opt (.word ['፩'] ∣∣ Rx.oneOf ethOneSignsFrom2)).Matches t ↔ t ∈ [] :: ['፩'] :: ethOneSignsFrom2 := by
  rw [matches_opt, List.mem_cons, List.mem_cons]
  have : ethOneSignsFrom2 ≠ [] := by decide
  constructor
  · rintro (h | h | h)
    · exact .inl h
    · exact .inr (.inl h)
    · exact .inr (.inr ((matches_oneOf h).resolve_left this))
  · rintro (h | h | h)
    · exact .inl h
    · exact .inr (.inl h)
    · exact .inr (.inr (oneOf_matches h))

theorem ethAnyGroup_iff {t : List Char} : ethAnyGroup.Matches t ↔ ∃ g, g < 100 ∧ t = ethDigits g := by
  have join : ∀ u ∈ [] :: ethTenSigns, ∀ v ∈ [] :: ['፩'] :: ethOneSignsFrom2, ∃ g ∈ List.range 100, u ++ v = ethDigits g := by decide +kernel
  have split : ∀ g ∈ List.range 100, ethDigits (g / 10 * 10) ∈ [] :: ethTenSigns ∧ ethDigits (g % 10) ∈ [] :: ['፩'] :: ethOneSignsFrom2 ∧
      ethDigits g = ethDigits (g / 10 * 10) ++ ethDigits (g % 10) := by decide +kernel
  constructor
  · rintro ⟨u, v, rfl, hu, hv⟩
    obtain ⟨g, hg, h⟩ := join u ((opt_oneOf_iff (by decide)).mp hu) v (ethOnesRx_iff.mp hv)
    exact ⟨g, List.mem_range.mp hg, h⟩
  · rintro ⟨g, hg, rfl⟩
    obtain ⟨h1, h2, h3⟩ := split g (List.mem_range.mpr hg)
    exact ⟨_, _, h3, (opt_oneOf_iff (by decide)).mpr h1, ethOnesRx_iff.mpr h2⟩

/-- A group of value `g ≥ 1` whose value 1 is left unwritten. -/
def bareGroup (g : Nat) : List Char := if g = 1 then [] else ethDigits g

theorem ethGroupNotOne_iff {t : List Char} : ethGroupNotOne.Matches t ↔ ∃ g, 1 ≤ g ∧ g < 100 ∧ t = bareGroup g := by
  have join1 : ∀ u ∈ ethTenSigns, ∀ v ∈ [] :: ['፩'] :: ethOneSignsFrom2, ∃ g ∈ List.range 100, 1 ≤ g ∧ u ++ v = bareGroup g := by
    decide +kernel
  have join2 : ∀ v ∈ [] :: ethOneSignsFrom2, ∃ g ∈ List.range 100, 1 ≤ g ∧ v = bareGroup g := by decide +kernel
  have split : ∀ g ∈ List.range 100, 1 ≤ g → (ethDigits (g / 10 * 10) ∈ ethTenSigns ∧ ethDigits (g % 10) ∈ [] :: ['፩'] :: ethOneSignsFrom2 ∧
      bareGroup g = ethDigits (g / 10 * 10) ++ ethDigits (g % 10)) ∨ bareGroup g ∈ [] :: ethOneSignsFrom2 := by decide +kernel
  constructor
  · rintro (⟨u, v, rfl, hu, hv⟩ | h)
    · obtain ⟨g, hg, h1, h⟩ := join1 u ((matches_oneOf hu).resolve_left (by decide)) v (ethOnesRx_iff.mp hv)
      exact ⟨g, h1, List.mem_range.mp hg, h⟩
    · obtain ⟨g, hg, h1, h⟩ := join2 t ((opt_oneOf_iff (by decide)).mp h)
      exact ⟨g, h1, List.mem_range.mp hg, h⟩
  · rintro ⟨g, h1, hg, rfl⟩
    rcases split g (List.mem_range.mpr hg) h1 with ⟨h1, h2, h3⟩ | h
    · exact .inl ⟨_, _, h3, oneOf_matches h1, ethOnesRx_iff.mpr h2⟩
    · exact .inr ((opt_oneOf_iff (by decide)).mpr h)

/-- Four digits. -/
def stretch (r : Nat) : List Char := (if r / 100 = 0 then [] else bareGroup (r / 100) ++ ['፻']) ++ ethDigits (r % 100)

/-- Four digits at the beginning, before a ten-thousand sign. -/
def firstStretch (r : Nat) : List Char := if r < 100 then bareGroup r else stretch r

theorem ethStretch_iff {t : List Char} : ethStretch.Matches t ↔ ∃ r, r < 10000 ∧ t = stretch r := by
  constructor
  · rintro ⟨u, v, rfl, hu, hv⟩
    obtain ⟨g, hg, rfl⟩ := ethAnyGroup_iff.mp hv
    rcases hu with rfl | ⟨a, b, rfl, ha, rfl⟩
    · refine ⟨g, by omega, ?_⟩
      rw [stretch, if_pos (by omega), Nat.mod_eq_of_lt hg]
    · obtain ⟨h, h1, hh, rfl⟩ := ethGroupNotOne_iff.mp ha
      refine ⟨100 * h + g, by omega, ?_⟩
      rw [stretch, if_neg (by omega), show (100 * h + g) / 100 = h by omega, show (100 * h + g) % 100 = g by omega]
  · rintro ⟨r, hr, rfl⟩
    refine ⟨_, _, rfl, ?_, ethAnyGroup_iff.mpr ⟨_, by omega, rfl⟩⟩
    split
    · exact .inl rfl
    · exact .inr ⟨_, _, rfl, ethGroupNotOne_iff.mpr ⟨_, by omega, by omega, rfl⟩, rfl⟩

theorem ethFirstStretch_iff {t : List Char} : ethFirstStretch.Matches t ↔ ∃ r, 1 ≤ r ∧ r < 10000 ∧ t = firstStretch r := by
  constructor
  · rintro (⟨u, v, rfl, ⟨a, b, rfl, ha, rfl⟩, hv⟩ | h)
    · obtain ⟨g, hg, rfl⟩ := ethAnyGroup_iff.mp hv
      obtain ⟨h, h1, hh, rfl⟩ := ethGroupNotOne_iff.mp ha
      refine ⟨100 * h + g, by omega, by omega, ?_⟩
      rw [firstStretch, if_neg (by omega), stretch, if_neg (by omega), show (100 * h + g) / 100 = h by omega,
        show (100 * h + g) % 100 = g by omega]
    · obtain ⟨g, h1, hg, rfl⟩ := ethGroupNotOne_iff.mp h
      exact ⟨g, h1, by omega, by rw [firstStretch, if_pos hg]⟩
  · rintro ⟨r, h1, hr, rfl⟩
    rw [firstStretch]
    split
    · exact .inr (ethGroupNotOne_iff.mpr ⟨_, by omega, by omega, rfl⟩)
    · rw [stretch, if_neg (by omega)]
      exact .inl ⟨_, _, rfl, ⟨_, _, rfl, ethGroupNotOne_iff.mpr ⟨_, by omega, by omega, rfl⟩, rfl⟩, ethAnyGroup_iff.mpr ⟨_, by omega, rfl⟩⟩

/-- The text of `m`, except that 1 is left unwritten. -/
def lead (m : Nat) : List Char := if _h : m < 10000 then firstStretch m else lead (m / 10000) ++ '፼' :: stretch (m % 10000)
termination_by m
decreasing_by omega

theorem groups_stretch {i m : Nat} (hi : i % 2 = 0) (hm : m < 10000) :
    ethGroupText (i + 1) (m / 100) false ++ ethGroupText i (m % 100) false = stretch m ++ if i = 0 then [] else ['፼'] := by
  have e0 : ethDigits 0 = [] := by decide
  have g1 : ethGroupText (i + 1) (m / 100) false = if m / 100 = 0 then [] else bareGroup (m / 100) ++ ['፻'] := by
    rw [ethGroupText, if_pos (show (i + 1) % 2 = 1 by omega), bareGroup]
    by_cases h : m / 100 = 0
    · simp [h]
    · by_cases h' : m / 100 = 1
      · simp [h', show (i + 1) % 2 = 1 by omega]; rfl
      · simp [h, h']; rfl
  have g0 : ethGroupText i (m % 100) false = ethDigits (m % 100) ++ if i = 0 then [] else ['፼'] := by
    rw [ethGroupText, if_neg (show ¬ i % 2 = 1 by omega)]
    congr 1
    by_cases h : m % 100 = 0
    · simp [h, e0]
    · simp [h]; omega
  rw [g1, g0, stretch]
  simp only [List.append_assoc]

theorem ethFrom_lead (m : Nat) : ∀ i, i % 2 = 0 → (i = 0 → m ≠ 1) → m ≠ 0 → ethFrom i m = lead m ++ if i = 0 then [] else ['፼'] := by
  induction m using Nat.strongRecOn with
  | _ m ih =>
    intro i hi hi1 hm
    rw [ethFrom, dif_neg hm, lead]
    by_cases hl : m < 10000
    · rw [dif_pos hl, firstStretch]
      by_cases hs : m < 100
      · rw [if_pos hs, ethFrom, dif_pos (by omega), List.nil_append, show m / 100 = 0 by omega, Nat.mod_eq_of_lt hs, ethGroupText,
          if_neg (show ¬ i % 2 = 1 by omega), bareGroup]
        congr 1
        by_cases h1 : m = 1
        · simp [h1]
        · simp [hm, h1]
      · rw [if_neg hs, ethFrom, dif_neg (by omega), ethFrom, dif_pos (by omega), List.nil_append, ← groups_stretch hi hl,
          Nat.mod_eq_of_lt (show m / 100 < 100 by omega), decide_eq_false (show ¬ m / 100 = 0 by omega)]
        congr 1
        simp only [ethGroupText, show (i + 1) % 2 = 1 by omega]
        congr 1
        by_cases h1 : m / 100 = 1
        · simp [h1]
        · simp [h1]
    · rw [dif_neg hl, ethFrom, dif_neg (by omega), Nat.div_div_eq_div_mul,
        show m / (100 * 100) = m / 10000 by omega, ih (m / 10000) (by omega) (i + 1 + 1) (by omega) (by omega) (by omega),
        decide_eq_false (show ¬ m / 10000 = 0 by omega), decide_eq_false (show ¬ m / 100 = 0 by omega),
        List.append_assoc, show m / 100 % 100 = m % 10000 / 100 by omega, show m % 100 = m % 10000 % 100 by omega,
        groups_stretch hi (Nat.mod_lt _ (by omega))]
      simp

theorem ethiopicText_lead {n : Nat} (h : 2 ≤ n) : ethiopicText n = lead n := by
  rw [ethiopicText_eq (by omega), ethFrom_lead n 0 rfl (by omega) (by omega), if_pos rfl, List.append_nil]

theorem lead_of_rx (us : List (List Char)) : ∀ k, us.length = k → (∀ u ∈ us, (Rx.word ['፼'] ⬝ ethStretch).Matches u) →
    ∀ r, 1 ≤ r → r < 10000 → ∃ m, 1 ≤ m ∧ m < 10000 ^ (k + 1) ∧ firstStretch r ++ us.flatten = lead m := by
  intro k
  induction k generalizing us with
  | zero =>
    intro hl _ r h1 hr
    obtain rfl := List.eq_nil_of_length_eq_zero hl
    exact ⟨r, h1, by omega, by rw [lead, dif_pos hr]; simp⟩
  | succ k ih =>
    intro hl hu r h1 hr
    rcases List.eq_nil_or_concat us with rfl | ⟨vs, v, rfl⟩
    · cases hl
    · obtain ⟨m, hm, hmk, e⟩ := ih vs (by simpa using hl) (fun u h => hu u (by simp [h])) r h1 hr
      obtain ⟨a, b, rfl, rfl, hb⟩ := hu v (by simp)
      obtain ⟨s, hs, rfl⟩ := ethStretch_iff.mp hb
      refine ⟨10000 * m + s, by omega, by rw [Nat.pow_succ]; omega, ?_⟩
      rw [lead, dif_neg (by omega), show (10000 * m + s) / 10000 = m by omega, show (10000 * m + s) % 10000 = s by omega, ← e]
      simp

theorem rx_of_lead (k : Nat) : ∀ m, 1 ≤ m → m < 10000 ^ (k + 1) → ∃ (r : Nat) (us : List (List Char)), 1 ≤ r ∧ r < 10000 ∧ us.length ≤ k ∧
    (∀ u ∈ us, (Rx.word ['፼'] ⬝ ethStretch).Matches u) ∧ lead m = firstStretch r ++ us.flatten := by
  induction k with
  | zero =>
    intro m h1 hm
    exact ⟨m, [], h1, by omega, by simp, by simp, by rw [lead, dif_pos (by omega)]; simp⟩
  | succ k ih =>
    intro m h1 hm
    by_cases hl : m < 10000
    · exact ⟨m, [], h1, by omega, by simp, by simp, by rw [lead, dif_pos (by omega)]; simp⟩
    · obtain ⟨r, us, hr1, hr, hu, hus, e⟩ := ih (m / 10000) (by omega) (by rw [Nat.pow_succ] at hm; exact Nat.div_lt_of_lt_mul (by omega))
      refine ⟨r, us ++ ['፼' :: stretch (m % 10000)], hr1, hr, by simpa using hu, ?_, ?_⟩
      · intro u hu
        rcases List.mem_append.mp hu with h | h
        · exact hus u h
        · obtain rfl := List.mem_singleton.mp h
          exact ⟨['፼'], _, rfl, rfl, ethStretch_iff.mpr ⟨_, by omega, rfl⟩⟩
      · rw [lead, dif_neg hl, e]; simp

theorem stretch_zero : stretch 0 = [] := by decide

theorem stretch_text {n : Nat} (h0 : n ≠ 0) (hn : n < 10000) : ethiopicText n = stretch n := by
  by_cases h1 : n = 1
  · subst h1; decide
  · rw [ethiopicText_lead (by omega), lead, dif_pos hn, firstStretch]
    split
    · rw [bareGroup, if_neg h1, stretch, if_pos (by omega), Nat.mod_eq_of_lt (by omega), List.nil_append]
    · rfl

theorem ethShape_iff {k : Nat} {t : List Char} :
    (t ≠ [] ∧ (ethShape k).Matches t) ↔ ∃ n, n ≠ 0 ∧ n < 10000 ^ (k + 1) ∧ t = ethiopicText n := by
  have h10 : 10000 ≤ 10000 ^ (k + 1) := Nat.le_self_pow (by omega) _
  constructor
  · rintro ⟨ht, h | ⟨u, v, rfl, hu, us, hk, hus, rfl⟩⟩
    · obtain ⟨r, hr, rfl⟩ := ethStretch_iff.mp h
      have h0 : r ≠ 0 := fun e => ht (by rw [e, stretch_zero])
      exact ⟨r, h0, by omega, (stretch_text h0 hr).symm⟩
    · obtain ⟨r, h1, hr, rfl⟩ := ethFirstStretch_iff.mp hu
      obtain ⟨m, hm, hmk, e⟩ := lead_of_rx us us.length rfl hus r h1 hr
      have : m ≠ 1 := by
        rintro rfl
        apply ht; rw [e, lead, dif_pos (by omega)]; decide
      refine ⟨m, by omega, Nat.lt_of_lt_of_le hmk (Nat.pow_le_pow_right (by omega) (by omega)), ?_⟩
      rw [ethiopicText_lead (by omega), e]
  · rintro ⟨n, h0, hn, rfl⟩
    refine ⟨?_, ?_⟩
    · intro e
      have := read_ethiopicText n
      rw [e] at this
      exact h0 this.symm
    · by_cases h1 : n < 10000
      · exact .inl (ethStretch_iff.mpr ⟨n, h1, stretch_text h0 h1⟩)
      · obtain ⟨r, us, hr1, hr, hu, hus, e⟩ := rx_of_lead k n (by omega) hn
        rw [ethiopicText_lead (by omega), e]
        exact .inr ⟨_, _, rfl, ethFirstStretch_iff.mpr ⟨r, hr1, hr, rfl⟩, us, hu, hus, rfl⟩

end Nominals.Language
