import Verif.Proofs.Hebrew

/-!
# Properties C31–C33: Hebrew numerals

Vocabulary: `Verif/Spec/Outcome.lean`, `Verif/Spec/Hebrew.lean`.
-/

namespace Nominals.Props

open Nominals.Spec

/-- The text of every number: tav for each 400, the other hundreds, then the last two places with 15 and 16 special,
a lone letter between geresh and gershayim. Zero has no symbol. -/
theorem C31_text {cfg : Cfg} {T : IntTy} {n : Nat} (hn : T.Fits cfg n) :
    view (hebrewTryFormat cfg T n) = if n = 0 then .err .noZeroSymbol else deliver cfg.alloc n (hebrewText n) := by
  by_cases h : n = 0
  · subst h; rfl
  · rw [if_neg h]; exact (hebrew_del hn h).view

example : view (hebrewTryFormat ⟨true, .w64, true⟩ .u16 576) = .ok (['ת', 'ק', 'ע', 'ו'], true) ∧ hebrewText 576 = ['ת', 'ק', 'ע', 'ו'] := by
  decide +kernel

theorem hebrewPlain_below : ∀ m, m < 400 → letterSum hebrewValue (hebrewDigit 2 (m / 100) ++ hebrewBelow100 (m % 100)) = m := by
  decide +kernel

theorem hebrewPlain_split (n : Nat) : hebrewPlain n =
    List.replicate (n / 400) 'ת' ++ (hebrewDigit 2 (n % 400 / 100) ++ hebrewBelow100 (n % 400 % 100)) := by
  rw [hebrewPlain, List.append_assoc, show n % 400 % 100 = n % 100 by omega]

theorem hebrewPlain_sum (n : Nat) : letterSum hebrewValue (hebrewPlain n) = n := by
  rw [hebrewPlain_split]
  have h := hebrewPlain_below (n % 400) (Nat.mod_lt _ (by omega))
  have e : hebrewValue 'ת' = 400 := by decide
  rw [letterSum] at h ⊢
  rw [List.map_append, List.sum_append, h, List.map_replicate, e]
  simp only [List.sum_replicate_nat]
  omega

theorem hebrewText_sum (n : Nat) : letterSum hebrewValue (hebrewText n) = n := by
  unfold hebrewText
  have h := hebrewPlain_sum n
  have e1 : hebrewValue '׳' = 0 := by decide
  have e2 : hebrewValue '״' = 0 := by decide
  split
  · rw [letterSum] at h ⊢
    simp [e1, e2, h]
  · exact h

/-- C31. The letters of the text add up to the number (geresh and gershayim count nothing). -/
theorem C31_letters_add_up {cfg : Cfg} {T : IntTy} {n : Nat} (hn : T.Fits cfg n) (h0 : n ≠ 0) :
    ∃ t, view (hebrewTryFormat cfg T n) = deliver cfg.alloc n t ∧ letterSum hebrewValue t = n :=
  ⟨hebrewText n, by rw [C31_text hn, if_neg h0], hebrewText_sum n⟩

example : letterSum hebrewValue ['ת', 'ק', 'ע', 'ו'] = 576 := by decide +kernel

/-- C31. Different numbers have different texts, whatever their integer types and builds. -/
theorem C31_distinct {cfg cfg' : Cfg} {T T' : IntTy} {n m : Nat} {t : List Char} {b b' : Bool} (hn : T.Fits cfg n) (hm : T'.Fits cfg' m)
    (h : view (hebrewTryFormat cfg T n) = .ok (t, b)) (h' : view (hebrewTryFormat cfg' T' m) = .ok (t, b')) : n = m := by
  have key : ∀ {cfg : Cfg} {T : IntTy} {n : Nat} {b : Bool}, T.Fits cfg n → view (hebrewTryFormat cfg T n) = .ok (t, b) →
      letterSum hebrewValue t = n := by
    intro cfg T n b hn h
    rw [C31_text hn] at h
    split at h
    · cases h
    · unfold deliver at h
      split at h
      · cases h; exact hebrewText_sum n
      · split at h
        · cases h; exact hebrewText_sum n
        · cases h
  rw [← key hn h, ← key hm h']

/-- 1516 = 3·400 + 300 + 16. -/
example : hebrewText 1516 = ['ת', 'ת', 'ת', 'ש', 'ט', '״', 'ז'] ∧ hebrewText 400 = ['׳', 'ת', '״'] ∧
    hebrewText 800 = ['ת', 'ת'] := by decide

/-! ## C32 -/

theorem infix_replicate {a b c : Char} {k : Nat} {l : List Char} (hac : a ≠ c) (h : [a, b] <:+: List.replicate k c ++ l) :
    [a, b] <:+: l := by
  induction k with
  | zero => simpa using h
  | succ k ih =>
    rw [List.replicate_succ, List.cons_append, List.infix_cons_iff] at h
    rcases h with h | h
    · rw [List.cons_prefix_cons] at h
      exact absurd h.1 hac
    · exact ih h

theorem hebrew_names_below : ∀ m, m < 400 → ¬ ['י', 'ה'] <:+: hebrewDigit 2 (m / 100) ++ hebrewBelow100 (m % 100) ∧
    ¬ ['י', 'ו'] <:+: hebrewDigit 2 (m / 100) ++ hebrewBelow100 (m % 100) := by decide +kernel

theorem hebrewPlain_single {n : Nat} (h : (hebrewPlain n).length = 1) : n ≤ 400 := by
  rw [hebrewPlain] at h
  simp only [List.length_append, List.length_replicate] at h
  by_cases h4 : n / 400 = 1
  · have h1 : (hebrewDigit 2 (n % 400 / 100)).length = 0 := by omega
    have h2 : (hebrewBelow100 (n % 100)).length = 0 := by omega
    have h1 : n % 400 / 100 = 0 := by
      unfold hebrewDigit at h1
      split at h1
      · assumption
      · simp at h1
    have h2 : n % 100 = 0 := by
      unfold hebrewBelow100 hebrewDigit at h2
      by_cases ha : n % 100 = 15
      · rw [if_pos ha] at h2; simp at h2
      · by_cases hb : n % 100 = 16
        · rw [if_neg ha, if_pos hb] at h2; simp at h2
        · rw [if_neg ha, if_neg hb] at h2
          by_cases hc : n % 100 / 10 = 0
          · by_cases hd : n % 100 % 10 = 0
            · omega
            · rw [if_pos hc, if_neg hd] at h2; simp at h2
          · rw [if_neg hc] at h2; simp at h2
    omega
  · omega

theorem hebrew_names_single : ∀ n, n ≤ 400 → ¬ ['י', 'ה'] <:+: hebrewText n ∧ ¬ ['י', 'ו'] <:+: hebrewText n := by decide +kernel

theorem hebrewText_names (n : Nat) : ¬ ['י', 'ה'] <:+: hebrewText n ∧ ¬ ['י', 'ו'] <:+: hebrewText n := by
  by_cases h : n ≤ 400
  · exact hebrew_names_single n h
  · have hl : (hebrewPlain n).length ≠ 1 := fun hl => h (hebrewPlain_single hl)
    rw [hebrewText, if_neg hl, hebrewPlain_split]
    have hb := hebrew_names_below (n % 400) (Nat.mod_lt _ (by omega))
    exact ⟨fun hi => hb.1 (infix_replicate (by decide) hi), fun hi => hb.2 (infix_replicate (by decide) hi)⟩

theorem hebrewText_ending (n : Nat) (h : n % 100 = 15 ∨ n % 100 = 16) : hebrewBelow100 (n % 100) <:+ hebrewText n := by
  have hl : (hebrewPlain n).length ≠ 1 := by
    rw [hebrewPlain]
    simp only [List.length_append]
    rcases h with h | h <;> rw [h] <;> simp [hebrewBelow100] <;> omega
  rw [hebrewText, if_neg hl, hebrewPlain]
  exact List.suffix_append _ _

/-- C32. No Hebrew text contains yod-he or yod-vav; numbers whose last two places are 15 or 16 end in tet-gershayim-vav or
tet-gershayim-zayin. -/
theorem C32_divine_names {cfg : Cfg} {T : IntTy} {n : Nat} {t : List Char} {b : Bool} (hn : T.Fits cfg n)
    (h : view (hebrewTryFormat cfg T n) = .ok (t, b)) :
    ¬ ['י', 'ה'] <:+: t ∧ ¬ ['י', 'ו'] <:+: t ∧
    (n % 100 = 15 → ['ט', '״', 'ו'] <:+ t) ∧ (n % 100 = 16 → ['ט', '״', 'ז'] <:+ t) := by
  have ht : t = hebrewText n := by
    rw [C31_text hn] at h
    split at h
    · cases h
    · unfold deliver at h
      split at h
      · cases h; rfl
      · split at h
        · cases h; rfl
        · cases h
  subst ht
  refine ⟨(hebrewText_names n).1, (hebrewText_names n).2, fun h => ?_, fun h => ?_⟩
  · have := hebrewText_ending n (.inl h)
    rwa [h] at this
  · have := hebrewText_ending n (.inr h)
    rwa [h] at this

/-- 115 on a `u8`: ק then ט״ו; without the rule it would be קיה. -/
example : view (hebrewTryFormat ⟨true, .w64, true⟩ .u8 115) = .ok (['ק', 'ט', '״', 'ו'], true) := by decide +kernel

/-! ## C33 -/

/-- The numbers with a letter of their own. -/
def hebrewOwnLetter (n : Nat) : Prop := ∃ c ∈ hebrewLetters, hebrewValue c = n

theorem hebrewOwn_iff (n : Nat) : hebrewOwnLetter n ↔ n ∈ hebrewLetters.map hebrewValue := by
  simp [hebrewOwnLetter]

theorem hebrew_wrap_below : ∀ n, n ≤ 400 → n ≠ 0 →
    ((hebrewPlain n).length = 1 ↔ n ∈ hebrewLetters.map hebrewValue) := by decide +kernel

theorem hebrewBelow_geresh : ∀ m, m < 400 → '׳' ∉ hebrewDigit 2 (m / 100) ++ hebrewBelow100 (m % 100) := by decide +kernel

theorem hebrewPlain_geresh (n : Nat) : '׳' ∉ hebrewPlain n := by
  rw [hebrewPlain_split, List.mem_append]
  rintro (h | h)
  · have := List.eq_of_mem_replicate h
    exact absurd this (by decide)
  · exact hebrewBelow_geresh (n % 400) (Nat.mod_lt _ (by omega)) h

/-- C33. A number is wrapped in geresh … gershayim exactly when it has a letter of its own, and geresh occurs nowhere else. -/
theorem C33_wrapped_iff {cfg : Cfg} {T : IntTy} {n : Nat} (hn : T.Fits cfg n) (h0 : n ≠ 0) :
    ∃ t, view (hebrewTryFormat cfg T n) = deliver cfg.alloc n t ∧
      (hebrewOwnLetter n ↔ '׳' ∈ t) ∧ (hebrewOwnLetter n ↔ ∃ c, hebrewValue c = n ∧ t = ['׳', c, '״']) := by
  refine ⟨hebrewText n, by rw [C31_text hn, if_neg h0], ?_⟩
  have hs : hebrewOwnLetter n ↔ (hebrewPlain n).length = 1 := by
    constructor
    · intro h
      have hle : n ≤ 400 := by
        obtain ⟨c, hc, rfl⟩ := h
        exact (by decide : ∀ c ∈ hebrewLetters, hebrewValue c ≤ 400) c hc
      exact (hebrew_wrap_below n hle h0).mpr ((hebrewOwn_iff n).mp h)
    · intro h
      exact (hebrewOwn_iff n).mpr ((hebrew_wrap_below n (hebrewPlain_single h) h0).mp h)
  by_cases h : (hebrewPlain n).length = 1
  · have h1 := hs.mpr h
    obtain ⟨c, e⟩ := List.length_eq_one_iff.mp h
    have hsum := hebrewPlain_sum n
    rw [e] at hsum
    refine ⟨iff_of_true h1 (by simp [hebrewText, h]), iff_of_true h1 ⟨c, by simpa [letterSum] using hsum, ?_⟩⟩
    rw [hebrewText, if_pos h, e]; rfl
  · have h1 := mt hs.mp h
    have hg := hebrewPlain_geresh n
    have e : hebrewText n = hebrewPlain n := by rw [hebrewText, if_neg h]
    rw [e]
    refine ⟨iff_of_false h1 hg, iff_of_false h1 ?_⟩
    rintro ⟨c, _, e'⟩
    rw [e'] at hg
    simp at hg

/-- 400 has a letter of its own, 401 has not. -/
example : view (hebrewTryFormat ⟨true, .w64, true⟩ .u16 400) = .ok (['׳', 'ת', '״'], true) ∧ hebrewValue 'ת' = 400 ∧
    view (hebrewTryFormat ⟨true, .w64, true⟩ .u16 401) = .ok (['ת', 'א'], true) := by decide +kernel

theorem hebrewBelow_sorted : ∀ m, m < 400 →
    ((hebrewDigit 2 (m / 100) ++ hebrewBelow100 (m % 100)).filter (· != '״')).Pairwise (fun a b => hebrewValue a ≥ hebrewValue b) ∧
    ∀ c ∈ hebrewDigit 2 (m / 100) ++ hebrewBelow100 (m % 100), hebrewValue c < 400 := by decide +kernel

/-- C33. Apart from the marks, letters appear in non-increasing value order, starting with `n / 400` tavs followed by letters
of smaller value. -/
theorem C33_order {cfg : Cfg} {T : IntTy} {n : Nat} (hn : T.Fits cfg n) (h0 : n ≠ 0) :
    ∃ t rest, view (hebrewTryFormat cfg T n) = deliver cfg.alloc n t ∧
      (t.filter (fun c => c != '׳' && c != '״')) = List.replicate (n / 400) 'ת' ++ rest ∧ (∀ c ∈ rest, hebrewValue c < 400) ∧
      (List.replicate (n / 400) 'ת' ++ rest).Pairwise (fun a b => hebrewValue a ≥ hebrewValue b) := by
  have hb := hebrewBelow_sorted (n % 400) (Nat.mod_lt _ (by omega))
  have hg := hebrewBelow_geresh (n % 400) (Nat.mod_lt _ (by omega))
  refine ⟨hebrewText n, (hebrewDigit 2 (n % 400 / 100) ++ hebrewBelow100 (n % 400 % 100)).filter (· != '״'),
    by rw [C31_text hn, if_neg h0], ?_, ?_, ?_⟩
  · have e : (hebrewText n).filter (fun c => c != '׳' && c != '״') = (hebrewPlain n).filter (fun c => c != '׳' && c != '״') := by
      unfold hebrewText
      split
      · rw [List.filter_append, List.filter_cons]; simp
      · rfl
    rw [e, hebrewPlain_split, List.filter_append]
    congr 1
    · rw [List.filter_replicate]; simp
    · apply List.filter_congr
      intro c hc
      have : c ≠ '׳' := fun h => hg (h ▸ hc)
      simp [this]
  · intro c hc
    exact hb.2 c (List.mem_filter.mp hc).1
  · rw [List.pairwise_append]
    refine ⟨?_, hb.1, fun a ha b hb' => ?_⟩
    · exact List.pairwise_replicate.mpr (.inr (Nat.le_refl _))
    · rw [List.eq_of_mem_replicate ha]
      have := hb.2 b (List.mem_filter.mp hb').1
      have e : hebrewValue 'ת' = 400 := by decide
      omega

/-- 70 is wrapped, 71 is not. -/
example : hebrewOwnLetter 70 ∧ ¬ hebrewOwnLetter 71 := by
  constructor
  · exact ⟨'ע', by decide, by decide⟩
  · rw [hebrewOwn_iff]; decide

end Nominals.Props
