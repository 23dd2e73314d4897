import Verif.Props.LabelOrder
import Verif.Props.Width
import Verif.Spec.Widest

/-!
# Property C101: in which systems the last label is the widest

Vocabulary: `Verif/Spec/Widest.lean` (`growingSystems`).
-/

namespace Nominals

open Nominals.Spec

/-- Neither the characters nor the bytes of the texts get fewer. -/
def Grows (f : Nat → Answer) : Prop :=
  ∀ n m t u, n ≤ m → f n = .text t → f m = .text u → t.length ≤ u.length ∧ utf8Len t ≤ utf8Len u

theorem grows_uniform {f : Nat → Answer} {w : Nat} (h : ∀ n t, f n = .text t → utf8Len t = w * t.length)
    (hl : ∀ n m t u, n ≤ m → f n = .text t → f m = .text u → t.length ≤ u.length) : Grows f := by
  intro n m t u hnm ht hu
  have := hl n m t u hnm ht hu
  refine ⟨this, ?_⟩
  rw [h n t ht, h m u hu]
  exact Nat.mul_le_mul_left w this

theorem toDigits_mono {b : Nat} (hb : 2 ≤ b) {n m : Nat} (h : n ≤ m) : (Nat.toDigits b n).length ≤ (Nat.toDigits b m).length := by
  have hm : IsNumeral b m _ := loop_numeral hb
  obtain ⟨h1, h2, -⟩ := numeral_length hm
  rw [← List.length_map (f := Nat.digitChar), ← numeral_toDigits hb hm] at h1 h2
  exact (toDigits_width hb).1 h1 (by omega)

theorem column_mono {b : Nat} (hb : 1 ≤ b) {n m : Nat} (h : n ≤ m) : (column b n).length ≤ (column b m).length := by
  obtain ⟨_, h2, _⟩ := column_length hb m
  exact (column_width hb).1 (by omega)

theorem decimal_grows {w : Nat} {f : Char → Char} (hf : ∀ i, i < 10 → (f (Nat.digitChar i)).utf8Size = w) :
    Grows fun n => .text ((Nat.toDigits 10 n).map f) := by
  refine grows_uniform (w := w) (fun n t ht => ?_) fun n m t u h ht hu => ?_
  · cases ht
    rw [(decimal_len hf n).1, List.length_map]
  · cases ht
    cases hu
    rw [List.length_map, List.length_map]
    exact toDigits_mono (by omega) h

theorem hex_grows {f : Char → Char} (hf : ∀ i, i < 16 → (f (Nat.digitChar i)).utf8Size = 1) : Grows fun n => .text ((Nat.toDigits 16 n).map f) := by
  refine grows_uniform (w := 1) (fun n t ht => ?_) fun n m t u h ht hu => ?_
  · cases ht
    refine utf8Len_uniform fun c hc => ?_
    obtain ⟨c', hc', rfl⟩ := List.mem_map.mp hc
    have hn : IsNumeral 16 n _ := loop_numeral (by omega)
    rw [numeral_toDigits (by omega) hn] at hc'
    obtain ⟨i, hi, rfl⟩ := List.mem_map.mp hc'
    exact hf i (hn.digits i hi)
  · cases ht
    cases hu
    rw [List.length_map, List.length_map]
    exact toDigits_mono (by omega) h

theorem column_grows {w : Nat} {al : List Char} (h : ∀ c ∈ al, c.utf8Size = w) (hb : 1 ≤ al.length) : Grows (columnName al) := by
  refine grows_uniform (w := w) (fun n t ht => ?_) fun n m t u hnm ht hu => ?_
  · cases ht
    rw [spell_len h (column_lt hb n), spell, List.length_map]
  · cases ht
    cases hu
    rw [spell, spell, List.length_map, List.length_map]
    exact column_mono hb hnm

theorem series_grows {al : List Char} (h : ∀ i, i < al.length → (al.getD i '?').utf8Size = 3) : Grows (series al) := by
  have hd : ∀ i, i < 10 → ((fun c : Char => ['〇', '一', '二', '三', '四', '五', '六', '七', '八', '九'].getD (c.toNat - '0'.toNat) '?')
      (Nat.digitChar i)).utf8Size = 3 := by decide
  refine grows_uniform (w := 3) (fun n t ht => ?_) fun n m t u hnm ht hu => ?_
  · unfold series at ht
    split at ht
    · cases ht
    · cases ht
      split
      · simp only [utf8Len_cons, utf8Len_nil, List.length_cons, List.length_nil]
        rw [h _ (by omega)]
      · rw [decimalWith, (decimal_len hd n).1, List.length_map]
  · unfold series at ht hu
    split at ht
    · cases ht
    · split at hu
      · cases hu
      · cases ht
        cases hu
        have h1 : ∀ k, 1 ≤ (Nat.toDigits 10 k).length := fun k => by
          have hn : IsNumeral 10 k _ := loop_numeral (by omega)
          have := (numeral_length hn).1
          rw [numeral_toDigits (by omega) hn, List.length_map]
          exact this
        split
        · split
          · exact Nat.le_refl _
          · rw [decimalWith, List.length_map]; exact h1 m
        · rw [if_neg (by omega), decimalWith, decimalWith, List.length_map, List.length_map]
          exact toDigits_mono (by omega) hnm

theorem one_grows {f : Nat → Answer} (h : ∀ n t, f n = .text t → ∃ c : Char, t = [c] ∧ c.utf8Size = 3) : Grows f := by
  intro n m t u _ ht hu
  obtain ⟨c, rfl, hc⟩ := h n t ht
  obtain ⟨d, rfl, hd⟩ := h m u hu
  simp [hc, hd]

theorem growing (s : Named) (hs : s ∈ growingSystems) : Grows (answer s) := by
  have dec : ∀ first, (∀ i, i < 10 → (Char.ofNat (first + ((Nat.digitChar i).toNat - '0'.toNat))).utf8Size = (Char.ofNat first).utf8Size) →
      Grows (decimalFrom first) := fun first h => decimal_grows (w := (Char.ofNat first).utf8Size) h
  cases s with
  | decimal =>
    have := decimal_grows (w := 1) (f := id) (by decide)
    simp only [List.map_id] at this
    exact this
  | easternArabic => exact dec _ (by decide)
  | persian => exact dec _ (by decide)
  | bengali => exact dec _ (by decide)
  | cambodian => exact dec _ (by decide)
  | cjkDecimal => exact decimal_grows (w := 3) (by decide)
  | devanagari => exact dec _ (by decide)
  | gujarati => exact dec _ (by decide)
  | gurmukhi => exact dec _ (by decide)
  | kannada => exact dec _ (by decide)
  | lao => exact dec _ (by decide)
  | malayalam => exact dec _ (by decide)
  | mongolian => exact dec _ (by decide)
  | myanmar => exact dec _ (by decide)
  | oriya => exact dec _ (by decide)
  | tamil => exact dec _ (by decide)
  | telugu => exact dec _ (by decide)
  | thai => exact dec _ (by decide)
  | tibetan => exact dec _ (by decide)
  | letterUpper => exact column_grows (w := 1) (by decide) (by decide)
  | letterLower => exact column_grows (w := 1) (by decide) (by decide)
  | greekUpper => exact column_grows (w := 2) (by decide) (by decide)
  | greekLower => exact column_grows (w := 2) (by decide) (by decide)
  | hiragana => exact column_grows (w := 3) (by decide) (by decide)
  | hiraganaIroha => exact column_grows (w := 3) (by decide) (by decide)
  | katakana => exact column_grows (w := 3) (by decide) (by decide)
  | katakanaIroha => exact column_grows (w := 3) (by decide) (by decide)
  | hangeulJamo => exact column_grows (w := 3) (by decide) (by decide)
  | hangeulSyllable => exact column_grows (w := 3) (by decide) (by decide)
  | cjkHeavenlyStem => exact series_grows (by decide)
  | cjkEarthlyBranch => exact series_grows (by decide)
  | hexUpper => exact hex_grows (by decide)
  | hexLower =>
    have := hex_grows (f := id) (by decide)
    simp only [List.map_id] at this
    exact this
  | circledNumber =>
    refine one_grows fun n t ht => ?_
    simp only [answer] at ht
    split at ht
    · next h =>
      cases ht
      refine ⟨_, rfl, ?_⟩
      have : ∀ n < 51, (Char.ofNat (circled n)).utf8Size = 3 := by decide +kernel
      exact this n (by omega)
    · cases ht
  | doubleCircledNumber =>
    refine one_grows fun n t ht => ?_
    simp only [answer] at ht
    split at ht
    · cases ht
    · split at ht
      · next h =>
        cases ht
        refine ⟨_, rfl, ?_⟩
        have : ∀ n < 11, (Char.ofNat (0x24f5 + (n - 1))).utf8Size = 3 := by decide +kernel
        exact this n (by omega)
      · cases ht
  | _ => simp [growingSystems] at hs

theorem toDigits_pos (k : Nat) : 1 ≤ (Nat.toDigits 10 k).length := by
  have hn : IsNumeral 10 k _ := loop_numeral (by omega)
  have := (numeral_length hn).1
  rw [numeral_toDigits (by omega) hn, List.length_map]
  exact this

/-- The text of the catalogue, or else the decimal numeral. -/
def orDecimal (s : Named) (n : Nat) : List Char :=
  match answer s n with
  | .text t => t
  | _ => Nat.toDigits 10 n

theorem orDecimal_grows (s : Named) (hs : s ∈ growingSystems) {n m : Nat} (h : n ≤ m) : (orDecimal s n).length ≤ (orDecimal s m).length := by
  have both : ∀ {t u}, answer s n = .text t → answer s m = .text u → (orDecimal s n).length ≤ (orDecimal s m).length := by
    intro t u e1 e2
    unfold orDecimal
    rw [e1, e2]
    exact (growing s hs n m t u h e1 e2).1
  have ser : ∀ {al : List Char}, answer s = series al → (orDecimal s n).length ≤ (orDecimal s m).length := by
    intro al e
    by_cases h0 : n = 0
    · subst h0
      have : orDecimal s 0 = Nat.toDigits 10 0 := by unfold orDecimal; rw [e]; rfl
      rw [this]
      show 1 ≤ _
      unfold orDecimal
      rw [e]
      unfold series
      split
      · next e' =>
        split at e'
        · cases e'
        · cases e'
          split
          · simp
          · rw [decimalWith, List.length_map]; exact toDigits_pos m
      · exact toDigits_pos m
    · refine both (t := _) (u := _) (by rw [e, series, if_neg h0]) (by rw [e, series, if_neg (by omega)])
  have one : ∀ {P : Nat → Prop}, (∀ k, P k → (orDecimal s k).length = 1) → (∀ k, ¬ P k → orDecimal s k = Nat.toDigits 10 k) →
      (∀ k, ¬ P k → k ≤ m → k = 0 ∨ ¬ P m) → (orDecimal s n).length ≤ (orDecimal s m).length := by
    intro P h1 h2 h3
    have pos : 1 ≤ (orDecimal s m).length := by
      by_cases hm : P m
      · rw [h1 m hm]; exact Nat.le_refl _
      · rw [h2 m hm]; exact toDigits_pos m
    by_cases hn : P n
    · rw [h1 n hn]; exact pos
    · rcases h3 n hn h with h0 | hm
      · rw [h2 n hn, h0]; exact pos
      · rw [h2 n hn, h2 m hm]; exact toDigits_mono (by omega) h
  cases s with
  | cjkHeavenlyStem => exact ser rfl
  | cjkEarthlyBranch => exact ser rfl
  | circledNumber =>
    refine one (P := fun k => k ≤ 50) (fun k hk => ?_) (fun k hk => ?_) (fun k hk hkm => .inr (by omega))
    · unfold orDecimal; simp only [answer, if_pos hk, List.length_cons, List.length_nil]
    · unfold orDecimal; simp only [answer, if_neg hk]
  | doubleCircledNumber =>
    refine one (P := fun k => k ≠ 0 ∧ k ≤ 10) (fun k hk => ?_) (fun k hk => ?_) (fun k hk hkm => by omega)
    · unfold orDecimal; simp only [answer, if_neg hk.1, if_pos hk.2, List.length_cons, List.length_nil]
    · unfold orDecimal
      simp only [answer]
      by_cases h0 : k = 0
      · rw [if_pos h0]
      · rw [if_neg h0, if_neg (by omega)]
  | romanLower | romanUpper | armenianUpper | armenianLower | georgian | japaneseFormal | japaneseInformal | hangeulFormal | hanjaInformal | hanjaFormal
  | hebrew | ethiopic | chinese k o => simp [growingSystems] at hs
  | _ => exact both rfl rfl

theorem hex_narrow (n : Nat) : (Nat.toDigits 16 n).length ≤ (Nat.toDigits 10 n).length := by
  have hn : IsNumeral 10 n _ := loop_numeral (by omega)
  obtain ⟨h1, h2, -⟩ := numeral_length hn
  rw [← List.length_map (f := Nat.digitChar), ← numeral_toDigits (by omega) hn] at h1 h2
  exact (toDigits_width (by omega)).1 h1 (Nat.lt_of_lt_of_le h2 (Nat.pow_le_pow_left (by omega) _))

theorem column_narrow {b : Nat} (hb : 10 ≤ b) (n : Nat) : (column b n).length ≤ (Nat.toDigits 10 n).length := by
  have hn : IsNumeral 10 n _ := loop_numeral (by omega)
  obtain ⟨h1, h2, -⟩ := numeral_length hn
  rw [← List.length_map (f := Nat.digitChar), ← numeral_toDigits (by omega) hn] at h1 h2
  refine (column_width (by omega)).1 (Nat.lt_of_lt_of_le h2 ?_)
  generalize (Nat.toDigits 10 n).length = k at h1
  obtain ⟨k, rfl⟩ : ∃ j, k = j + 1 := ⟨k - 1, by omega⟩
  have := Nat.pow_le_pow_left hb (k + 1)
  rw [wordsUpTo]
  omega

/-- No text of these systems has more characters than the decimal numeral. -/
theorem narrow (s : Named) (hs : s ∈ growingSystems) {n : Nat} {t : List Char} (h : answer s n = .text t) :
    t.length ≤ (Nat.toDigits 10 n).length := by
  have col : ∀ {al : List Char}, 10 ≤ al.length → columnName al n = .text t → t.length ≤ (Nat.toDigits 10 n).length := by
    intro al hb h
    cases h
    rw [spell, List.length_map]
    exact column_narrow hb n
  have ser : ∀ {al : List Char}, series al n = .text t → t.length ≤ (Nat.toDigits 10 n).length := by
    intro al h
    unfold series at h
    split at h
    · cases h
    · cases h
      split
      · exact toDigits_pos n
      · rw [decimalWith, List.length_map]; exact Nat.le_refl _
  cases s with
  | letterUpper | letterLower | greekUpper | greekLower | hiragana | hiraganaIroha | katakana | katakanaIroha | hangeulJamo | hangeulSyllable =>
    exact col (by decide) h
  | cjkHeavenlyStem | cjkEarthlyBranch => exact ser h
  | hexUpper => cases h; rw [List.length_map]; exact hex_narrow n
  | hexLower => cases h; exact hex_narrow n
  | circledNumber =>
    simp only [answer] at h
    split at h
    · cases h; exact toDigits_pos n
    · cases h
  | doubleCircledNumber =>
    simp only [answer] at h
    split at h
    · cases h
    · split at h
      · cases h; exact toDigits_pos n
      · cases h
  | romanLower | romanUpper | armenianUpper | armenianLower | georgian | japaneseFormal | japaneseInformal | hangeulFormal | hanjaInformal | hanjaFormal
  | hebrew | ethiopic | chinese k o => simp [growingSystems] at hs
  | decimal => cases h; exact Nat.le_refl _
  | cjkDecimal => cases h; rw [decimalWith, List.length_map]; exact Nat.le_refl _
  | _ => simp only [answer, decimalFrom] at h; cases h; rw [List.length_map]; exact Nat.le_refl _

/-- A number and a greater one with a shorter label. -/
def shrinking : Named → Nat × Nat
  | .romanLower | .romanUpper => (3, 4)
  | .armenianUpper => (1, 2)
  | .japaneseInformal | .hanjaInformal | .chinese .simplifiedInformal _ | .chinese .traditionalInformal _ => (21, 30)
  | .hebrew => (1, 11)
  | _ => (11, 20)

/-- Whether the first text is short and has both more characters and more bytes than the second. -/
def shrinks (s : Named) (n m : Nat) : Bool :=
  match answer s n, answer s m with
  | .text t, .text u => decide (utf8Len t ≤ 62 ∧ utf8Len u ≤ 62 ∧ u.length < t.length ∧ utf8Len u < utf8Len t)
  | _, _ => false

theorem shrinking_shrinks (s : Named) (hs : s ∉ growingSystems) :
    (shrinking s).1 ≤ (shrinking s).2 ∧ (shrinking s).2 < 256 ∧ shrinks s (shrinking s).1 (shrinking s).2 = true := by
  cases s with
  | chinese k o =>
    obtain ⟨u, a⟩ := o
    clear hs
    cases u <;> cases k <;> cases a <;> decide +kernel
  | romanLower | romanUpper | armenianUpper | armenianLower | georgian | japaneseFormal | japaneseInformal | hangeulFormal | hanjaInformal | hanjaFormal
  | hebrew | ethiopic => clear hs; decide +kernel
  | _ => exact absurd (by simp [growingSystems]) hs

end Nominals

namespace Nominals.Props

open Nominals.Spec

/-- C101. In a list numbered with `try_to_nominal`, no label is longer than a later one, in characters as well as in bytes, if and only if
the system is made of digits, letters or a series of symbols. In every other system this fails already among the values of `u8`. -/
theorem C101_named {cfg : Cfg} {T : IntTy} (s : Named) :
    ((∀ n m x y t u, T.Fits cfg n → T.Fits cfg m → n ≤ m → tryToNominal cfg T n s.system = .ok x → tryToNominal cfg T m s.system = .ok y →
      x.asStr = some t → y.asStr = some u → t.length ≤ u.length) ↔ s ∈ growingSystems) ∧
    ((∀ n m x y t u, T.Fits cfg n → T.Fits cfg m → n ≤ m → tryToNominal cfg T n s.system = .ok x → tryToNominal cfg T m s.system = .ok y →
      x.asStr = some t → y.asStr = some u → utf8Len t ≤ utf8Len u) ↔ s ∈ growingSystems) := by
  have key : s ∉ growingSystems → ∃ n m x y t u, T.Fits cfg n ∧ T.Fits cfg m ∧ n ≤ m ∧ tryToNominal cfg T n s.system = .ok x ∧
      tryToNominal cfg T m s.system = .ok y ∧ x.asStr = some t ∧ y.asStr = some u ∧ u.length < t.length ∧ utf8Len u < utf8Len t := by
    intro hs
    obtain ⟨h1, h2, h3⟩ := shrinking_shrinks s hs
    generalize (shrinking s).1 = n at h1 h3
    generalize (shrinking s).2 = m at h1 h2 h3
    have hb := bits_ge cfg T
    have hn : T.Fits cfg n := by show n < 2 ^ T.bits cfg; omega
    have hm : T.Fits cfg m := by show m < 2 ^ T.bits cfg; omega
    unfold shrinks at h3
    split at h3
    · next t u e1 e2 =>
      obtain ⟨l1, l2, h4, h5⟩ := of_decide_eq_true h3
      obtain ⟨x, hx, tx⟩ := (named_label hn e1 l1).1
      obtain ⟨y, hy, ty⟩ := (named_label hm e2 l2).1
      exact ⟨n, m, x, y, t, u, hn, hm, h1, hx, hy, tx, ty, h4, h5⟩
    · cases h3
  have good : s ∈ growingSystems → ∀ n m x y t u, T.Fits cfg n → T.Fits cfg m → n ≤ m → tryToNominal cfg T n s.system = .ok x →
      tryToNominal cfg T m s.system = .ok y → x.asStr = some t → y.asStr = some u → t.length ≤ u.length ∧ utf8Len t ≤ utf8Len u := by
    intro hs n m x y t u hn hm hnm hx hy tx ty
    obtain ⟨t', e1, t1⟩ := named_text hn hx
    obtain ⟨u', e2, t2⟩ := named_text hm hy
    rw [t1] at tx
    rw [t2] at ty
    cases tx
    cases ty
    exact growing s hs n m _ _ hnm e1 e2
  refine ⟨⟨fun h => ?_, fun hs n m x y t u hn hm hnm hx hy tx ty => (good hs n m x y t u hn hm hnm hx hy tx ty).1⟩,
    ⟨fun h => ?_, fun hs n m x y t u hn hm hnm hx hy tx ty => (good hs n m x y t u hn hm hnm hx hy tx ty).2⟩⟩
  · refine Classical.byContradiction fun hs => ?_
    obtain ⟨n, m, x, y, t, u, hn, hm, hnm, hx, hy, tx, ty, h4, h5⟩ := key hs
    have := h n m x y t u hn hm hnm hx hy tx ty
    omega
  · refine Classical.byContradiction fun hs => ?_
    obtain ⟨n, m, x, y, t, u, hn, hm, hnm, hx, hy, tx, ty, h4, h5⟩ := key hs
    have := h n m x y t u hn hm hnm hx hy tx ty
    omega

example : Named.hexUpper ∈ growingSystems ∧ Named.romanUpper ∉ growingSystems := by simp [growingSystems]

/-- C101, with fallback. The labels of `to_nominal`, including the decimal numerals it falls back to, do not get shorter (in characters) for
exactly the same systems; also on a build without `alloc`, where long labels are replaced by decimal numerals as well. -/
theorem C101_to_nominal {cfg : Cfg} {T : IntTy} (s : Named) :
    (∀ n m x y t u, T.Fits cfg n → T.Fits cfg m → n ≤ m → toNominal cfg T n s.system = .ok x → toNominal cfg T m s.system = .ok y →
      x.asStr = some t → y.asStr = some u → t.length ≤ u.length) ↔ s ∈ growingSystems := by
  constructor
  · intro h
    refine Classical.byContradiction fun hs => ?_
    obtain ⟨h1, h2, h3⟩ := shrinking_shrinks s hs
    generalize (shrinking s).1 = n at h1 h3
    generalize (shrinking s).2 = m at h1 h2 h3
    have hb := bits_ge cfg T
    have hn : T.Fits cfg n := by show n < 2 ^ T.bits cfg; omega
    have hm : T.Fits cfg m := by show m < 2 ^ T.bits cfg; omega
    unfold shrinks at h3
    split at h3
    · next t u e1 e2 =>
      obtain ⟨l1, l2, h4, -⟩ := of_decide_eq_true h3
      obtain ⟨x, hx, tx⟩ := (named_label hn e1 l1).2
      obtain ⟨y, hy, ty⟩ := (named_label hm e2 l2).2
      have := h n m x y t u hn hm h1 hx hy tx ty
      omega
    · cases h3
  · intro hs n m x y t u hn hm hnm hx hy tx ty
    have key : ∀ {k : Nat} {z : NStr} {v : List Char}, T.Fits cfg k → toNominal cfg T k s.system = .ok z → z.asStr = some v →
        (answer s k = .text v ∧ (cfg.alloc = false → utf8Len v ≤ 62)) ∨ v = Nat.toDigits 10 k ∧
          (v = orDecimal s k ∨ cfg.alloc = false ∧ ∃ w, answer s k = .text w ∧ 62 < utf8Len w) := by
      intro k z v hk hz tz
      have hc := C51_catalogue (cfg := cfg) (T := T) s hk
      rcases to_nominal_text hk hz with ⟨z', hz', e⟩ | ⟨⟨e, he⟩, e'⟩
      · left
        obtain ⟨w, e1, t1⟩ := named_text hk hz'
        rw [e, t1] at tz
        cases tz
        refine ⟨e1, fun ha => ?_⟩
        rw [e1, present, deliver, ha, hz'] at hc
        split at hc
        · assumption
        · simp only [view, Res.bind_ok, t1] at hc
          cases hc
      · right
        rw [e'] at tz
        cases tz
        refine ⟨rfl, ?_⟩
        rw [he] at hc
        unfold orDecimal
        cases ha : answer s k with
        | text w =>
          right
          rw [ha, present, deliver] at hc
          split at hc
          · cases hc
          · split at hc
            · cases hc
            · next h62 hal => exact ⟨by simpa using hal, w, rfl, by omega⟩
        | noZero => exact .inl rfl
        | outOfBounds => exact .inl rfl
    rcases key hn hx tx with ⟨e1, l1⟩ | ⟨e1, o1⟩ <;> rcases key hm hy ty with ⟨e2, l2⟩ | ⟨e2, o2⟩
    · exact (growing s hs n m t u hnm e1 e2).1
    · rw [e2]
      exact Nat.le_trans (narrow s hs e1) (toDigits_mono (by omega) hnm)
    · rcases o1 with o1 | ⟨ha, w, e, hw⟩
      · have := orDecimal_grows s hs hnm
        rw [← o1] at this
        unfold orDecimal at this
        rw [e2] at this
        exact this
      · have := (growing s hs n m w u hnm e e2).2
        have := l2 ha
        omega
    · rw [e1, e2]
      exact toDigits_mono (by omega) hnm

/-- Past the end of `CircledNumber` the decimal fallback is wider: `㊿`, then `51`. -/
example : view (toNominal ⟨true, .w64, true⟩ .u8 50 Named.circledNumber.system) = .ok (['㊿'], true) ∧
    view (toNominal ⟨true, .w64, true⟩ .u8 51 Named.circledNumber.system) = .ok (['5', '1'], true) ∧ Named.circledNumber ∈ growingSystems :=
  ⟨by decide +kernel, by decide +kernel, by simp [growingSystems]⟩

/-- C101, digit collections in general: with a zero digit and at least two digits, or without zero digit, counting from zero or one, no
label has more characters than a later one. -/
theorem C101_digits {cfg : Cfg} {T : IntTy} {d : DigitSys} {al : List Char} {n m : Nat} (hp : Plain cfg d al)
    (hn : T.Fits cfg n) (hm : T.Fits cfg m) (hnm : n ≤ m)
    {x y : NStr} {t u : List Char} (hx : d.tryFormat cfg T n = .ok x) (hy : d.tryFormat cfg T m = .ok y) (tx : x.asStr = some t)
    (ty : y.asStr = some u) : t.length ≤ u.length := by
  have hb1 : 1 ≤ al.length := by
    refine Classical.byContradiction fun h0 => ?_
    rw [C49_empty_collection (cfg := cfg) (T := T) (d := d) (n := n) (.inl hp.fixed) (hp.digits.1.trans (by omega))] at hx
    split at hx <;> cases hx
  cases hz : (d.level 0).hasZero with
  | true =>
    by_cases h1 : al.length = 1
    · obtain ⟨ch, rfl⟩ := List.length_eq_one_iff.mp h1
      have hm0 : m = 0 := by
        refine Classical.byContradiction fun hm0 => ?_
        cases ha : cfg.alloc with
        | true =>
          rw [show d.tryFormat cfg T m = .timeout from C17_one_symbol_diverges ha hp hz hm0 (m + 64) 7] at hy
          cases hy
        | false =>
          rw [show d.tryFormat cfg T m = .err (.outOfMemory m) from
            C17_one_symbol_out_of_memory ha hp hz hm0 (m + 64) 7 (by omega)] at hy
          cases hy
      obtain rfl : n = m := by omega
      rw [hx] at hy
      cases hy
      rw [tx] at ty
      cases ty
      exact Nat.le_refl _
    have hb2 : 2 ≤ al.length := by omega
    obtain ⟨v, h1, e1⟩ := positional hp hz hb2 hn
    obtain ⟨w, h2, e2⟩ := positional hp hz hb2 hm
    rw [hx] at e1
    rw [hy] at e2
    rw [text_of_deliver e1] at tx
    rw [text_of_deliver e2] at ty
    cases tx
    cases ty
    rw [spell, spell, List.length_map, List.length_map]
    obtain ⟨l1, l2, -⟩ := numeral_length h2
    exact (numeral_length h1).2.2 _ l1 (by omega)
  | false =>
    cases h0 : (d.level 0).zeroBased with
    | true =>
      have e1 := C10_columns hp hz h0 hb1 hn
      have e2 := C10_columns hp hz h0 hb1 hm
      rw [hx] at e1
      rw [hy] at e2
      rw [text_of_deliver e1] at tx
      rw [text_of_deliver e2] at ty
      cases tx
      cases ty
      rw [spell, spell, List.length_map, List.length_map]
      exact column_mono hb1 hnm
    | false =>
      obtain ⟨p, rfl, a1, a2⟩ := one_based_word hp hz h0 hb1 hn (view_of_ok hx tx)
      obtain ⟨q, rfl, b1, b2⟩ := one_based_word hp hz h0 hb1 hm (view_of_ok hy ty)
      rw [spell, spell, List.length_map, List.length_map]
      refine column_mono hb1 ?_
      by_cases h : al.length < 2 ^ T.bits cfg
      · have := a2 h; have := b2 h; omega
      · have := a1 (by omega); have := b1 (by omega); omega

/-! ## Concrete cases -/

/-- Eight in Roman numerals is wider than ten; in Devanagari nothing below 1000 is wider than 999. -/
example : view (tryToNominal ⟨false, .w32, true⟩ .u8 8 Named.romanUpper.system) = .ok (['V', 'I', 'I', 'I'], true) ∧
    view (tryToNominal ⟨false, .w32, true⟩ .u8 10 Named.romanUpper.system) = .ok (['X'], true) := by decide +kernel

example (n : Nat) (h : n ≤ 999) {x y : NStr} {t u : List Char} (hx : tryToNominal ⟨false, .w32, true⟩ .u16 n Named.devanagari.system = .ok x)
    (hy : tryToNominal ⟨false, .w32, true⟩ .u16 999 Named.devanagari.system = .ok y) (tx : x.asStr = some t) (ty : y.asStr = some u) :
    t.length ≤ u.length :=
  (C101_named (cfg := ⟨false, .w32, true⟩) (T := .u16) .devanagari).1.mpr (by simp [growingSystems]) n 999 x y t u
    (by show n < 2 ^ 16; omega) (by decide) h hx hy tx ty

end Nominals.Props
