import Verif.Props.Outline
import Verif.Props.LabelOrder
import Verif.Props.Repertoire
import Verif.Spec.Unseparated

/-!
# Property C102: labels written one after another

Vocabulary: `Verif/Spec/Outline.lean` (`Labels`), `Verif/Spec/Unseparated.lean` (`OwnLabels`).
-/

namespace Nominals

open Nominals.Spec

/-! ## Codes that can be read without separators -/

/-- What is left of `u` after the prefix `v`. -/
def strip : List Char → List Char → Option (List Char)
  | [], u => some u
  | _ :: _, [] => none
  | c :: v, d :: u => if c = d then strip v u else none

theorem strip_append (v w : List Char) : strip v (v ++ w) = some w := by
  induction v with
  | nil => rfl
  | cons c v ih => simp [strip, ih]

/-- The test of Sardinas and Patterson: `dangling` has all remainders that a wrong cut can leave, and none of them is empty. -/
def readable (code dangling : List (List Char)) : Bool :=
  code.all (fun v => !v.isEmpty && code.all fun u => match strip v u with | none => true | some w => w.isEmpty || dangling.contains w) &&
  dangling.all fun w => !w.isEmpty && code.all fun c =>
    (match strip c w with | none => true | some r => dangling.contains r) && (match strip w c with | none => true | some r => dangling.contains r)

theorem dangling_stuck {code dangling : List (List Char)} (h : readable code dangling = true) : ∀ (k : Nat) {xs ys : List (List Char)}
    {w : List Char}, xs.length + ys.length ≤ k → (∀ x ∈ xs, x ∈ code) → (∀ y ∈ ys, y ∈ code) → w ∈ dangling →
    xs.flatten = w ++ ys.flatten → False := by
  simp only [readable, Bool.and_eq_true, List.all_eq_true] at h
  intro k
  induction k with
  | zero =>
    intro xs ys w hk hx hy hw e
    have : xs = [] := List.length_eq_zero_iff.1 (by omega)
    subst this
    have h1 := (h.2 w hw).1
    cases w with
    | nil => cases h1
    | cons => simp at e
  | succ k ih =>
    intro xs ys w hk hx hy hw e
    have h1 := h.2 w hw
    cases xs with
    | nil =>
      cases w with
      | nil => cases h1.1
      | cons => simp at e
    | cons c xs =>
      simp only [List.length_cons] at hk
      have h2 := h1.2 c (hx c (by simp))
      have hx' : ∀ x ∈ xs, x ∈ code := fun x m => hx x (List.mem_cons_of_mem _ m)
      rw [List.flatten_cons] at e
      rcases List.append_eq_append_iff.1 e with ⟨r, e1, e2⟩ | ⟨r, e1, e2⟩
      · have h3 := h2.1
        rw [e1, strip_append] at h3
        exact ih (by omega) hx' hy (List.contains_iff_mem.1 h3) e2
      · have h3 := h2.2
        rw [e1, strip_append] at h3
        exact ih (by omega) hy hx' (List.contains_iff_mem.1 h3) e2

theorem readable_inj {code dangling : List (List Char)} (h : readable code dangling = true) : ∀ {xs ys : List (List Char)},
    (∀ x ∈ xs, x ∈ code) → (∀ y ∈ ys, y ∈ code) → xs.flatten = ys.flatten → xs = ys := by
  have h' := h
  simp only [readable, Bool.and_eq_true, List.all_eq_true] at h'
  have ne : ∀ c ∈ code, c ≠ [] := by
    intro c hc e
    have := (h'.1 c hc).1
    rw [e] at this
    cases this
  intro xs
  induction xs with
  | nil =>
    intro ys _ hy e
    cases ys with
    | nil => rfl
    | cons d ys =>
      simp only [List.flatten_nil, List.flatten_cons] at e
      exact absurd (List.append_eq_nil_iff.1 e.symm).1 (ne d (hy d (by simp)))
  | cons c xs ih =>
    intro ys hx hy e
    have hx' : ∀ x ∈ xs, x ∈ code := fun x m => hx x (List.mem_cons_of_mem _ m)
    cases ys with
    | nil =>
      simp only [List.flatten_nil, List.flatten_cons] at e
      exact absurd (List.append_eq_nil_iff.1 e).1 (ne c (hx c (by simp)))
    | cons d ys =>
      have hy' : ∀ y ∈ ys, y ∈ code := fun y m => hy y (List.mem_cons_of_mem _ m)
      simp only [List.flatten_cons] at e
      rcases List.append_eq_append_iff.1 e with ⟨r, e1, e2⟩ | ⟨r, e1, e2⟩
      · have h1 := (h'.1 c (hx c (by simp))).2 d (hy d (by simp))
        rw [e1, strip_append] at h1
        simp only [Bool.or_eq_true] at h1
        rcases h1 with h1 | h1
        · have : r = [] := List.isEmpty_iff.1 h1
          subst this
          simp only [List.append_nil, List.nil_append] at e1 e2
          rw [e1, ih hx' hy' e2]
        · exact (dangling_stuck h _ (Nat.le_refl _) hx' hy' (List.contains_iff_mem.1 h1) e2).elim
      · have h1 := (h'.1 d (hy d (by simp))).2 c (hx c (by simp))
        rw [e1, strip_append] at h1
        simp only [Bool.or_eq_true] at h1
        rcases h1 with h1 | h1
        · have : r = [] := List.isEmpty_iff.1 h1
          subst this
          simp only [List.append_nil, List.nil_append] at e1 e2
          rw [e1, ih hx' hy' e2.symm]
        · exact (dangling_stuck h _ (Nat.le_refl _) hy' hx' (List.contains_iff_mem.1 h1) e2).elim

/-! ## The labels -/

/-- The catalogue's text, or else the decimal numeral. -/
def textOr (s : Named) (n : Nat) : List Char :=
  match answer s n with
  | .text t => t
  | _ => Nat.toDigits 10 n

/-- The remainders of the Hebrew labels below 256: a last letter for ones, and the rest of 15 and 16 after their first letter. -/
def hebrewDangling : List (List Char) :=
  [['א'], ['ב'], ['ג'], ['ד'], ['ה'], ['ו'], ['ז'], ['ח'], ['ט'], [gershayim, 'ו'], [gershayim, 'ז']]

theorem hebrew_readable : readable ((List.range 256).map (textOr .hebrew)) hebrewDangling = true := by decide +kernel

theorem circled_readable : readable ((List.range 256).map (textOr .circledNumber)) [] = true := by decide +kernel

theorem circled_own_readable : readable ((List.range 51).map (textOr .circledNumber)) [] = true ∧
    readable ((List.range 11).map (textOr .doubleCircledNumber)) [] = true := by decide +kernel

theorem texts_short : ∀ n < 256, utf8Len (textOr .hebrew n) ≤ 62 ∧ utf8Len (textOr .circledNumber n) ≤ 62 := by decide +kernel

/-- Two pairs of numbers whose labels, written one after another, are the same. -/
def confusable : Named → (Nat × Nat) × (Nat × Nat)
  | .letterUpper | .letterLower => ((0, 26), (26, 0))
  | .greekUpper | .greekLower => ((0, 24), (24, 0))
  | .hiragana | .katakana => ((0, 46), (46, 0))
  | .hiraganaIroha | .katakanaIroha => ((0, 47), (47, 0))
  | .hangeulJamo | .hangeulSyllable => ((0, 14), (14, 0))
  | .cjkHeavenlyStem => ((11, 111), (111, 11))
  | .cjkEarthlyBranch => ((13, 113), (131, 13))
  | .hexUpper | .hexLower => ((1, 16), (17, 0))
  | .romanLower | .romanUpper => ((1, 2), (2, 1))
  | .armenianUpper | .armenianLower | .georgian | .japaneseFormal | .hangeulFormal | .hanjaFormal | .ethiopic => ((100, 11), (110, 1))
  | .japaneseInformal | .hanjaInformal => ((2, 11), (20, 1))
  | .chinese .simplifiedFormal _ | .chinese .traditionalFormal _ => ((100, 11), (110, 1))
  | .chinese _ _ => ((2, 11), (20, 1))
  | .circledNumber => ((51, 151), (511, 51))
  | .doubleCircledNumber => ((11, 111), (111, 11))
  | .hebrew => ((800, 121), (900, 21))
  | _ => ((1, 10), (11, 0))

/-- Whether the labels of two pairs are short and join to the same text. -/
def confused (text : Nat → Option (List Char)) (p q : Nat × Nat) : Bool :=
  match text p.1, text p.2, text q.1, text q.2 with
  | some a, some b, some c, some d =>
    decide (utf8Len a ≤ 62 ∧ utf8Len b ≤ 62 ∧ utf8Len c ≤ 62 ∧ utf8Len d ≤ 62 ∧ a ++ b = c ++ d)
  | _, _, _, _ => false

/-- The catalogue's text. -/
def ownText (s : Named) (n : Nat) : Option (List Char) :=
  match answer s n with
  | .text t => some t
  | _ => none

/-- A bound on the numbers of `confusable`. -/
def confusableBound : Named → Nat
  | .circledNumber | .hebrew => 1024
  | _ => 256

/-- The two systems of single symbols. -/
def isCircled : Named → Bool
  | .circledNumber | .doubleCircledNumber => true
  | _ => false

theorem confusable_spec (s : Named) : (confusable s).1 ≠ (confusable s).2 ∧
    ((confusable s).1.1 < confusableBound s ∧ (confusable s).1.2 < confusableBound s ∧
      (confusable s).2.1 < confusableBound s ∧ (confusable s).2.2 < confusableBound s) ∧
    confused (fun n => some (textOr s n)) (confusable s).1 (confusable s).2 = true ∧
    (isCircled s = false → confused (ownText s) (confusable s).1 (confusable s).2 = true) := by
  cases s with
  | chinese k o =>
    obtain ⟨u, a⟩ := o
    cases u <;> cases k <;> cases a <;> decide +kernel
  | _ => decide +kernel

theorem bits_wide (cfg : Cfg) {T : IntTy} (h : T ≠ .u8) : 1024 ≤ 2 ^ T.bits cfg := by
  cases T <;> simp [IntTy.bits] at h ⊢
  cases cfg.ptr <;> simp [PtrWidth.bits]

theorem view_of_string {ε : Type} {r : Res ε NStr} {x : NStr} {t : List Char} (h : r = .ok x) (hx : x.asStr = some t) :
    ∃ i, view r = .ok (t, i) := by
  subst h
  simp only [view, Res.bind_ok, hx]
  exact ⟨_, rfl⟩

end Nominals

namespace Nominals.Props

open Nominals Nominals.Spec

/-- A short text of the catalogue, or the decimal numeral, is what `to_nominal` writes. -/
theorem to_nominal_textOr {cfg : Cfg} {T : IntTy} {n : Nat} {s : Named} (hn : T.Fits cfg n) (hl : utf8Len (textOr s n) ≤ 62) :
    ∃ i, view (toNominal cfg T n s.system) = .ok (textOr s n, i) := by
  unfold textOr at hl ⊢
  cases ha : answer s n with
  | text t =>
    rw [ha] at hl
    obtain ⟨x, hx, tx⟩ := (named_label hn ha hl).2
    exact view_of_string hx tx
  | noZero =>
    have hc := C51_catalogue (cfg := cfg) (T := T) s hn
    rw [ha] at hc
    rcases C41_always_succeeds (cfg := cfg) (T := T) s hn with ⟨x, a1, -⟩ | ⟨e, -, a2⟩
    · rw [a1] at hc; cases hc
    · exact ⟨_, a2⟩
  | outOfBounds =>
    have hc := C51_catalogue (cfg := cfg) (T := T) s hn
    rw [ha] at hc
    rcases C41_always_succeeds (cfg := cfg) (T := T) s hn with ⟨x, a1, -⟩ | ⟨e, -, a2⟩
    · rw [a1] at hc; cases hc
    · exact ⟨_, a2⟩

theorem own_labels {cfg : Cfg} {T : IntTy} {style : Nat → Named} {k : Nat} {ns : List Nat} {ts : List (List Char)}
    (h : OwnLabels cfg T style k ns ts) : Labels cfg T style k ns ts := by
  induction h with
  | nil => exact .nil _
  | cons k hn hv _ ih =>
    rcases C41_always_succeeds (cfg := cfg) (T := T) (style k) hn with ⟨x, a1, a2⟩ | ⟨e, a1, -⟩
    · rw [hv] at a1
      cases a1
      exact .cons k hn a2 ih
    · rw [hv] at a1; cases a1

theorem labels_code {cfg : Cfg} {s : Named} (hl : ∀ n < 256, utf8Len (textOr s n) ≤ 62) {k : Nat} {ns : List Nat} {ts : List (List Char)}
    (h : Labels cfg .u8 (fun _ => s) k ns ts) : ∀ t ∈ ts, t ∈ (List.range 256).map (textOr s) := by
  induction h with
  | nil => simp
  | cons k hn hv _ ih =>
    intro t ht
    rcases List.mem_cons.1 ht with rfl | ht
    · obtain ⟨i, hi⟩ := to_nominal_textOr hn (hl _ hn)
      rw [hi] at hv
      cases hv
      exact List.mem_map.2 ⟨_, List.mem_range.2 hn, rfl⟩
    · exact ih t ht

theorem own_code {cfg : Cfg} {T : IntTy} {s : Named} {b : Nat} (hb : ∀ n t, answer s n = .text t → n < b) {k : Nat} {ns : List Nat}
    {ts : List (List Char)} (h : OwnLabels cfg T (fun _ => s) k ns ts) : ∀ t ∈ ts, t ∈ (List.range b).map (textOr s) := by
  induction h with
  | nil => simp
  | @cons k n ns t ts i hn hv _ ih =>
    intro u ht
    rcases List.mem_cons.1 ht with rfl | ht
    · rw [C51_catalogue s hn] at hv
      have ha := present_text hv
      refine List.mem_map.2 ⟨n, List.mem_range.2 (hb _ _ ha), ?_⟩
      unfold textOr
      rw [ha]
    · exact ih u ht

theorem confused_own {cfg : Cfg} {T : IntTy} {s : Named} (hb : confusableBound s ≤ 2 ^ T.bits cfg)
    (h1 : isCircled s = false) :
    ∃ ns ms ts us, OwnLabels cfg T (fun _ => s) 0 ns ts ∧ OwnLabels cfg T (fun _ => s) 0 ms us ∧ ts.flatten = us.flatten ∧ ns ≠ ms := by
  obtain ⟨hd, ⟨b1, b2, b3, b4⟩, -, hc⟩ := confusable_spec s
  have hc := hc h1
  generalize confusable s = w at *
  obtain ⟨⟨a, b⟩, c, d⟩ := w
  simp only at hd b1 b2 b3 b4
  unfold confused at hc
  split at hc
  · next t1 t2 t3 t4 e1 e2 e3 e4 =>
    obtain ⟨l1, l2, l3, l4, e⟩ := of_decide_eq_true hc
    have key : ∀ {n : Nat} {t : List Char}, n < confusableBound s → ownText s n = some t → utf8Len t ≤ 62 →
        T.Fits cfg n ∧ ∃ i, view (tryToNominal cfg T n s.system) = .ok (t, i) := by
      intro n t hn ht hl
      have hf : T.Fits cfg n := Nat.lt_of_lt_of_le hn hb
      refine ⟨hf, ?_⟩
      have ha : answer s n = .text t := by
        unfold ownText at ht
        split at ht
        · next ha => cases ht; exact ha
        · cases ht
      obtain ⟨x, hx, tx⟩ := (named_label hf ha hl).1
      exact view_of_string hx tx
    obtain ⟨f1, i1, v1⟩ := key b1 e1 l1
    obtain ⟨f2, i2, v2⟩ := key b2 e2 l2
    obtain ⟨f3, i3, v3⟩ := key b3 e3 l3
    obtain ⟨f4, i4, v4⟩ := key b4 e4 l4
    refine ⟨[a, b], [c, d], [t1, t2], [t3, t4], .cons _ f1 v1 (.cons _ f2 v2 (.nil _)), .cons _ f3 v3 (.cons _ f4 v4 (.nil _)), ?_, ?_⟩
    · simpa using e
    · intro h
      simp only [List.cons.injEq, and_true] at h
      exact hd (by rw [h.1, h.2])
  · cases hc

theorem confused_to_nominal {cfg : Cfg} {T : IntTy} {s : Named} (hb : confusableBound s ≤ 2 ^ T.bits cfg) :
    ∃ ns ms ts us, Labels cfg T (fun _ => s) 0 ns ts ∧ Labels cfg T (fun _ => s) 0 ms us ∧ ts.flatten = us.flatten ∧ ns ≠ ms := by
  obtain ⟨hd, ⟨b1, b2, b3, b4⟩, hc, -⟩ := confusable_spec s
  generalize confusable s = w at *
  obtain ⟨⟨a, b⟩, c, d⟩ := w
  simp only at hd b1 b2 b3 b4
  simp only [confused] at hc
  obtain ⟨l1, l2, l3, l4, e⟩ := of_decide_eq_true hc
  have f1 : T.Fits cfg a := Nat.lt_of_lt_of_le b1 hb
  have f2 : T.Fits cfg b := Nat.lt_of_lt_of_le b2 hb
  have f3 : T.Fits cfg c := Nat.lt_of_lt_of_le b3 hb
  have f4 : T.Fits cfg d := Nat.lt_of_lt_of_le b4 hb
  obtain ⟨i1, v1⟩ := to_nominal_textOr f1 l1
  obtain ⟨i2, v2⟩ := to_nominal_textOr f2 l2
  obtain ⟨i3, v3⟩ := to_nominal_textOr f3 l3
  obtain ⟨i4, v4⟩ := to_nominal_textOr f4 l4
  refine ⟨[a, b], [c, d], [textOr s a, textOr s b], [textOr s c, textOr s d], .cons _ f1 v1 (.cons _ f2 v2 (.nil _)),
    .cons _ f3 v3 (.cons _ f4 v4 (.nil _)), ?_, ?_⟩
  · simpa using e
  · intro h
    simp only [List.cons.injEq, and_true] at h
    exact hd (by rw [h.1, h.2])

/-- C102. The system's own labels, written one after another without anything between them, determine the numbers and how many there are
if and only if the system is `CircledNumber` or `DoubleCircledNumber`, or the numbers are `u8` and the system is `Hebrew`. In every other case
two different pairs of numbers give the same text. -/
theorem C102_own {cfg : Cfg} {T : IntTy} (s : Named) :
    (∀ ns ms ts us, OwnLabels cfg T (fun _ => s) 0 ns ts → OwnLabels cfg T (fun _ => s) 0 ms us → ts.flatten = us.flatten → ns = ms) ↔
      s = .circledNumber ∨ s = .doubleCircledNumber ∨ T = .u8 ∧ s = .hebrew := by
  have hb := bits_ge cfg T
  constructor
  · intro h
    refine Classical.byContradiction fun hs => ?_
    simp only [not_or, not_and] at hs
    obtain ⟨h1, h2, h3⟩ := hs
    have hw : confusableBound s ≤ 2 ^ T.bits cfg := by
      by_cases hT : T = .u8
      · have := h3 hT
        cases s <;> first | exact hb | contradiction
      · have := bits_wide cfg hT
        cases s <;> first | exact this | exact hb
    obtain ⟨ns, ms, ts, us, o1, o2, e, hd⟩ := confused_own hw (by cases s <;> first | rfl | contradiction)
    exact hd (h ns ms ts us o1 o2 e)
  · intro hs ns ms ts us o1 o2 e
    have : ts = us := by
      rcases hs with rfl | rfl | ⟨rfl, rfl⟩
      · have hn : ∀ n t, answer .circledNumber n = .text t → n < 51 := by
          intro n t h
          simp only [answer] at h
          split at h
          · omega
          · cases h
        exact readable_inj circled_own_readable.1 (own_code hn o1) (own_code hn o2) e
      · have hn : ∀ n t, answer .doubleCircledNumber n = .text t → n < 11 := by
          intro n t h
          simp only [answer] at h
          split at h
          · cases h
          · split at h
            · omega
            · cases h
        exact readable_inj circled_own_readable.2 (own_code hn o1) (own_code hn o2) e
      · exact readable_inj hebrew_readable (labels_code (fun n hn => (texts_short n hn).1) (own_labels o1))
          (labels_code (fun n hn => (texts_short n hn).1) (own_labels o2)) e
    subst this
    exact labels_inj (own_labels o1) (own_labels o2)

/-- 120, 15 and 129 in Hebrew: the first two labels begin with the third, but nothing begins with what is left. -/
example : OwnLabels ⟨true, .w64, true⟩ .u8 (fun _ => .hebrew) 0 [120, 15] [['ק', 'כ'], ['ט', gershayim, 'ו']] ∧
    view (tryToNominal ⟨true, .w64, true⟩ .u8 129 Named.hebrew.system) = .ok (['ק', 'כ', 'ט'], true) :=
  ⟨.cons 0 (i := true) (by decide) (by decide +kernel) (.cons 1 (i := true) (by decide) (by decide +kernel) (.nil _)), by decide +kernel⟩

/-- C102. With the decimal fallback of `to_nominal`, the labels written one after another determine the numbers if and only if the numbers are
`u8` and the system is `CircledNumber` or `Hebrew`. -/
theorem C102_to_nominal {cfg : Cfg} {T : IntTy} (s : Named) :
    (∀ ns ms ts us, Labels cfg T (fun _ => s) 0 ns ts → Labels cfg T (fun _ => s) 0 ms us → ts.flatten = us.flatten → ns = ms) ↔
      T = .u8 ∧ (s = .circledNumber ∨ s = .hebrew) := by
  have hb := bits_ge cfg T
  constructor
  · intro h
    refine Classical.byContradiction fun hs => ?_
    have hw : confusableBound s ≤ 2 ^ T.bits cfg := by
      by_cases hT : T = .u8
      · cases s <;> first | exact hb | exact absurd ⟨hT, by simp⟩ hs
      · have := bits_wide cfg hT
        cases s <;> first | exact this | exact hb
    obtain ⟨ns, ms, ts, us, o1, o2, e, hd⟩ := confused_to_nominal (s := s) hw
    exact hd (h ns ms ts us o1 o2 e)
  · rintro ⟨rfl, hs⟩ ns ms ts us o1 o2 e
    have : ts = us := by
      rcases hs with rfl | rfl
      · exact readable_inj circled_readable (labels_code (fun n hn => (texts_short n hn).2) o1)
          (labels_code (fun n hn => (texts_short n hn).2) o2) e
      · exact readable_inj hebrew_readable (labels_code (fun n hn => (texts_short n hn).1) o1)
          (labels_code (fun n hn => (texts_short n hn).1) o2) e
    subst this
    exact labels_inj o1 o2

/-- A circled number and two numbers without one. -/
example : Labels ⟨false, .w64, true⟩ .u8 (fun _ => .circledNumber) 0 [50, 51, 151] [['㊿'], ['5', '1'], ['1', '5', '1']] :=
  .cons 0 (i := true) (by decide) (by decide +kernel) (.cons 1 (i := true) (by decide) (by decide +kernel)
    (.cons 2 (i := true) (by decide) (by decide +kernel) (.nil _)))

/-! ## Changing systems -/

/-- A cut is determined if what follows it does not begin with a character of the words before it. -/
theorem cut_unique {P : Char → Prop} : ∀ {t u a b : List Char}, (∀ c ∈ t, P c) → (∀ c ∈ u, P c) → (∀ c ∈ a.head?, ¬P c) →
    (∀ c ∈ b.head?, ¬P c) → t ++ a = u ++ b → t = u ∧ a = b
  | [], [], _, _, _, _, _, _, h => ⟨rfl, by simpa using h⟩
  | [], x :: u, a, b, _, hu, ha, _, h => by
    simp only [List.nil_append] at h
    exact absurd (hu x (by simp)) (ha x (by simp [h]))
  | x :: t, [], a, b, ht, _, _, hb, h => by
    simp only [List.nil_append] at h
    exact absurd (ht x (by simp)) (hb x (by simp [← h]))
  | x :: t, y :: u, a, b, ht, hu, ha, hb, h => by
    simp only [List.cons_append, List.cons.injEq] at h
    have := cut_unique (fun c m => ht c (List.mem_cons_of_mem _ m)) (fun c m => hu c (List.mem_cons_of_mem _ m)) ha hb h.2
    exact ⟨by rw [h.1, this.1], this.2⟩

/-- Words whose characters all have the property of their depth, while no word begins with a character that has that of the depth before. -/
def Good (P : Nat → Char → Prop) : Nat → List (List Char) → Prop
  | _, [] => True
  | k, t :: ts => t ≠ [] ∧ (∀ c ∈ t, P k c) ∧ (∀ c ∈ ts.flatten.head?, ¬P k c) ∧ Good P (k + 1) ts

theorem good_inj {P : Nat → Char → Prop} : ∀ {k : Nat} {ts us : List (List Char)}, Good P k ts → Good P k us → ts.flatten = us.flatten → ts = us
  | _, [], [], _, _, _ => rfl
  | _, [], u :: us, _, hu, h => by
    simp only [List.flatten_nil, List.flatten_cons] at h
    exact absurd (List.append_eq_nil_iff.1 h.symm).1 hu.1
  | _, t :: ts, [], ht, _, h => by
    simp only [List.flatten_nil, List.flatten_cons] at h
    exact absurd (List.append_eq_nil_iff.1 h).1 ht.1
  | k, t :: ts, u :: us, ht, hu, h => by
    simp only [List.flatten_cons] at h
    obtain ⟨e1, e2⟩ := cut_unique ht.2.1 hu.2.1 ht.2.2.1 hu.2.2.1 h
    rw [e1, good_inj ht.2.2.2 hu.2.2.2 e2]

theorem head_flatten {P : Char → Prop} {t : List Char} {ts : List (List Char)} (hn : t ≠ []) (h : ∀ c ∈ t.head?, P c) :
    ∀ c ∈ (t :: ts).flatten.head?, P c := by
  cases t with
  | nil => exact absurd rfl hn
  | cons x t => exact h

theorem labels_good {cfg : Cfg} {T : IntTy} {style : Nat → Named} {P : Nat → Char → Prop}
    (hP : ∀ k n t i, T.Fits cfg n → view (toNominal cfg T n (style k).system) = .ok (t, i) →
      (∀ c ∈ t, P k c) ∧ (∀ j, k = j + 1 → ∀ c ∈ t.head?, ¬P j c)) {k : Nat} {ns : List Nat} {ts : List (List Char)}
    (h : Labels cfg T style k ns ts) : Good P k ts := by
  induction h with
  | nil => trivial
  | cons k hn hv hr ih =>
    refine ⟨(C65_never_empty _ hn).2 hv, (hP _ _ _ _ hn hv).1, ?_, ih⟩
    cases hr with
    | nil => intro c hc; cases hc
    | cons _ hm hw _ => exact head_flatten ((C65_never_empty _ hm).2 hw) ((hP _ _ _ _ hm hw).2 k rfl)

/-- C102. Where no label of a depth begins with a character the depth before uses, separators are not needed: the labels written one
after another determine the numbers and how many there are. `P k` is any property of characters that all characters of labels of depth `k`
have, and no first character of a label of depth `k + 1`. -/
theorem C102_alternating {cfg cfg' : Cfg} {T T' : IntTy} {style : Nat → Named} {P : Nat → Char → Prop}
    (hP : ∀ k n t i, T.Fits cfg n → view (toNominal cfg T n (style k).system) = .ok (t, i) →
      (∀ c ∈ t, P k c) ∧ (∀ j, k = j + 1 → ∀ c ∈ t.head?, ¬P j c))
    (hP' : ∀ k n t i, T'.Fits cfg' n → view (toNominal cfg' T' n (style k).system) = .ok (t, i) →
      (∀ c ∈ t, P k c) ∧ (∀ j, k = j + 1 → ∀ c ∈ t.head?, ¬P j c))
    {k : Nat} {ns ms : List Nat} {ts us : List (List Char)} (h1 : Labels cfg T style k ns ts) (h2 : Labels cfg' T' style k ms us)
    (h : ts.flatten = us.flatten) : ns = ms := by
  have := good_inj (labels_good hP h1) (labels_good hP' h2) h
  subst this
  exact labels_inj h1 h2

/-- For instance digits and letters by turns. -/
example {cfg : Cfg} : ∀ k n t i, IntTy.u8.Fits cfg n →
    view (toNominal cfg .u8 n (if k % 2 = 0 then Named.decimal else .letterLower).system) = .ok (t, i) →
      (∀ c ∈ t, c.isDigit = decide (k % 2 = 0)) ∧ (∀ j, k = j + 1 → ∀ c ∈ t.head?, ¬c.isDigit = decide (j % 2 = 0)) := by
  have texts : ∀ n < 256, (utf8Len (textOr .decimal n) ≤ 62 ∧ ∀ c ∈ textOr .decimal n, c.isDigit = true) ∧
      utf8Len (textOr .letterLower n) ≤ 62 ∧ ∀ c ∈ textOr .letterLower n, c.isDigit = false := by decide +kernel
  intro k n t i hn hv
  have key : ∀ c ∈ t, c.isDigit = decide (k % 2 = 0) := by
    by_cases hk : k % 2 = 0
    · rw [if_pos hk] at hv
      obtain ⟨h1, h2⟩ := (texts n hn).1
      obtain ⟨j, hj⟩ := to_nominal_textOr hn h1
      rw [hj] at hv
      cases hv
      simpa [hk] using h2
    · rw [if_neg hk] at hv
      obtain ⟨h1, h2⟩ := (texts n hn).2
      obtain ⟨j, hj⟩ := to_nominal_textOr hn h1
      rw [hj] at hv
      cases hv
      simpa [hk] using h2
  refine ⟨key, ?_⟩
  rintro j rfl c hc e
  have := key c (List.mem_of_mem_head? hc)
  rw [e] at this
  have := decide_eq_decide.1 this
  omega

theorem own_good {cfg : Cfg} {T : IntTy} {style : Nat → Named} (hd : ∀ k, ∀ c ∈ repertoire (style (k + 1)), c ∉ repertoire (style k))
    {k : Nat} {ns : List Nat} {ts : List (List Char)} (h : OwnLabels cfg T style k ns ts) : Good (fun k c => c ∈ repertoire (style k)) k ts := by
  induction h with
  | nil => trivial
  | cons k hn hv hr ih =>
    refine ⟨(C65_never_empty _ hn).1 hv, C66_repertoire _ hn hv, ?_, ih⟩
    cases hr with
    | nil => intro c hc; cases hc
    | cons _ hm hw _ =>
      exact head_flatten ((C65_never_empty _ hm).1 hw) fun c hc => hd k c (C66_repertoire _ hm hw c (List.mem_of_mem_head? hc))

/-- C102. The systems' own labels need no separators if the systems of neighbouring depths have no character in common. -/
theorem C102_alternating_own {cfg cfg' : Cfg} {T T' : IntTy} {style : Nat → Named}
    (hd : ∀ k, ∀ c ∈ repertoire (style (k + 1)), c ∉ repertoire (style k))
    {ns ms : List Nat} {ts us : List (List Char)} (h1 : OwnLabels cfg T style 0 ns ts) (h2 : OwnLabels cfg' T' style 0 ms us)
    (h : ts.flatten = us.flatten) : ns = ms := by
  have := good_inj (own_good hd h1) (own_good hd h2) h
  subst this
  exact labels_inj (own_labels h1) (own_labels h2)

/-- Sections such as 12b3. -/
example : (∀ k, ∀ c ∈ repertoire (if (k + 1) % 2 = 0 then .decimal else .letterLower),
      c ∉ repertoire (if k % 2 = 0 then .decimal else .letterLower)) ∧
    OwnLabels ⟨true, .w64, true⟩ .u32 (fun k => if k % 2 = 0 then .decimal else .letterLower) 0 [12, 1, 3] [['1', '2'], ['b'], ['3']] := by
  constructor
  · intro k
    rcases Nat.mod_two_eq_zero_or_one k with h | h
    · rw [if_neg (by omega), if_pos h]; decide +kernel
    · rw [if_pos (by omega), if_neg (by omega)]; decide +kernel
  · exact .cons 0 (i := true) (by decide) (by decide +kernel) (.cons 1 (i := true) (by decide) (by decide +kernel)
      (.cons 2 (i := true) (by decide) (by decide +kernel) (.nil _)))

end Nominals.Props
