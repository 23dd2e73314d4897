import Verif.Spec.Outline
import Verif.Spec.Display
import Verif.Props.Fallback
import Verif.Props.Display
import Verif.Props.Shape
import Verif.Props.Built

/-!
# Property C87: labels put together

Vocabulary: `Verif/Spec/Outline.lean`, `Verif/Spec/Display.lean`.
-/

namespace Nominals.Props

open Nominals Nominals.Spec

/-! ## Joining -/

theorem split_at_sep {α : Type} {sep : α} : ∀ {t u a b : List α}, sep ∉ t → sep ∉ u → t ++ sep :: a = u ++ sep :: b → t = u ∧ a = b
  | [], [], _, _, _, _, h => by simpa using h
  | [], x :: u, _, _, _, hu, h => by
    simp only [List.nil_append, List.cons_append, List.cons.injEq] at h
    exact absurd h.1 fun e => hu (by simp [e])
  | x :: t, [], _, _, ht, _, h => by
    simp only [List.nil_append, List.cons_append, List.cons.injEq] at h
    exact absurd h.1 fun e => ht (by simp [e])
  | x :: t, y :: u, _, _, ht, hu, h => by
    simp only [List.cons_append, List.cons.injEq] at h
    have := split_at_sep (fun e => ht (by simp [e])) (fun e => hu (by simp [e])) h.2
    exact ⟨by rw [h.1, this.1], this.2⟩

/-- Joining without loss. -/
theorem intercalate_inj {α : Type} {sep : α} : ∀ {ts us : List (List α)}, (∀ t ∈ ts, sep ∉ t ∧ t ≠ []) → (∀ u ∈ us, sep ∉ u ∧ u ≠ []) →
    List.intercalate [sep] ts = List.intercalate [sep] us → ts = us
  | [], [], _, _, _ => rfl
  | [], [u], _, hu, h => by
    simp at h
    exact absurd h (hu u (by simp)).2
  | [], u :: v :: us, _, _, h => by
    rw [List.intercalate_cons_cons] at h
    simp at h
  | [t], [], ht, _, h => by
    simp at h
    exact absurd h (ht t (by simp)).2
  | t :: v :: ts, [], _, _, h => by
    rw [List.intercalate_cons_cons] at h
    simp at h
  | [t], [u], _, _, h => by simpa using h
  | [t], u :: v :: us, ht, _, h => by
    rw [List.intercalate_cons_cons] at h
    simp only [List.intercalate_singleton] at h
    exact absurd (show sep ∈ t by rw [h]; simp) (ht t (by simp)).1
  | t :: v :: ts, [u], _, hu, h => by
    rw [List.intercalate_cons_cons] at h
    simp only [List.intercalate_singleton] at h
    exact absurd (show sep ∈ u by rw [← h]; simp) (hu u (by simp)).1
  | t :: v :: ts, u :: w :: us, ht, hu, h => by
    rw [List.intercalate_cons_cons, List.intercalate_cons_cons] at h
    simp only [List.append_assoc, List.singleton_append] at h
    have := split_at_sep (ht t (by simp)).1 (hu u (by simp)).1 h
    rw [this.1, intercalate_inj (fun x hx => ht x (List.mem_cons_of_mem _ hx)) (fun x hx => hu x (List.mem_cons_of_mem _ hx)) this.2]

/-! ## Outlines -/

theorem neutral_not_mem {cfg : Cfg} {T : IntTy} {n : Nat} {s : Named} (hn : T.Fits cfg n) {t : List Char} {i : Bool}
    (h : view (toNominal cfg T n s.system) = .ok (t, i)) {c : Char} (hc : Neutral c) (hs : c = ' ' → s ≠ .armenianUpper) : c ∉ t := by
  intro hm
  rcases C66_no_punctuation s hn h c hm with h | h | ⟨h, e⟩
  · rw [hc.2] at h; cases h
  · have := hc.1; omega
  · exact hs e h

theorem labels_clean {cfg : Cfg} {T : IntTy} {style : Nat → Named} {sep : Char} (hc : Neutral sep)
    (hs : sep = ' ' → ∀ k, style k ≠ .armenianUpper) {k : Nat} {ns : List Nat} {ts : List (List Char)}
    (h : Labels cfg T style k ns ts) : ∀ t ∈ ts, sep ∉ t ∧ t ≠ [] := by
  induction h with
  | nil => simp
  | cons k hn hv _ ih =>
    intro t ht
    rcases List.mem_cons.1 ht with rfl | ht
    · exact ⟨neutral_not_mem hn hv hc fun e => hs e k, (C65_never_empty _ hn).2 hv⟩
    · exact ih t ht

theorem labels_inj {cfg cfg' : Cfg} {T T' : IntTy} {style : Nat → Named} : ∀ {k : Nat} {ns ms : List Nat} {ts : List (List Char)},
    Labels cfg T style k ns ts → Labels cfg' T' style k ms ts → ns = ms := by
  intro k ns ms ts h
  induction h generalizing ms with
  | nil => intro h'; cases h'; rfl
  | cons k hn hv _ ih =>
    intro h'
    cases h' with
    | cons _ hm hw hr => rw [C75_injective _ hn hm hv hw, ih hr]

/-- C87, part 1. Labels joined by a separator determine the numbers and how many there are, whatever system each depth uses. The separator
is any ASCII character other than letters and digits (not the space where ArmenianUpper is used, whose letter for 1 ends in one).
Across integer types, builds and pointer widths. -/
theorem C87_joined {cfg cfg' : Cfg} {T T' : IntTy} {style : Nat → Named} {sep : Char} (hc : Neutral sep)
    (hs : sep = ' ' → ∀ k, style k ≠ .armenianUpper) {ns ms : List Nat} {ts us : List (List Char)}
    (h1 : Labels cfg T style 0 ns ts) (h2 : Labels cfg' T' style 0 ms us)
    (h : List.intercalate [sep] ts = List.intercalate [sep] us) : ns = ms := by
  have := intercalate_inj (labels_clean hc hs h1) (labels_clean hc hs h2) h
  subst this
  exact labels_inj h1 h2

/-- The labels of section 2.b. -/
example : Labels ⟨true, .w64, true⟩ .u8 (fun k => if k = 0 then .decimal else .letterLower) 0 [2, 1] [['2'], ['b']] ∧ Neutral '.' ∧
    List.intercalate ['.'] [['2'], ['b']] = ['2', '.', 'b'] :=
  ⟨.cons 0 (i := true) (by decide) (by decide +kernel) (.cons 1 (i := true) (by decide) (by decide +kernel) (.nil _)), by decide, rfl⟩

theorem labels_exist {cfg : Cfg} {T : IntTy} {style : Nat → Named} : ∀ (ns : List Nat) (k : Nat), (∀ n ∈ ns, T.Fits cfg n) →
    ∃ ts, Labels cfg T style k ns ts
  | [], k, _ => ⟨[], .nil k⟩
  | n :: ns, k, h => by
    obtain ⟨ts, ih⟩ := labels_exist (cfg := cfg) (T := T) (style := style) ns (k + 1) fun m hm => h m (List.mem_cons_of_mem _ hm)
    have hn := h n (by simp)
    rcases C41_always_succeeds (style k) hn with ⟨⟨t, i⟩, _, hv⟩ | ⟨_, _, hv⟩
    · exact ⟨_, .cons k hn hv ih⟩
    · exact ⟨_, .cons k hn hv ih⟩

theorem view_text {ε : Type} {r : Res ε NStr} {t : List Char} {i : Bool} (h : view r = .ok (t, i)) : ∃ x, r = .ok x ∧ x.asStr = some t := by
  cases r with
  | ok x =>
    refine ⟨x, rfl, ?_⟩
    simp only [view, Res.bind] at h
    split at h
    · rename_i u hu
      injection h with h
      injection h with h1 _
      rw [hu, h1]
    · cases h
  | _ => cases h

theorem intercalate_cons {sep : Char} (t : List Char) (ts : List (List Char)) :
    List.intercalate [sep] (t :: ts) = t ++ ts.flatMap (sep :: ·) := by
  induction ts generalizing t with
  | nil => simp
  | cons u us ih => rw [List.intercalate_cons_cons, ih]; simp

/-- The labels that are still to be written, each with the separator before it; the very first without. -/
theorem outline_del {cfg : Cfg} {T : IntTy} {style : Nat → Named} {sep : Char} {k : Nat} {ns : List Nat} {ts : List (List Char)}
    (h : Labels cfg T style k ns ts) : ∀ {out : NStr} {p : List Char}, out.Is p → (cfg.alloc = true ∨ utf8Len p ≤ 62) →
    Del cfg.alloc OutOfMemoryError.mk (outline cfg T sep style k out ns)
      (p ++ if k = 0 then List.intercalate [sep] ts else ts.flatMap (sep :: ·)) := by
  induction h with
  | nil k =>
    intro out p hp ha
    simp only [outline]
    have : (p ++ if k = 0 then List.intercalate [sep] [] else [].flatMap (sep :: ·)) = p := by split <;> simp
    rw [this]
    exact .ok _ _ hp ha
  | @cons k n ns t ts i hn hv hr ih =>
    intro out p hp ha
    obtain ⟨x, hx, hxt⟩ := view_text hv
    have e : (p ++ if k = 0 then List.intercalate [sep] (t :: ts) else (t :: ts).flatMap (sep :: ·)) =
        (p ++ (if k = 0 then [] else [sep])) ++ t ++ ts.flatMap (sep :: ·) := by
      rw [intercalate_cons]
      split <;> simp
    rw [e]
    have hstep : Del cfg.alloc OutOfMemoryError.mk (if k = 0 then .ok out else out.push cfg sep) (p ++ (if k = 0 then [] else [sep])) := by
      split
      · rw [List.append_nil]; exact .ok _ _ hp ha
      · exact hp.push ha sep
    simp only [outline, hx, hxt]
    refine hstep.bind (by simp) fun s hs hsa => ?_
    refine (hs.pushStr hsa t).bind (by simp) fun s' hs' hsa' => ?_
    have := ih hs' hsa'
    rw [if_neg (Nat.succ_ne_zero k)] at this
    exact this

/-- C87, part 2. The loop that builds the outline number writes exactly the labels joined by the separator: inline up to 62 bytes, on the heap
beyond, or `OutOfMemoryError` in a build without `alloc`. It never panics. -/
theorem C87_outline {cfg : Cfg} {T : IntTy} {style : Nat → Named} {sep : Char} {ns : List Nat} (hn : ∀ n ∈ ns, T.Fits cfg n) :
    ∃ ts, Labels cfg T style 0 ns ts ∧
      view (outline cfg T sep style 0 NStr.new ns) =
        if utf8Len (List.intercalate [sep] ts) ≤ 62 then .ok (List.intercalate [sep] ts, true)
        else if cfg.alloc then .ok (List.intercalate [sep] ts, false) else .err .mk := by
  obtain ⟨ts, h⟩ := labels_exist (cfg := cfg) (T := T) (style := style) ns 0 hn
  refine ⟨ts, h, ?_⟩
  have hd := outline_del (sep := sep) h NStr.new_is (.inr (by simp))
  rw [if_pos rfl, List.nil_append] at hd
  generalize outline cfg T sep style 0 NStr.new ns = r at hd
  generalize List.intercalate [sep] ts = t at hd
  cases hd with
  | ok s t h1 h2 =>
    simp only [view, Res.bind, h1.1.asStr, h1.2]
    by_cases hl : utf8Len t ≤ 62
    · simp [hl]
    · rcases h2 with h2 | h2
      · simp [hl, h2]
      · exact absurd h2 hl
  | err t h1 h2 =>
    rw [if_neg (by omega), h1]
    rfl

/-- Three Roman numerals of 8888 fit into the inline buffer (18 bytes each), four do not; without `alloc` the error is reported. -/
example : (∀ n ∈ [8888, 8888, 8888, 8888], IntTy.u16.Fits ⟨false, .w32, true⟩ n) ∧
    view (outline ⟨false, .w32, true⟩ .u16 '.' (fun _ => .romanUpper) 0 NStr.new [8888, 8888, 8888, 8888]) = .err .mk := by decide +kernel

theorem toNominal_types {cfg : Cfg} {T T' : IntTy} {n : Nat} (s : Named) (h : T.Fits cfg n) (h' : T'.Fits cfg n) :
    view (toNominal cfg T n s.system) = view (toNominal cfg T' n s.system) := by
  have hc := C20_integer_type s rfl h h'
  rcases C41_always_succeeds s h with ⟨x, a1, a2⟩ | ⟨e, a1, a2⟩ <;> rcases C41_always_succeeds s h' with ⟨y, b1, b2⟩ | ⟨e', b1, b2⟩
  · rw [a1, b1] at hc
    injection hc with hc
    rw [a2, b2, hc]
  · rw [a1, b1] at hc; cases hc
  · rw [a1, b1] at hc; cases hc
  · rw [a2, b2]

theorem labels_same {cfg : Cfg} {T T' : IntTy} {style : Nat → Named} {k : Nat} {ns : List Nat} {ts us : List (List Char)}
    (h : Labels cfg T style k ns ts) (h' : Labels cfg T' style k ns us) : ts = us := by
  induction h generalizing us with
  | nil => cases h'; rfl
  | cons k hn hv _ ih =>
    cases h' with
    | cons _ hm hw hr =>
      rw [toNominal_types _ hn hm, hw] at hv
      injection hv with hv
      injection hv with hv _
      rw [hv, ih hr]

/-- C87, part 3. Two outline numbers built this way compare equal with `==` only if they come from the same numbers. -/
theorem C87_outline_eq {cfg : Cfg} {T T' : IntTy} {style : Nat → Named} {sep : Char} (hc : Neutral sep)
    (hs : sep = ' ' → ∀ k, style k ≠ .armenianUpper) {ns ms : List Nat} (hn : ∀ n ∈ ns, T.Fits cfg n) (hm : ∀ n ∈ ms, T'.Fits cfg n)
    {x y : NStr} (hx : outline cfg T sep style 0 NStr.new ns = .ok x) (hy : outline cfg T' sep style 0 NStr.new ms = .ok y) :
    x.eq y = some true ↔ ns = ms := by
  obtain ⟨ts, h1⟩ := labels_exist (cfg := cfg) (T := T) (style := style) ns 0 hn
  obtain ⟨us, h2⟩ := labels_exist (cfg := cfg) (T := T') (style := style) ms 0 hm
  have d1 := outline_del (sep := sep) h1 NStr.new_is (.inr (by simp))
  have d2 := outline_del (sep := sep) h2 NStr.new_is (.inr (by simp))
  rw [if_pos rfl, List.nil_append] at d1 d2
  rw [hx] at d1
  rw [hy] at d2
  cases d1 with
  | ok _ _ i1 _ =>
    cases d2 with
    | ok _ _ i2 _ =>
      have e : x.eq y = some (decide (List.intercalate [sep] ts = List.intercalate [sep] us)) := by
        have h1 := i1.1.strBytes
        have h2 := i2.1.strBytes
        generalize List.intercalate [sep] ts = t at h1
        generalize List.intercalate [sep] us = u at h2
        have h3 : (utf8Encode t == utf8Encode u) = decide (t = u) := by
          rw [Bool.eq_iff_iff]
          simp only [beq_iff_eq, decide_eq_true_eq]
          exact ⟨fun h => utf8Encode_injective h, fun h => by rw [h]⟩
        simp [NStr.eq, h1, h2, h3]
      rw [e]
      constructor
      · intro h
        exact C87_joined hc hs h1 h2 (by simpa using h)
      · rintro rfl
        simp [labels_same h1 h2]

/-- Section 2.b.IV, with `Decimal`, `LetterLower` and `RomanUpper`; a depth where the system has no text falls back to decimal digits
(51 in circles). -/
example : (outline ⟨false, .w16, true⟩ .u8 '.' (fun k => if k = 0 then .decimal else if k = 1 then .letterLower else .romanUpper) 0 NStr.new
      [2, 1, 4] : Res OutOfMemoryError NStr).bind (fun x => Res.ok x.asStr) = .ok (some ['2', '.', 'b', '.', 'I', 'V']) ∧
    (outline ⟨false, .w16, true⟩ .u8 '-' (fun _ => .circledNumber) 0 NStr.new [3, 51] : Res OutOfMemoryError NStr).bind (fun x => Res.ok x.asStr) =
      .ok (some ['③', '-', '5', '1']) := by decide +kernel

/-- A letter as separator would not do: with `LetterLower`, the labels i and i joined by an x are the label of 6716. -/
example : List.intercalate ['x'] [['i'], ['i']] = ['i', 'x', 'i'] ∧
    view (toNominal ⟨true, .w64, true⟩ .u16 6716 Named.letterLower.system) = .ok (['i', 'x', 'i'], true) ∧ ¬ Neutral 'x' ∧ Neutral '.' := by
  decide +kernel

/-! ## Columns -/

/-- Letters, digits and everything outside ASCII. -/
def isInk (c : Char) : Bool := c.isAlphanum || decide (0x80 ≤ c.toNat)

theorem ink_of_neutral {c : Char} (h : Neutral c) : isInk c = false := by
  have := h.1
  simp [isInk, h.2]
  omega

theorem letterSum_ink (t : List Char) : letterSum armenianValue (t.filter isInk) = letterSum armenianValue t := by
  induction t with
  | nil => rfl
  | cons c t ih =>
    by_cases h : isInk c = true
    · rw [List.filter_cons_of_pos h]
      simp only [letterSum, List.map_cons, List.sum_cons] at ih ⊢
      rw [ih]
    · rw [List.filter_cons_of_neg h, ih]
      have : c.toNat < 0x80 := by
        simp only [isInk, Bool.or_eq_true, decide_eq_true_eq, not_or] at h
        omega
      have h0 : armenianValue c = 0 := by
        unfold armenianValue
        rw [if_neg (by omega), if_neg (by omega)]
      simp [letterSum, h0]

/-- A label can be told from its letters, digits and characters outside ASCII. -/
theorem label_ink {cfg cfg' : Cfg} {T T' : IntTy} {n m : Nat} (s : Named) (hn : T.Fits cfg n) (hm : T'.Fits cfg' m) {t u : List Char} {i j : Bool}
    (h1 : view (toNominal cfg T n s.system) = .ok (t, i)) (h2 : view (toNominal cfg' T' m s.system) = .ok (u, j))
    (h : t.filter isInk = u.filter isInk) : n = m := by
  by_cases ha : s = .armenianUpper
  · subst ha
    have own : ∀ {cfg : Cfg} {T : IntTy} {n : Nat} {t : List Char} {i : Bool}, T.Fits cfg n →
        view (toNominal cfg T n Named.armenianUpper.system) = .ok (t, i) →
        (¬ (∃ c ∈ t.filter isInk, c.isDigit = true) ∧ letterSum armenianValue (t.filter isInk) = n) ∨
        ((∃ c ∈ t.filter isInk, c.isDigit = true) ∧ t.filter isInk = Nat.toDigits 10 n) := by
      intro cfg T n t i hn h
      have vis := C75_fallback_visible .armenianUpper hn h
      rcases C41_always_succeeds .armenianUpper hn with ⟨x, e1, e2⟩ | ⟨e, e1, e2⟩
      · rw [e2] at h
        injection h with h
        subst h
        refine .inl ⟨fun ⟨c, hc, hd⟩ => ?_, ?_⟩
        · obtain ⟨e, he⟩ := vis.1 ⟨⟨c, (List.mem_filter.1 hc).1, hd⟩, by simp, by simp, by simp⟩
          rw [e1] at he
          cases he
        · rw [letterSum_ink]
          exact C29_read_back hn (armenianUpperTryFormat, letterSum armenianValue) (by simp [readableSystems]) t i e1
      · rw [e2] at h
        injection h with h
        injection h with h _
        subst h
        have hf : (Nat.toDigits 10 n).filter isInk = Nat.toDigits 10 n := by
          rw [List.filter_eq_self]
          intro c hc
          have := decimal_isDigit c hc
          simp [isInk, Char.isAlphanum, this]
        rw [hf]
        obtain ⟨c, hc, hd⟩ := (vis.2 ⟨e, e1⟩).1
        exact .inr ⟨⟨c, hc, hd⟩, rfl⟩
    rcases own hn h1 with ⟨a1, a2⟩ | ⟨a1, a2⟩ <;> rcases own hm h2 with ⟨b1, b2⟩ | ⟨b1, b2⟩
    · rw [← a2, ← b2, h]
    · rw [h] at a1; exact absurd b1 a1
    · rw [h] at a1; exact absurd a1 b1
    · rw [a2, b2] at h
      rw [← Nat.ofDigitChars_ten_toDigits (n := n), h, Nat.ofDigitChars_ten_toDigits]
  · have all : ∀ {cfg : Cfg} {T : IntTy} {n : Nat} {t : List Char} {i : Bool}, T.Fits cfg n →
        view (toNominal cfg T n s.system) = .ok (t, i) → t.filter isInk = t := by
      intro cfg T n t i hn h
      rw [List.filter_eq_self]
      intro c hc
      rcases C66_no_punctuation s hn h c hc with h | h | ⟨h, _⟩
      · simp [isInk, h]
      · simp [isInk, h]
      · exact absurd h ha
    rw [all hn h1, all hm h2] at h
    subst h
    exact C75_injective s hn hm h1 h2

/-- C87, part 4. In a table: two labels printed with `{:>8}`, `{:*^12}` and the like - any width, alignment and fill, as long as the fill
is an ASCII character other than letters and digits, and no precision cuts the text - look the same only if they stand for the same
number. The two columns may even differ in width, alignment and fill. -/
theorem C87_columns {cfg cfg' : Cfg} {T T' : IntTy} {n m : Nat} (s : Named) (hn : T.Fits cfg n) (hm : T'.Fits cfg' m) {x y : NStr}
    (hx : toNominal cfg T n s.system = .ok x) (hy : toNominal cfg' T' m s.system = .ok y) {o o' : FmtOpts}
    (hf : Neutral o.fill) (hf' : Neutral o'.fill) (hp : o.precision = none) (hp' : o'.precision = none)
    (h : x.display o = y.display o') : n = m := by
  have ink : ∀ {o : FmtOpts} {t out : List Char}, Neutral o.fill → o.precision = none → LaidOut o t out →
      out.filter isInk = t.filter isInk := by
    rintro o t out hf hp ⟨pre, post, body, rfl, hb, hl, hc, -⟩
    have e : body = t := hb.eq_of_length (by rw [hl, hp]; simp)
    subst e
    have h1 : pre.filter isInk = [] := by
      rw [List.filter_eq_nil_iff]
      intro c hm
      rw [hc c (by simp [hm]), ink_of_neutral hf]
      simp
    have h2 : post.filter isInk = [] := by
      rw [List.filter_eq_nil_iff]
      intro c hm
      rw [hc c (by simp [hm]), ink_of_neutral hf]
      simp
    simp [List.filter_append, h1, h2]
  obtain ⟨t, ht, ⟨out, hd, hlo, -⟩, -⟩ := C70_display ((C80_named s).2 x hx) o
  obtain ⟨u, hu, ⟨out', hd', hlo', -⟩, -⟩ := C70_display ((C80_named s).2 y hy) o'
  rw [hd, hd'] at h
  injection h with h
  subst h
  refine label_ink s hn hm (t := t) (u := u) (i := x.isInline) (j := y.isInline) ?_ ?_ ((ink hf hp hlo).symm.trans (ink hf' hp' hlo'))
  · rw [hx]; simp only [view, Res.bind, ht]
  · rw [hy]; simp only [view, Res.bind, hu]

/-- The space is a fine fill even for ArmenianUpper, whose 1 ends in a space; a digit is not for hexadecimal numbers (`{:0>2}`). -/
example : strDisplay { width := some 4 } ['Ա', ' '] = ['Ա', ' ', ' ', ' '] ∧
    strDisplay { width := some 2, fill := '0', align := some .left } ['1'] = strDisplay { width := some 2 } ['1', '0'] ∧
    Neutral ' ' ∧ ¬ Neutral '0' := by decide

end Nominals.Props
