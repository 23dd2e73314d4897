import Verif.Spec.Display
import Verif.Props.Strings
import Verif.Props.Injective

/-!
# Property C70: printing a `NominalString`
-/

namespace Nominals.Props

open Nominals.Spec

theorem strDisplay_laidOut (o : FmtOpts) (t : List Char) : LaidOut o t (strDisplay o t) := by
  obtain ⟨fill, align, width, precision, alternate, plus, zeros, hex⟩ := o
  generalize hb : fmtCut precision t = b
  have hb1 : b <+: t := by
    subst hb; cases precision with
    | none => exact List.prefix_refl _
    | some p => exact List.take_prefix _ _
  have hb2 : b.length = min (precision.getD t.length) t.length := by
    subst hb; cases precision <;> simp [fmtCut]
  cases width with
  | none =>
    refine ⟨[], [], b, ?_, hb1, hb2, by simp, by simp, ?_⟩
    · simp only [strDisplay, hb, List.nil_append, List.append_nil]
    · cases align with
      | none => rfl
      | some a => cases a <;> simp
  | some w =>
    have e : strDisplay ⟨fill, align, some w, precision, alternate, plus, zeros, hex⟩ t =
      (match align.getD .left with
       | .left => b ++ List.replicate (w - b.length) fill
       | .right => List.replicate (w - b.length) fill ++ b
       | .center => List.replicate ((w - b.length) / 2) fill ++ b ++ List.replicate ((w - b.length + 1) / 2) fill) := by
      simp only [strDisplay, fmtPadding, hb]
      cases align with
      | none => simp
      | some a => cases a <;> simp
    have right : LaidOut ⟨fill, some .right, some w, precision, alternate, plus, zeros, hex⟩ t (List.replicate (w - b.length) fill ++ b) :=
      ⟨_, [], b, (List.append_nil _).symm, hb1, hb2, by simp, by simp; omega, rfl⟩
    have hmem : ∀ k, ∀ c ∈ [] ++ List.replicate k fill, c = fill := by simp
    rw [e]
    cases align with
    | none => exact ⟨[], _, b, rfl, hb1, hb2, hmem _, by simp; omega, rfl⟩
    | some a =>
      cases a with
      | left => exact ⟨[], _, b, rfl, hb1, hb2, hmem _, by simp; omega, rfl⟩
      | right => exact right
      | center =>
        refine ⟨_, _, b, rfl, hb1, hb2, ?_, by simp; omega, by simp; omega, by simp; omega⟩
        intro c hc
        simp only [List.mem_append, List.mem_replicate] at hc
        rcases hc with h | h <;> exact h.2

/-- The specification determines the output: a text is laid out in one way only. -/
theorem laidOut_unique {o : FmtOpts} {t a b : List Char} (ha : LaidOut o t a) (hb : LaidOut o t b) : a = b := by
  obtain ⟨p, q, x, rfl, hx, hxl, hf, hl, hal⟩ := ha
  obtain ⟨p', q', x', rfl, hx', hxl', hf', hl', hal'⟩ := hb
  have e : x = x' := by
    rw [List.prefix_iff_eq_take.mp hx, List.prefix_iff_eq_take.mp hx', hxl, hxl']
  subst e
  have lens : p.length = p'.length ∧ q.length = q'.length := by
    cases h : o.align with
    | none => simp only [h] at hal hal'; subst hal hal'; simp at hl hl' ⊢; omega
    | some a =>
      cases a with
      | left => simp only [h] at hal hal'; subst hal hal'; simp at hl hl' ⊢; omega
      | right => simp only [h] at hal hal'; subst hal hal'; simp at hl hl' ⊢; omega
      | center => simp only [h] at hal hal'; omega
  have rep : ∀ u : List Char, (∀ c ∈ u, c = o.fill) → u = List.replicate u.length o.fill :=
    fun u h => List.eq_replicate_iff.mpr ⟨rfl, h⟩
  rw [rep p fun c h => hf c (by simp [h]), rep q fun c h => hf c (by simp [h]), rep p' fun c h => hf' c (by simp [h]),
    rep q' fun c h => hf' c (by simp [h]), lens.1, lens.2]

theorem display_text {s : NStr} {t : List Char} (ht : s.asStr = some t) (o : FmtOpts) :
    (∃ out, s.display o = some out ∧ LaidOut o t out ∧ ∀ out', LaidOut o t out' → out' = out) ∧
    (o.width = none → o.precision = none → s.display o = some t) := by
  have e : s.display o = some (strDisplay o t) := by simp [NStr.display, ht]
  refine ⟨⟨_, e, strDisplay_laidOut o t, fun _ h' => laidOut_unique h' (strDisplay_laidOut o t)⟩, fun hw hp => ?_⟩
  rw [e]
  simp [strDisplay, fmtCut, hw, hp]

/-- C70, part 1. `Display` prints every reachable string's text, laid out as the format string asks; without width and
precision, exactly the text. -/
theorem C70_display {cfg : Cfg} {s : NStr} (h : Reachable cfg s) (o : FmtOpts) :
    ∃ t, s.asStr = some t ∧
    (∃ out, s.display o = some out ∧ LaidOut o t out ∧ ∀ out', LaidOut o t out' → out' = out) ∧
    (o.width = none → o.precision = none → s.display o = some t) := by
  obtain ⟨t, hh, _⟩ := reachable_holds h
  exact ⟨t, hh.asStr, display_text hh.asStr o⟩

/-- The layout of one text under several format strings: `{:*^6.3}`, `{:>4}`, `{:.1}`. -/
example : strDisplay { fill := '*', align := some .center, width := some 6, precision := some 3 } ['V', 'I', 'I', 'I'] = ['*', 'V', 'I', 'I', '*', '*'] ∧
    strDisplay { align := some .right, width := some 4 } ['I', 'V'] = [' ', ' ', 'I', 'V'] ∧
    strDisplay { precision := some 1 } ['I', 'V'] = ['I'] := by decide

/-- C70, part 2. Columns: printed with width `w` and no precision, a string takes exactly `w` characters if its text has at
most `w`, and is printed in full, without fill, if it has more. -/
theorem C70_columns {cfg : Cfg} {s : NStr} (h : Reachable cfg s) {o : FmtOpts} {w : Nat} (hw : o.width = some w)
    (hp : o.precision = none) :
    ∃ t out, s.asStr = some t ∧ s.display o = some out ∧ (t.length ≤ w → out.length = w) ∧ (w ≤ t.length → out = t) ∧
      ∃ i, (out.drop i).take t.length = t := by
  obtain ⟨t, hh, _⟩ := reachable_holds h
  have ht := hh.asStr
  obtain ⟨out, h1, ⟨p, q, x, rfl, hx, hxl, hf, hl, -⟩, -⟩ := (display_text ht o).1
  have e : x = t := hx.eq_of_length (by rw [hxl, hp]; simp)
  subst e
  rw [hw] at hl
  simp only [Option.getD_some] at hl
  refine ⟨_, _, ht, h1, fun hle => by simp; omega, fun hge => ?_, p.length, by simp⟩
  have h1 : p = [] := List.eq_nil_of_length_eq_zero (by omega)
  have h2 : q = [] := List.eq_nil_of_length_eq_zero (by omega)
  simp [h1, h2]

/-- A column of width 5: "IV" is filled, "XXXVIII" is printed in full. -/
example : strDisplay { width := some 5, fill := '.' } ['I', 'V'] = ['I', 'V', '.', '.', '.'] ∧
    strDisplay { width := some 5, fill := '.' } ['X', 'X', 'X', 'V', 'I', 'I', 'I'] = ['X', 'X', 'X', 'V', 'I', 'I', 'I'] := by decide

/-- C70, part 3. Two reachable strings that are `==` print alike under every format string, wherever they are stored and
whichever way they were built; strings that print alike under `{}` are `==`. -/
theorem C70_equal_print_alike {cfg : Cfg} {a b : NStr} (ha : Reachable cfg a) (hb : Reachable cfg b) :
    (a.eq b = some true → ∀ o, a.display o = b.display o) ∧ (a.display {} = b.display {} → a.eq b = some true) := by
  obtain ⟨t, hat, _⟩ := reachable_holds ha
  obtain ⟨u, hbt, _⟩ := reachable_holds hb
  have e := (C07_eq_is_text_equality ha hb hat.asStr hbt.asStr).1
  refine ⟨fun h o => ?_, fun h => ?_⟩
  · rw [e] at h
    have : t = u := by simpa using h
    subst this
    simp [NStr.display, hat.asStr, hbt.asStr]
  · rw [(display_text hat.asStr {}).2 rfl rfl, (display_text hbt.asStr {}).2 rfl rfl] at h
    rw [e]
    simpa using h

/-- The same text inline and on the heap. -/
example : (NStr.ofStr (ε := Empty) ⟨true, .w64, true⟩ ['i', 'x']).bind (fun s => .ok (s.eq (NStr.ofString ['i', 'x']), s.display {})) =
    .ok (some true, (NStr.ofString ['i', 'x']).display {}) := by decide +kernel

theorem padAdapter_line : ∀ (u r : List Char), (∀ c ∈ u, c ≠ '\n') → padAdapter false (u ++ r) = u ++ padAdapter false r
  | [], _, _ => rfl
  | c :: u, r, h => by
    have hc : (c == '\n') = false := by simpa using h c (by simp)
    simp only [List.cons_append, padAdapter, hc, Bool.false_eq_true, if_false, List.nil_append]
    rw [padAdapter_line u r fun c hc => h c (by simp [hc])]

theorem debug_eq (esc : Char → List Char) (o : FmtOpts) {s : NStr} {t : List Char} (ht : s.asStr = some t) :
    s.debug esc o = some (debugTuple o.alternate ['N', 'o', 'm', 'i', 'n', 'a', 'l', 'S', 't', 'r', 'i', 'n', 'g']
      (debugTuple o.alternate (if s.isInline then ['I', 'n', 'l', 'i', 'n', 'e'] else ['H', 'e', 'a', 'p']) (strDebug esc t))) := by
  cases s <;> rw [NStr.debug, NStr.debugInner, ht] <;> rfl

theorem debug_line (esc : Char → List Char) (i : Bool) (t : List Char) :
    debugTuple false ['N', 'o', 'm', 'i', 'n', 'a', 'l', 'S', 't', 'r', 'i', 'n', 'g']
      (debugTuple false (if i then ['I', 'n', 'l', 'i', 'n', 'e'] else ['H', 'e', 'a', 'p']) (strDebug esc t)) =
    debugLine esc (!i) t := by
  cases i <;> simp only [debugLine, debugTuple, strDebug, Bool.not_false, Bool.not_true, Bool.false_eq_true, if_false, if_true, List.cons_append, List.nil_append,
    List.append_assoc]

theorem debug_block (esc : Char → List Char) (i : Bool) (t : List Char) (hl : ∀ c ∈ t.flatMap esc, c ≠ '\n') :
    debugTuple true ['N', 'o', 'm', 'i', 'n', 'a', 'l', 'S', 't', 'r', 'i', 'n', 'g']
      (debugTuple true (if i then ['I', 'n', 'l', 'i', 'n', 'e'] else ['H', 'e', 'a', 'p']) (strDebug esc t)) =
    debugBlock esc (!i) t := by
  have r1 : ∀ (c : Char) r, padAdapter true (c :: r) = List.replicate 4 ' ' ++ c :: padAdapter (c == '\n') r := fun _ _ => rfl
  have r2 : ∀ (c : Char) r, padAdapter false (c :: r) = c :: padAdapter (c == '\n') r := fun _ _ => rfl
  have r3 : ∀ b, padAdapter b [] = [] := fun b => by cases b <;> rfl
  have key : ∀ r, padAdapter false (t.flatMap esc ++ r) = t.flatMap esc ++ padAdapter false r :=
    fun r => padAdapter_line _ _ hl
  cases i <;> simp [debugBlock, debugTuple, strDebug, r1, r2, r3, key, List.replicate]

theorem debug_text {s : NStr} {t : List Char} (ht : s.asStr = some t) (esc : Char → List Char) (o : FmtOpts) :
    (o.alternate = false → s.debug esc o = some (debugLine esc (!s.isInline) t)) ∧
    (o.alternate = true → (∀ c ∈ t.flatMap esc, c ≠ '\n') → s.debug esc o = some (debugBlock esc (!s.isInline) t)) := by
  rw [debug_eq esc o ht]
  refine ⟨fun ho => ?_, fun ho hl => ?_⟩
  · rw [ho, debug_line]
  · rw [ho, debug_block _ _ _ hl]

/-- C70, part 4. `Debug` shows the text between quotes and says where it is stored: on one line for `{:?}`, and for `{:#?}`
in the usual indented layout. Width, fill and precision are ignored. -/
theorem C70_debug {cfg : Cfg} {s : NStr} (h : Reachable cfg s) (esc : Char → List Char) (o : FmtOpts) :
    ∃ t, s.asStr = some t ∧
    (o.alternate = false → s.debug esc o = some (debugLine esc (!s.isInline) t)) ∧
    (o.alternate = true → (∀ c ∈ t.flatMap esc, c ≠ '\n') → s.debug esc o = some (debugBlock esc (!s.isInline) t)) := by
  obtain ⟨t, hh, _⟩ := reachable_holds h
  exact ⟨t, hh.asStr, debug_text hh.asStr esc o⟩

/-- `==` strings can differ under `Debug`: `NominalString::from(String::from("x"))` says `Heap`, `from("x")` says `Inline`. -/
example : (NStr.ofString ['x']).debug (fun c => [c]) {} ≠
    match NStr.ofStr (ε := Empty) ⟨true, .w64, true⟩ ['x'] with
    | .ok s => s.debug (fun c => [c]) {}
    | _ => none := by decide +kernel

/-- C70, part 5. What a formatted nominal prints as: for every system of the crate, every number and every format string, the
text of `C51` laid out, and `Debug` shows `Inline` exactly for texts of at most 62 bytes. -/
theorem C70_nominal {cfg : Cfg} {T : IntTy} {n : Nat} (s : Named) (hn : T.Fits cfg n) {x : NStr}
    (h : tryToNominal cfg T n s.system = .ok x) (o : FmtOpts) (esc : Char → List Char) :
    ∃ t, answer s n = .text t ∧ (∃ out, x.display o = some out ∧ LaidOut o t out) ∧
      (o.alternate = false → x.debug esc o = some (debugLine esc (decide (62 < utf8Len t)) t)) := by
  have hv := C51_catalogue s hn
  rw [h] at hv
  unfold view at hv
  rw [Res.bind_ok] at hv
  have key : ∀ i t, present cfg.alloc n (answer s n) = .ok (t, i) → i = decide (utf8Len t ≤ 62) := by
    intro i t hp
    have := present_text hp
    rw [this, present, deliver] at hp
    split at hp
    · injection hp with hp; injection hp with _ hp; subst hp; simp [*]
    · split at hp
      · injection hp with hp; injection hp with _ hp; subst hp; simp [*]
      · cases hp
  cases hx : x.asStr with
  | none =>
    rw [hx] at hv
    simp only at hv
    rcases ha : answer s n with t | _ | _
    all_goals rw [ha, present] at hv
    · rw [deliver] at hv
      split at hv
      · cases hv
      · split at hv <;> cases hv
    all_goals cases hv
  | some t =>
    rw [hx] at hv
    have hi := key _ _ hv.symm
    refine ⟨t, present_text hv.symm, ?_, fun ho => ?_⟩
    · obtain ⟨out, h1, h2, _⟩ := (display_text hx o).1
      exact ⟨out, h1, h2⟩
    · rw [(debug_text hx esc o).1 ho, hi]
      congr 2
      by_cases h : utf8Len t ≤ 62 <;> simp [h] <;> omega

/-- `format!("{:*^6}", 4.to_nominal(&RomanUpper))`. -/
example : ∃ x, tryToNominal ⟨true, .w64, true⟩ .u8 4 Named.romanUpper.system = .ok x ∧
    x.display { fill := '*', align := some .center, width := some 6 } = some ['*', '*', 'I', 'V', '*', '*'] := ⟨_, rfl, by decide +kernel⟩

/-- C70, part 6. A clone shows the same text, is stored the same way, and answers every later history of operations as the
original does. -/
theorem C70_clone {cfg : Cfg} {s : NStr} (h : Reachable cfg s) (ops : List Op) :
    Reachable cfg s.clone ∧ s.clone.asStr = s.asStr ∧ s.clone.isInline = s.isInline ∧ run cfg s.clone ops = run cfg s ops := by
  have e : s.clone = s := by cases s <;> rfl
  rw [e]
  exact ⟨h, rfl, rfl, rfl⟩

/-- Width counts characters, not columns on the screen: the overlined Roman numeral for 4000 has two letters on screen but four
characters, so `{:>6}` puts two spaces before it, as for the four letters of 8. -/
example : answer .romanUpper 4000 = .text ['I', '\u0305', 'V', '\u0305'] ∧
    strDisplay { align := some .right, width := some 6 } ['I', '\u0305', 'V', '\u0305'] =
      [' ', ' ', 'I', '\u0305', 'V', '\u0305'] := by decide +kernel

end Nominals.Props
