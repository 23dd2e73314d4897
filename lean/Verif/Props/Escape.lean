import Verif.Spec.Escape
import Verif.Props.Results
import Verif.Props.Flags
import Verif.Props.Built
import Verif.Props.Repertoire
import Verif.Props.Fallback

/-!
# Property C92: what `Debug` prints identifies the string

Vocabulary: `Verif/Spec/Escape.lean`, `Verif/Spec/Display.lean`.
-/

namespace Nominals.Props

open Nominals.Spec

theorem hexValue_digit : ∀ d, d < 16 → hexValue (Nat.digitChar d) = some d ∧ Nat.digitChar d ≠ '}' := by decide +kernel

theorem read_hex (r : List Char) : ∀ (ds : List Nat) (k v : Nat), (∀ d ∈ ds, d < 16) → ds.length + k ≤ 6 → 0 < ds.length + k →
    (ds.foldl (fun a d => a * 16 + d) v).isValidChar →
    readLiteral (.hex k v) (ds.map Nat.digitChar ++ '}' :: r) =
      (readLiteral .between r).map (Char.ofNat (ds.foldl (fun a d => a * 16 + d) v) :: ·)
  | [], k, v, _, _, hk, hv => by
    simp only [List.length_nil, Nat.zero_add] at hk
    simp only [List.foldl_nil] at hv
    simp only [List.map_nil, List.nil_append, readLiteral, ↓reduceIte, List.foldl_nil]
    rw [if_neg (fun h => by rcases h with h | h; (omega); exact h hv)]
  | d :: ds, k, v, hd, hl, _, hv => by
    simp only [List.length_cons] at hl
    have h := hexValue_digit d (hd d (by simp))
    simp only [List.map_cons, List.cons_append, readLiteral, if_neg h.2, h.1, Option.bind_some]
    rw [if_neg (by omega)]
    exact read_hex r ds (k + 1) _ (fun x hx => hd x (by simp [hx])) (by omega) (by omega) hv

theorem read_escapeUnicode (c : Char) (r : List Char) :
    readLiteral .between (escapeUnicode c ++ r) = (readLiteral .between r).map (c :: ·) := by
  have hn : IsNumeral 16 c.toNat _ := loop_numeral (by decide)
  have hv : c.toNat.isValidChar := c.valid
  have h6 : c.toNat < 16 ^ 6 := by
    have := hv
    simp only [Nat.isValidChar] at this
    omega
  have hlen := numeral_length hn
  have hval := hn.value
  unfold value at hval
  rw [escapeUnicode, numeral_toDigits (by decide) hn]
  have e := read_hex r _ 0 0 hn.digits (by have := hlen.2.2 6 (by decide) h6; omega) (by have := hlen.1; omega) (by rw [hval]; exact hv)
  rw [hval] at e
  rw [show Char.ofNat c.toNat = c from Char.ofNat_toNat c] at e
  simp only [List.cons_append, List.nil_append, List.append_assoc, readLiteral, ↓reduceIte] at e ⊢
  exact e

theorem read_escapeDebug (p q : Char → Bool) (c : Char) (r : List Char) :
    readLiteral .between (escapeDebug p q c ++ r) = (readLiteral .between r).map (c :: ·) := by
  unfold escapeDebug
  repeat' split
  all_goals first
    | exact read_escapeUnicode c r
    | (subst_vars; rfl)
    | simp_all [readLiteral]

/-- Reading back what `Debug` writes between the quotes. -/
theorem read_escaped (p q : Char → Bool) : ∀ t : List Char, readLiteral .between (t.flatMap (escapeDebug p q)) = some t
  | [] => rfl
  | c :: t => by rw [List.flatMap_cons, read_escapeDebug, read_escaped p q t]; rfl

theorem escapeUnicode_line (c : Char) : '\n' ∉ escapeUnicode c := by
  have : '\n' ∉ Nat.toDigits 16 c.toNat := fun h => by
    obtain ⟨d, hd, e⟩ := toDigits_mem (by decide) h
    revert hd e; revert d; decide
  simp [escapeUnicode, this]

theorem escapeDebug_line (p q : Char → Bool) (t : List Char) : ∀ c ∈ t.flatMap (escapeDebug p q), c ≠ '\n' := by
  rintro c hc rfl
  obtain ⟨x, _, hx⟩ := List.mem_flatMap.mp hc
  revert hx
  unfold escapeDebug
  repeat' split
  all_goals first
    | exact escapeUnicode_line x
    | decide
    | (simp; intro h; subst h; simp_all)

/-- C92, part 1. `Debug` prints the text as a Rust string literal that stands for exactly this text, on one line, whatever the Unicode
tables say. -/
theorem C92_literal {cfg : Cfg} {s : NStr} (h : Reachable cfg s) (p q : Char → Bool) (o : FmtOpts) :
    ∃ t body, s.asStr = some t ∧ readLiteral .between body = some t ∧ '\n' ∉ body ∧
      s.debug (escapeDebug p q) o = some ((if o.alternate then debugBlock else debugLine) (fun c => [c]) (!s.isInline) body) := by
  obtain ⟨t, ht, h1, h2⟩ := C70_debug h (escapeDebug p q) o
  have hl := escapeDebug_line p q t
  refine ⟨t, t.flatMap (escapeDebug p q), ht, read_escaped p q t, fun hm => hl _ hm rfl, ?_⟩
  have e : ∀ u : List Char, u.flatMap (fun c => [c]) = u := fun u => by simp
  cases ho : o.alternate with
  | false => rw [h1 ho]; simp only [debugLine, e, Bool.false_eq_true, if_false]
  | true => rw [h2 ho hl]; simp only [debugBlock, e, if_true]

/-- A quote, a line break and a combining character. -/
example : (NStr.ofString ['a', '"', '\n', '\u0305']).debug (escapeDebug (fun c => decide (c = '\u0305')) fun _ => true) {} =
    some (debugLine (fun c => [c]) true ['a', '\\', '"', '\\', 'n', '\\', 'u', '{', '3', '0', '5', '}']) ∧
    readLiteral .between ['a', '\\', '"', '\\', 'n', '\\', 'u', '{', '3', '0', '5', '}'] = some ['a', '"', '\n', '\u0305'] ∧
    Reachable ⟨true, .w64, true⟩ (NStr.ofString ['a', '"', '\n', '\u0305']) :=
  ⟨by decide +kernel, by decide +kernel, .fromString _, _, [], rfl, rfl, rfl⟩

theorem padAdapter_inj : ∀ (b : Bool) (u v : List Char), padAdapter b u = padAdapter b v → u = v
  | _, [], [], _ => rfl
  | b, [], c :: v, h => by cases b <;> simp [padAdapter] at h
  | b, c :: u, [], h => by cases b <;> simp [padAdapter] at h
  | b, c :: u, d :: v, h => by
    simp only [padAdapter, List.append_cancel_left_eq, List.cons.injEq] at h
    obtain ⟨rfl, h⟩ := h
    rw [padAdapter_inj _ u v h]

theorem debugTuple_inj {b : Bool} {name u v : List Char} (h : debugTuple b name u = debugTuple b name v) : u = v := by
  unfold debugTuple at h
  cases b with
  | false => simpa using h
  | true =>
    simp only [if_true, List.append_assoc, List.append_cancel_left_eq] at h
    have := padAdapter_inj _ _ _ (List.append_cancel_right h)
    exact List.append_cancel_right this

/-- C92, part 2. Two strings with the same `Debug` output have the same text in the same storage, even if printed by programs with
different Unicode tables and format flags. -/
theorem C92_determined {cfg cfg' : Cfg} {a b : NStr} (ha : Reachable cfg a) (hb : Reachable cfg' b) {p q p' q' : Char → Bool} {o o' : FmtOpts}
    (h : a.debug (escapeDebug p q) o = b.debug (escapeDebug p' q') o') : a.asStr = b.asStr ∧ a.isInline = b.isInline := by
  obtain ⟨t, hat, _⟩ := reachable_holds ha
  obtain ⟨u, hbt, _⟩ := reachable_holds hb
  rw [debug_eq _ _ hat.asStr, debug_eq _ _ hbt.asStr, Option.some.injEq] at h
  have ho : o.alternate = o'.alternate := by
    revert h
    cases o.alternate <;> cases o'.alternate <;> cases a.isInline <;> cases b.isInline <;> simp [debugTuple]
  rw [ho] at h
  have h := debugTuple_inj h
  have hi : a.isInline = b.isInline := by
    revert h
    cases o'.alternate <;> cases a.isInline <;> cases b.isInline <;> simp [debugTuple]
  rw [hi] at h
  have h := debugTuple_inj h
  simp only [strDebug, List.append_cancel_left_eq, List.append_cancel_right_eq] at h
  have e := read_escaped p q t
  rw [h, read_escaped] at e
  rw [hat.asStr, hbt.asStr]
  exact ⟨e.symm, hi⟩

/-- The same text on the heap and inline: the outputs differ in the word. -/
example : ∃ b, NStr.ofStr (ε := Empty) ⟨true, .w64, true⟩ ['x'] = .ok b ∧
    b.debug (escapeDebug (fun _ => false) fun _ => true) {} ≠ (NStr.ofString ['x']).debug (escapeDebug (fun _ => false) fun _ => true) {} :=
  ⟨_, rfl, by decide +kernel⟩

/-- C92, part 3. Two results with the same `Debug` output are `==`: a failing `assert_eq!` never shows twice the same. The fill
character must not be a figure (C91). -/
theorem C92_results {cfg cfg' : Cfg} {x y : Except Error NStr} (hx : ∀ s, x = .ok s → Reachable cfg s) (hy : ∀ s, y = .ok s → Reachable cfg' s)
    {p q : Char → Bool} {o : FmtOpts} (hf : ¬ FillIsFigure o)
    (h : resultDebug (escapeDebug p q) o x = resultDebug (escapeDebug p q) o y) : resultEq x y = some true := by
  have first : ∀ (b : Bool) (u v : List Char), debugTuple b ['O', 'k'] u ≠ debugTuple b ['E', 'r', 'r'] v := by
    intro b u v
    cases b <;> simp [debugTuple]
  cases x with
  | ok a =>
    have ha := hx a rfl
    obtain ⟨t, hat, _⟩ := reachable_holds ha
    rw [resultDebug, debug_eq _ _ hat.asStr, Option.map_some] at h
    cases y with
    | ok b =>
      have hb := hy b rfl
      obtain ⟨u, hbt, _⟩ := reachable_holds hb
      rw [resultDebug, debug_eq _ _ hbt.asStr, Option.map_some, Option.some.injEq] at h
      have hd := debugTuple_inj h
      have e := (C92_determined ha hb (p := p) (q := q) (p' := p) (q' := q) (o := o) (o' := o)
        (by rw [debug_eq _ _ hat.asStr, debug_eq _ _ hbt.asStr, hd])).1
      rw [hat.asStr, hbt.asStr, Option.some.injEq] at e
      subst e
      simp [resultEq, NStr.eq, (reachable_text ha hat.asStr).strBytes, (reachable_text hb hbt.asStr).strBytes]
    | error e => rw [resultDebug, Option.some.injEq] at h; exact absurd h (first _ _ _)
  | error e =>
    cases y with
    | ok b =>
      obtain ⟨u, hbt, _⟩ := reachable_holds (hy b rfl)
      rw [resultDebug, resultDebug, debug_eq _ _ hbt.asStr, Option.map_some, Option.some.injEq] at h
      exact absurd h.symm (first _ _ _)
    | error e' =>
      rw [resultDebug, resultDebug, Option.some.injEq] at h
      have := (C91_distinct e e' o hf).mp (debugTuple_inj h)
      subst this
      rw [resultEq, (error_eq_iff e e).mpr rfl]

/-- An `Ok` and an `Err`, and errors about different numbers. -/
example : resultEq (.ok (NStr.ofString ['I'])) (.error (.outOfBounds 1)) = some false ∧ resultEq (.error (.outOfBounds 1)) (.error (.outOfBounds 2)) = some false ∧
    ¬ FillIsFigure {} ∧ ∀ s, (.ok (NStr.ofString ['I']) : Except Error NStr) = .ok s → Reachable ⟨true, .w64, true⟩ s :=
  ⟨rfl, rfl, (fun h => by
    obtain ⟨-, n, h⟩ := h
    obtain ⟨d, hd, e⟩ := toDigits_mem (by decide) h
    revert hd e; revert d; decide), fun s h => by injection h with h; subst h; exact ⟨.fromString _, _, [], rfl, rfl, rfl⟩⟩

/-- C92, part 4. In particular the printed answers of a named system to two numbers are the same only if the numbers are. -/
theorem C92_named {cfg : Cfg} {T : IntTy} {n m : Nat} (s : Named) (hn : T.Fits cfg n) (hm : T.Fits cfg m) {p q : Char → Bool} {o : FmtOpts}
    (hf : ¬ FillIsFigure o) :
    ∃ x y, (tryToNominal cfg T n s.system).returned = some x ∧ (tryToNominal cfg T m s.system).returned = some y ∧
      (resultDebug (escapeDebug p q) o x = resultDebug (escapeDebug p q) o y ↔ n = m) := by
  obtain ⟨x, y, hx, hy, he⟩ := C79_injective s hn hm
  have good : ∀ {k : Nat} {z : Except Error NStr}, (tryToNominal cfg T k s.system).returned = some z → ∀ u, z = .ok u → Reachable cfg u := by
    intro k z hz u hu
    subst hu
    cases hr : tryToNominal cfg T k s.system with
    | ok v =>
      rw [hr, Res.returned, Option.some.injEq] at hz
      injection hz with hz
      subst hz
      exact (C80_named s).1 v hr
    | err e => rw [hr, Res.returned, Option.some.injEq] at hz; cases hz
    | panic => rw [hr] at hz; cases hz
    | ub => rw [hr] at hz; cases hz
    | timeout => rw [hr] at hz; cases hz
  refine ⟨x, y, hx, hy, fun h => ?_, fun h => ?_⟩
  · have := C92_results (good hx) (good hy) hf h
    rw [he] at this
    simpa using this
  · subst h
    rw [hx, Option.some.injEq] at hy
    rw [hy]

/-- 60 and 61 are beyond the circled numbers: the errors show which number it was. -/
example : (Error.outOfBounds 60).debug {} ≠ (Error.outOfBounds 61).debug {} := by decide

theorem overline_roman : ∀ n, '\u0305' ∈ romanText n ↔ 4000 ≤ n := by
  intro n
  have hb : ∀ d, d < 10 → ('\u0305' ∈ romanGroup (bar 'C') (bar 'C' ++ bar 'D') (bar 'D') (bar 'D' ++ bar 'M') d ↔ d ≠ 0) ∧
      ('\u0305' ∈ romanGroup (bar 'X') (bar 'X' ++ bar 'L') (bar 'L') (bar 'L' ++ bar 'C') d ↔ d ≠ 0) ∧
      ('\u0305' ∈ romanGroup ['M'] (bar 'I' ++ bar 'V') (bar 'V') (bar 'I' ++ bar 'X') d ↔ 4 ≤ d) ∧
      '\u0305' ∉ romanGroup ['C'] ['C', 'D'] ['D'] ['C', 'M'] d ∧ '\u0305' ∉ romanGroup ['X'] ['X', 'L'] ['L'] ['X', 'C'] d ∧
      '\u0305' ∉ romanGroup ['I'] ['I', 'V'] ['V'] ['I', 'X'] d := by decide +kernel
  have hm : ∀ k, '\u0305' ∈ (List.replicate k (bar 'M')).flatten ↔ k ≠ 0 := by
    intro k
    simp only [List.mem_flatten, List.mem_replicate]
    constructor
    · rintro ⟨l, ⟨h, -⟩, -⟩; exact h
    · exact fun h => ⟨_, ⟨h, rfl⟩, by decide⟩
  have m := fun x => Nat.mod_lt x (show 0 < 10 by decide)
  simp only [romanText, List.mem_append, hm, (hb _ (m _)).1, (hb _ (m _)).2.1, (hb _ (m _)).2.2.1, (hb _ (m _)).2.2.2.1,
    (hb _ (m _)).2.2.2.2.1, (hb _ (m _)).2.2.2.2.2, or_false]
  omega

theorem toLower_overline {t : List Char} (h : ∀ c ∈ t, c ∈ repertoire .romanUpper) : '\u0305' ∈ t.map Char.toLower ↔ '\u0305' ∈ t := by
  have key : ∀ c ∈ repertoire .romanUpper, c.toLower = '\u0305' → c = '\u0305' := by decide +kernel
  constructor
  · intro hm
    obtain ⟨c, hc, e⟩ := List.mem_map.mp hm
    exact key c (h c hc) e ▸ hc
  · exact fun hm => List.mem_map.mpr ⟨_, hm, by decide⟩

theorem repertoire_plain (s : Named) : ∀ c ∈ repertoire s, c ∉ ['\x00', '\t', '\r', '\n', '\\', '"'] := by
  cases s with
  | chinese k o => obtain ⟨us, sc⟩ := o; cases k <;> cases us <;> cases sc <;> decide +kernel
  | _ => decide +kernel

theorem repertoire_overline (s : Named) : '\u0305' ∈ repertoire s ↔ s = .romanUpper ∨ s = .romanLower := by
  cases s with
  | chinese k o =>
    simp only [reduceCtorEq, or_self, iff_false]
    obtain ⟨us, sc⟩ := o
    cases k <;> cases us <;> cases sc <;> decide +kernel
  | romanUpper => simp [repertoire]
  | romanLower => simp [repertoire]
  | _ =>
    simp only [reduceCtorEq, or_self, iff_false]
    decide +kernel

theorem answer_overline (s : Named) {n : Nat} (hn : n < 2 ^ 128) {t : List Char} (h : answer s n = .text t) :
    '\u0305' ∈ t ↔ (s = .romanUpper ∨ s = .romanLower) ∧ 4000 ≤ n := by
  by_cases hs : s = .romanUpper ∨ s = .romanLower
  · have hu : answer .romanUpper n = .text (if n = 0 then ['N'] else romanText n) := by rw [answer]
    have hr := answer_mem .romanUpper hn hu
    rcases hs with rfl | rfl
    · rw [hu] at h
      injection h with h
      subst h
      split
      · subst_vars; simp
      · simp [overline_roman]
    · rw [answer] at h
      injection h with h
      subst h
      split
      · subst_vars; simp
      · rename_i h0
        rw [if_neg h0] at hr
        simp [toLower_overline hr, overline_roman]
  · simp only [hs, false_and, iff_false]
    exact fun hm => hs ((repertoire_overline s).mp (answer_mem s hn h _ hm))

theorem escape_known {s : Named} {p q : Char → Bool} (hk : KnowsOverline (repertoire s) p q) {t : List Char} (ht : ∀ c ∈ t, c ∈ repertoire s) :
    t.flatMap (escapeDebug p q) = spellOverlines t := by
  unfold spellOverlines
  refine congrArg List.flatten (List.map_congr_left fun c hc => ?_)
  have hp := repertoire_plain s c (ht c hc)
  simp only [List.mem_cons, List.not_mem_nil, or_false, not_or] at hp
  unfold escapeDebug
  rw [if_neg hp.1, if_neg hp.2.1, if_neg hp.2.2.1, if_neg hp.2.2.2.1, if_neg hp.2.2.2.2.1, if_neg hp.2.2.2.2.2]
  by_cases ho : c = '\u0305'
  · subst ho
    rw [if_pos hk.1, if_pos rfl]
    decide
  · have := hk.2 c (ht c hc) ho
    simp [this.1, this.2, ho]

theorem spellOverlines_same : ∀ t : List Char, spellOverlines t = t ↔ '\u0305' ∉ t := by
  have len : ∀ t : List Char, t.length ≤ (spellOverlines t).length := by
    intro t
    induction t with
    | nil => simp [spellOverlines]
    | cons c t ih =>
      simp only [spellOverlines, List.flatMap_cons, List.length_append, List.length_cons] at ih ⊢
      split <;> simp only [List.length_cons, List.length_nil] <;> omega
  intro t
  induction t with
  | nil => simp [spellOverlines]
  | cons c t ih =>
    by_cases hc : c = '\u0305'
    · subst hc
      simp only [List.mem_cons, true_or, not_true_eq_false, iff_false]
      intro h
      have h1 := congrArg List.length h
      have h2 := len t
      simp only [spellOverlines, List.flatMap_cons, ↓reduceIte, List.length_append, List.length_cons, List.length_nil] at h1 h2
      omega
    · have : spellOverlines (c :: t) = c :: spellOverlines t := by simp [spellOverlines, hc]
      rw [this, List.cons.injEq, ih]
      simp [Ne.symm hc]

/-- C92, part 5. If the Unicode tables know the characters of a system, its labels are printed as they are. The only exception are Roman
numerals from 4000 on, whose overlines are spelled out. -/
theorem C92_labels {cfg : Cfg} {T : IntTy} {n : Nat} (s : Named) (hn : T.Fits cfg n) {x : NStr} (h : tryToNominal cfg T n s.system = .ok x)
    {p q : Char → Bool} (hk : KnowsOverline (repertoire s) p q) {o : FmtOpts} (ho : o.alternate = false) :
    ∃ t, answer s n = .text t ∧
      x.debug (escapeDebug p q) o = some (debugLine (fun c => [c]) (decide (62 < utf8Len t)) (spellOverlines t)) ∧
      (spellOverlines t = t ↔ ¬ ((s = .romanUpper ∨ s = .romanLower) ∧ 4000 ≤ n)) := by
  obtain ⟨t, ha, -, hd⟩ := C70_nominal s hn h o (escapeDebug p q)
  have hb := Nominals.fits_lt hn
  refine ⟨t, ha, ?_, by rw [spellOverlines_same, answer_overline s hb ha]⟩
  rw [hd ho, debugLine, escape_known hk (answer_mem s hb ha), debugLine]
  simp

/-- The tables of Unicode as far as Roman numerals are concerned, and 4000: `NominalString(Inline("I\u{305}V\u{305}"))`. -/
example : KnowsOverline (repertoire .romanUpper) (fun c => decide (c = '\u0305')) (fun _ => true) ∧
    spellOverlines ['I', '\u0305', 'V', '\u0305'] =
      ['I', '\\', 'u', '{', '3', '0', '5', '}', 'V', '\\', 'u', '{', '3', '0', '5', '}'] :=
  ⟨⟨by decide, fun c _ h => ⟨by simp [h], rfl⟩⟩, by decide⟩

end Nominals.Props
