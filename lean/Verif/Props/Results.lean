import Verif.Spec.Results
import Verif.Props.Built
import Verif.Props.Injective
import Verif.Props.Display

/-!
# C79: comparing and printing results
-/

namespace Nominals.Props

open Nominals Nominals.Spec

theorem toDigits_injective {x y : Nat} (h : Nat.toDigits 10 x = Nat.toDigits 10 y) : x = y := by
  rw [← Nat.ofDigitChars_ten_toDigits (n := x), h, Nat.ofDigitChars_ten_toDigits]

theorem intDebug_plain {o : FmtOpts} (h : PlainNumbers o) (n : Nat) : intDebug o n = Nat.toDigits 10 n := by
  simp [intDebug, intPrefix, intDigits, h.1, h.2.1, h.2.2]

theorem errorLine_debug (e : Error) (o : FmtOpts) (h1 : o.alternate = false) (h2 : PlainNumbers o) : e.debug o = errorLine e := by
  have hi := intDebug_plain h2
  cases e <;> simp [Error.debug, errorLine, errorParts, debugTuple, h1, hi]

theorem error_eq_iff (a b : Error) : a.eq b = true ↔ a = b := by cases a <;> cases b <;> simp [Error.eq]

/-- C79, part 1. Errors are equal exactly if they are of the same kind and about the same number; a copy is equal to the original; and
`{:?}` (for other flags see C91) shows `NoZeroSymbol`, `OutOfMemory(n)` or `OutOfBounds(n)`, differently for different errors. -/
theorem C79_errors (a b : Error) :
    (a.eq b = true ↔ a = b) ∧ a.clone = a ∧ (∀ o : FmtOpts, o.alternate = false → PlainNumbers o → a.debug o = errorLine a) ∧
    (errorLine a = errorLine b ↔ a = b) := by
  refine ⟨error_eq_iff a b, by cases a <;> rfl, fun o h1 h2 => errorLine_debug a o h1 h2, fun h => ?_, fun h => by rw [h]⟩
  cases a <;> cases b <;> simp [errorLine, errorParts] at h ⊢ <;> exact toDigits_injective h

/-- The three kinds; and why a width is excluded: with `{:1>3?}` the numbers 1 and 111 print alike. -/
example : (Error.outOfBounds 40).eq (.outOfMemory 40) = false ∧ (Error.outOfBounds 40).eq (.outOfBounds 40) = true ∧
    errorLine (.outOfBounds 40) = ['O', 'u', 't', 'O', 'f', 'B', 'o', 'u', 'n', 'd', 's', '(', '4', '0', ')'] ∧
    (Error.outOfBounds 1).debug { fill := '1', width := some 3 } = (Error.outOfBounds 111).debug { fill := '1', width := some 3 } := by decide

/-- C79, part 2. `==` on results is always defined and is equality of what a caller sees: the texts of two `Ok`, wherever they are stored,
or the errors of two `Err`. In particular it is reflexive, symmetric and transitive. -/
theorem C79_equality {cfg : Cfg} {x y : Except Error NStr} (hx : SoundResult cfg x) (hy : SoundResult cfg y) :
    ∃ b, resultEq x y = some b ∧ (b = true ↔ seen x = seen y) := by
  cases x with
  | ok s =>
    cases y with
    | ok s' =>
      obtain ⟨t, ht, -⟩ := reachable_holds hx
      obtain ⟨u, hu, -⟩ := reachable_holds hy
      refine ⟨_, (C07_eq_is_text_equality hx hy ht.asStr hu.asStr).1, ?_⟩
      simp [seen, ht.asStr, hu.asStr]
    | error e => exact ⟨false, rfl, by simp [seen]⟩
  | error e =>
    cases y with
    | ok s' => exact ⟨false, rfl, by simp [seen]⟩
    | error e' => exact ⟨_, rfl, by simp [seen, error_eq_iff]⟩

/-- An inline and a heap string with the same text, in `Ok`. -/
example : resultEq (.ok (NStr.ofString ['I', 'V']))
    (match NStr.ofStr (ε := Empty) ⟨true, .w64, true⟩ ['I', 'V'] with | .ok s => .ok s | _ => .error .noZeroSymbol) = some true := by decide +kernel

/-- What a call of a named system returned. -/
theorem returned_named {cfg : Cfg} {T : IntTy} {n : Nat} (s : Named) (hn : T.Fits cfg n) :
    ∃ x, (tryToNominal cfg T n s.system).returned = some x ∧ SoundResult cfg x ∧
      (∀ t i, present cfg.alloc n (answer s n) = .ok (t, i) → ∃ st, x = .ok st ∧ st.asStr = some t ∧ st.isInline = i) ∧
      (∀ e, present cfg.alloc n (answer s n) = .err e → x = .error e) ∧
      ((∃ t i, present cfg.alloc n (answer s n) = .ok (t, i)) ∨ ∃ e, present cfg.alloc n (answer s n) = .err e) := by
  have hc := C51_catalogue (cfg := cfg) s hn
  cases hr : tryToNominal cfg T n s.system with
  | ok st =>
    have hs := (C80_named s).1 st hr
    obtain ⟨t, ht, -⟩ := reachable_holds hs
    rw [hr] at hc
    simp only [view, Res.bind, ht.asStr] at hc
    rw [← hc]
    exact ⟨.ok st, rfl, hs, (fun t' i h => by cases h; exact ⟨st, rfl, ht.asStr, rfl⟩), (fun e h => by cases h), .inl ⟨_, _, rfl⟩⟩
  | err e =>
    rw [hr] at hc
    simp only [view, Res.bind] at hc
    rw [← hc]
    exact ⟨.error e, rfl, trivial, (fun t' i h => by cases h), (fun e h => by cases h; rfl), .inr ⟨_, rfl⟩⟩
  | _ =>
    rw [hr] at hc
    simp only [view, Res.bind] at hc
    cases ha : answer s n with
    | text t =>
      rw [ha, present, deliver] at hc
      split at hc
      · cases hc
      · split at hc <;> cases hc
    | _ => rw [ha] at hc; cases hc

/-- C79, part 3. Comparing what two named systems return: `try_to_nominal` always returns, and the results are `==` exactly if the catalogue
has the same text or the same error. -/
theorem C79_systems {cfg : Cfg} {T : IntTy} {n m : Nat} (s s' : Named) (hn : T.Fits cfg n) (hm : T.Fits cfg m) :
    ∃ x y b, (tryToNominal cfg T n s.system).returned = some x ∧ (tryToNominal cfg T m s'.system).returned = some y ∧
      resultEq x y = some b ∧
      (b = true ↔ (present cfg.alloc n (answer s n)).map Prod.fst = (present cfg.alloc m (answer s' m)).map Prod.fst) := by
  obtain ⟨x, hx, sx, ox, ex, hxx⟩ := returned_named (cfg := cfg) s hn
  obtain ⟨y, hy, sy, oy, ey, hyy⟩ := returned_named (cfg := cfg) s' hm
  obtain ⟨b, h1, h2⟩ := C79_equality sx sy
  refine ⟨x, y, b, hx, hy, h1, h2.trans ?_⟩
  rcases hxx with ⟨t, i, p⟩ | ⟨e, p⟩ <;> rcases hyy with ⟨u, j, q⟩ | ⟨e', q⟩
  · obtain ⟨st, rfl, h3, -⟩ := ox t i p
    obtain ⟨st', rfl, h4, -⟩ := oy u j q
    simp [seen, h3, h4, p, q, Res.map]
  · obtain ⟨st, rfl, h3, -⟩ := ox t i p
    obtain rfl := ey e' q
    simp [seen, p, q, Res.map]
  · obtain rfl := ex e p
    obtain ⟨st', rfl, h4, -⟩ := oy u j q
    simp [seen, p, q, Res.map]
  · obtain rfl := ex e p
    obtain rfl := ey e' q
    simp [seen, p, q, Res.map]

/-- 1 in decimal and in hexadecimal compare equal, 10 does not. -/
example : ∃ x y z w, (tryToNominal ⟨true, .w64, true⟩ .u8 1 Named.decimal.system).returned = some x ∧
    (tryToNominal ⟨true, .w64, true⟩ .u8 1 Named.hexUpper.system).returned = some y ∧ resultEq x y = some true ∧
    (tryToNominal ⟨true, .w64, true⟩ .u8 10 Named.decimal.system).returned = some z ∧
    (tryToNominal ⟨true, .w64, true⟩ .u8 10 Named.hexUpper.system).returned = some w ∧ resultEq z w = some false :=
  ⟨_, _, _, _, rfl, rfl, by decide +kernel, rfl, rfl, by decide +kernel⟩

/-- C79, part 4. In one system the results for two numbers are `==` exactly if the numbers are: texts do not collide (C56), and every error
tells the number it is about. -/
theorem C79_injective {cfg : Cfg} {T : IntTy} {n m : Nat} (s : Named) (hn : T.Fits cfg n) (hm : T.Fits cfg m) :
    ∃ x y, (tryToNominal cfg T n s.system).returned = some x ∧ (tryToNominal cfg T m s.system).returned = some y ∧
      resultEq x y = some (decide (n = m)) := by
  obtain ⟨x, y, b, hx, hy, h1, h2⟩ := C79_systems s s hn hm
  refine ⟨x, y, hx, hy, ?_⟩
  rw [h1]
  congr 1
  rw [Bool.eq_iff_iff, h2, decide_eq_true_iff]
  refine ⟨fun h => ?_, fun h => by rw [h]⟩
  obtain ⟨_, _, _, _, _, hxx⟩ := returned_named (cfg := cfg) s hn
  obtain ⟨_, _, _, _, _, hyy⟩ := returned_named (cfg := cfg) s hm
  have ab : ∀ {k : Nat} {e : Error}, T.Fits cfg k → present cfg.alloc k (answer s k) = .err e → (e = .noZeroSymbol ∧ k = 0) ∨ e = .outOfMemory k ∨ e = .outOfBounds k := by
    intro k e hk he
    have hv := C51_catalogue (cfg := cfg) s hk
    rw [he] at hv
    have ht := C42_named s hk hv
    cases e with
    | noZeroSymbol => exact .inl ⟨rfl, ht⟩
    | outOfMemory j => exact .inr (.inl (by rw [show j = k from ht]))
    | outOfBounds j => exact .inr (.inr (by rw [show j = k from ht]))
  rcases hxx with ⟨t, i, p⟩ | ⟨e, p⟩ <;> rcases hyy with ⟨u, j, q⟩ | ⟨e', q⟩
  · rw [p, q] at h
    simp only [Res.map, Res.ok.injEq] at h
    subst h
    exact answer_injective s (Nominals.fits_lt hn) (Nominals.fits_lt hm) (present_text p) (present_text q)
  · rw [p, q] at h; cases h
  · rw [p, q] at h; cases h
  · rw [p, q] at h
    simp only [Res.map, Res.err.injEq] at h
    subst h
    rcases ab hn p with ⟨h1, h2⟩ | h1 | h1 <;> rcases ab hm q with ⟨h3, h4⟩ | h3 | h3 <;> subst h1 <;> cases h3 <;> first | rfl | omega

/-- Two numbers beyond the end of the circled numbers are told apart by their errors. -/
example : ∃ x y, (tryToNominal ⟨true, .w64, true⟩ .u8 60 Named.circledNumber.system).returned = some x ∧
    (tryToNominal ⟨true, .w64, true⟩ .u8 61 Named.circledNumber.system).returned = some y ∧ resultEq x y = some false :=
  C79_injective .circledNumber (by decide) (by decide)

/-- C79, part 5. What `{:?}` shows of a result, for instance in the message of a failed `assert_eq!` or `unwrap`. -/
theorem C79_debug {cfg : Cfg} {T : IntTy} {n : Nat} (s : Named) (hn : T.Fits cfg n) (esc : Char → List Char) {o : FmtOpts}
    (ho : o.alternate = false) (hw : PlainNumbers o) :
    ∃ x, (tryToNominal cfg T n s.system).returned = some x ∧
      resultDebug esc o x = resultLine esc (present cfg.alloc n (answer s n)) := by
  obtain ⟨x, hx, sx, ox, ex, hxx⟩ := returned_named (cfg := cfg) s hn
  refine ⟨x, hx, ?_⟩
  rcases hxx with ⟨t, i, p⟩ | ⟨e, p⟩
  · obtain ⟨st, rfl, h3, h4⟩ := ox t i p
    rw [p, resultDebug, (debug_text h3 esc o).1 ho, h4]
    simp [resultLine, debugTuple, ho]
  · obtain rfl := ex e p
    rw [p, resultDebug, errorLine_debug e o ho hw]
    simp [resultLine, debugTuple, ho]

/-- `{:?}` of an `Ok` and of an `Err`. -/
example : resultLine (fun c => [c]) (present true 4 (answer .romanUpper 4)) = ['O', 'k', '('] ++ debugLine (fun c => [c]) false ['I', 'V'] ++ [')'] ∧
    PlainNumbers {} := ⟨by decide +kernel, by simp [PlainNumbers]⟩

/-- Lines of a block: not empty, no line break inside. -/
def Solid (l : List Char) : Prop := l ≠ [] ∧ ∀ c ∈ l, c ≠ '\n'

theorem Solid.snoc {l : List Char} (h : Solid l) {d : Char} (hd : d ≠ '\n') : Solid (l ++ [d]) :=
  ⟨by simp, fun c hc => by
    rcases List.mem_append.mp hc with hc | hc
    · exact h.2 c hc
    · rw [List.mem_singleton.mp hc]; exact hd⟩

theorem Solid.comma {l : List Char} (h : Solid l) : Solid (l ++ [',']) := h.snoc (by decide)

theorem padAdapter_solid {k : Nat} {l r : List Char} (hl : Solid l) :
    padAdapter true (List.replicate (4 * k) ' ' ++ l ++ r) = List.replicate (4 * (k + 1)) ' ' ++ l ++ padAdapter false r := by
  have hs : Solid (List.replicate (4 * k) ' ' ++ l) := by
    refine ⟨by simp [hl.1], fun c hc => ?_⟩
    rcases List.mem_append.mp hc with h | h
    · rw [List.eq_of_mem_replicate h]; decide
    · exact hl.2 c h
  generalize hu : List.replicate (4 * k) ' ' ++ l = u at hs
  cases u with
  | nil => exact absurd rfl hs.1
  | cons c u =>
    have hc : (c == '\n') = false := by simpa using hs.2 c (by simp)
    simp only [List.cons_append, padAdapter, hc, if_true]
    rw [padAdapter_line u r fun c hc => hs.2 c (by simp [hc]), ← List.cons_append, ← hu, show 4 * (k + 1) = 4 + 4 * k by omega,
      ← List.replicate_append_replicate]
    simp

/-- A block put into another one: every line is indented once more and the last one is followed by a comma. -/
theorem padAdapter_layout (ls : List (Nat × List Char)) (k : Nat) (l : List Char) (h : ∀ p ∈ ls, Solid p.2) (hl : Solid l) :
    padAdapter true (layout (ls ++ [(k, l)]) ++ [',', '\n']) = layout (ls.map (fun p => (p.1 + 1, p.2)) ++ [(k + 1, l ++ [','])]) ++ ['\n'] := by
  induction ls with
  | nil =>
    simp only [List.nil_append, layout, List.map_nil]
    rw [padAdapter_solid hl]
    simp [padAdapter]
  | cons p ls ih =>
    obtain ⟨j, m⟩ := p
    have hm : Solid m := h (j, m) (by simp)
    have hlay : ∀ (x : Nat × List Char) (xs : List (Nat × List Char)) y, layout (x :: (xs ++ [y])) =
        List.replicate (4 * x.1) ' ' ++ x.2 ++ ['\n'] ++ layout (xs ++ [y]) := by
      intro x xs y
      cases xs <;> rfl
    rw [List.cons_append, List.map_cons, List.cons_append, hlay, hlay]
    have e : List.replicate (4 * j) ' ' ++ m ++ ['\n'] ++ layout (ls ++ [(k, l)]) ++ [',', '\n'] =
        List.replicate (4 * j) ' ' ++ m ++ ('\n' :: (layout (ls ++ [(k, l)]) ++ [',', '\n'])) := by simp
    rw [e, padAdapter_solid hm]
    have e2 : padAdapter false ('\n' :: (layout (ls ++ [(k, l)]) ++ [',', '\n'])) = '\n' :: padAdapter true (layout (ls ++ [(k, l)]) ++ [',', '\n']) := rfl
    rw [e2, ih fun p hp => h p (by simp [hp])]
    simp

/-- `debug_tuple` with `{:#?}`, around a block. -/
theorem debugTuple_layout (name : List Char) (ls : List (Nat × List Char)) (k : Nat) (l : List Char) (h : ∀ p ∈ ls, Solid p.2) (hl : Solid l) :
    debugTuple true name (layout (ls ++ [(k, l)])) =
      layout ((0, name ++ ['(']) :: (ls.map (fun p => (p.1 + 1, p.2)) ++ [(k + 1, l ++ [','])]) ++ [(0, [')'])]) := by
  have hlay : ∀ (xs : List (Nat × List Char)), xs ≠ [] → layout (xs ++ [(0, [')'])]) = layout xs ++ ['\n', ')'] := by
    intro xs
    induction xs with
    | nil => intro h; exact absurd rfl h
    | cons x xs ih =>
      intro _
      cases xs with
      | nil => simp [layout]
      | cons y xs =>
        have := ih (by simp)
        simp only [List.cons_append, layout] at this ⊢
        rw [this]
        simp
  rw [debugTuple, if_pos rfl, padAdapter_layout ls k l h hl, hlay _ (by simp)]
  cases ls <;> simp [layout]

theorem solid_toDigits (n : Nat) : Solid (Nat.toDigits 10 n) := by
  refine ⟨fun h => ?_, fun c hc h => ?_⟩
  · have := Nat.length_toDigits_pos (b := 10) (n := n)
    rw [h] at this
    exact absurd this (by decide)
  · have := Nat.isDigit_of_mem_toDigits (by decide) (by decide) hc
    rw [h] at this
    exact absurd this (by decide)

instance (l : List Char) : Decidable (Solid l) := inferInstanceAs (Decidable (_ ∧ _))

/-- C79, part 6. What `{:#?}` shows of a result: one line per level, indented by four spaces. -/
theorem C79_debug_block {cfg : Cfg} {T : IntTy} {n : Nat} (s : Named) (hn : T.Fits cfg n) (esc : Char → List Char) {o : FmtOpts}
    (ho : o.alternate = true) (hw : PlainNumbers o) (he : ∀ c, '\n' ∉ esc c) :
    ∃ x, (tryToNominal cfg T n s.system).returned = some x ∧
      resultDebug esc o x = some (layout (resultLines esc (present cfg.alloc n (answer s n)))) := by
  obtain ⟨x, hx, sx, ox, ex, hxx⟩ := returned_named (cfg := cfg) s hn
  have hi := intDebug_plain hw
  refine ⟨x, hx, ?_⟩
  rcases hxx with ⟨t, i, p⟩ | ⟨e, p⟩
  · obtain ⟨st, rfl, h3, h4⟩ := ox t i p
    have hq : Solid (['"'] ++ t.flatMap esc ++ ['"']) := by
      refine ⟨by simp, fun c hc => ?_⟩
      simp only [List.mem_append, List.mem_singleton, List.mem_flatMap] at hc
      rcases hc with (rfl | ⟨d, -, hd⟩) | rfl
      · decide
      · intro h0; subst h0; exact he d hd
      · decide
    rw [p, resultDebug, debug_eq esc o h3, ho, h4, strDebug]
    have l0 := debugTuple_layout (if i = true then ['I', 'n', 'l', 'i', 'n', 'e'] else ['H', 'e', 'a', 'p']) [] 0 _ (by simp) hq
    have l1 := debugTuple_layout ['N', 'o', 'm', 'i', 'n', 'a', 'l', 'S', 't', 'r', 'i', 'n', 'g']
      [(0, (if i = true then ['I', 'n', 'l', 'i', 'n', 'e'] else ['H', 'e', 'a', 'p']) ++ ['(']), (1, ['"'] ++ t.flatMap esc ++ ['"'] ++ [','])]
      0 [')'] (by
        intro q hm
        rcases List.mem_cons.mp hm with rfl | hm
        · cases i <;> decide
        · rw [List.mem_singleton.mp hm]
          exact hq.comma) (by decide)
    have l2 := debugTuple_layout ['O', 'k']
      [(0, ['N', 'o', 'm', 'i', 'n', 'a', 'l', 'S', 't', 'r', 'i', 'n', 'g', '(']),
       (1, (if i = true then ['I', 'n', 'l', 'i', 'n', 'e'] else ['H', 'e', 'a', 'p']) ++ ['(']), (2, ['"'] ++ t.flatMap esc ++ ['"'] ++ [',']),
       (1, [')', ','])]
      0 [')'] (by
        intro q hm
        simp only [List.mem_cons, List.not_mem_nil, or_false] at hm
        rcases hm with rfl | rfl | rfl | rfl
        · decide
        · cases i <;> decide
        · exact hq.comma
        · decide) (by decide)
    have e0 : layout ([] ++ [(0, ['"'] ++ t.flatMap esc ++ ['"'])]) = ['"'] ++ t.flatMap esc ++ ['"'] := by simp [layout]
    rw [e0] at l0
    rw [l0]
    simp only [List.map_nil, List.nil_append, List.cons_append, Option.map_some, List.map_cons] at l1 l2 ⊢
    rw [l1, l2]
    cases i <;> simp [resultLines]
  · obtain rfl := ex e p
    rw [p, resultDebug, ho]
    have l0 := fun name n => debugTuple_layout name [] 0 _ (by simp) (solid_toDigits n)
    have e0 : ∀ n, layout ([] ++ [(0, Nat.toDigits 10 n)]) = Nat.toDigits 10 n := fun n => by simp [layout]
    have l1 : ∀ name n, Solid name → debugTuple true ['E', 'r', 'r'] (debugTuple true name (Nat.toDigits 10 n)) =
        layout [(0, ['E', 'r', 'r', '(']), (1, name ++ ['(']), (2, Nat.toDigits 10 n ++ [',']), (1, [')', ',']), (0, [')'])] := by
      intro name n hname
      have l1 := debugTuple_layout ['E', 'r', 'r'] [(0, name ++ ['(']), (1, Nat.toDigits 10 n ++ [','])] 0 [')'] (by
        intro q hm
        simp only [List.mem_cons, List.not_mem_nil, or_false] at hm
        rcases hm with rfl | rfl
        · exact hname.snoc (by decide)
        · exact (solid_toDigits n).comma) (by decide)
      rw [← e0, l0]
      exact l1
    cases e with
    | noZeroSymbol =>
      simp only [Error.debug, resultLines, errorParts, Option.some.injEq]
      decide
    | outOfMemory n =>
      simp only [Error.debug, ho, hi, resultLines, errorParts, l1 _ _ (show Solid ['O', 'u', 't', 'O', 'f', 'M', 'e', 'm', 'o', 'r', 'y'] by decide)]
    | outOfBounds n =>
      simp only [Error.debug, ho, hi, resultLines, errorParts, l1 _ _ (show Solid ['O', 'u', 't', 'O', 'f', 'B', 'o', 'u', 'n', 'd', 's'] by decide)]

/-- The two shapes of block, for a text and for an error. -/
example :
    layout (resultLines (fun c => [c]) (present true 4 (.text ['I', 'V']))) =
      ['O', 'k', '(', '\n', ' ', ' ', ' ', ' ', 'N', 'o', 'm', 'i', 'n', 'a', 'l', 'S', 't', 'r', 'i', 'n', 'g', '(', '\n',
       ' ', ' ', ' ', ' ', ' ', ' ', ' ', ' ', 'I', 'n', 'l', 'i', 'n', 'e', '(', '\n',
       ' ', ' ', ' ', ' ', ' ', ' ', ' ', ' ', ' ', ' ', ' ', ' ', '"', 'I', 'V', '"', ',', '\n',
       ' ', ' ', ' ', ' ', ' ', ' ', ' ', ' ', ')', ',', '\n', ' ', ' ', ' ', ' ', ')', ',', '\n', ')'] ∧
    layout (resultLines (fun c => [c]) (present true 0 .noZero)) =
      ['E', 'r', 'r', '(', '\n', ' ', ' ', ' ', ' ', 'N', 'o', 'Z', 'e', 'r', 'o', 'S', 'y', 'm', 'b', 'o', 'l', ',', '\n', ')'] := by
  decide +kernel

/-- `Err(OutOfBounds(51))` for the 51 of the circled numbers, `Ok(NominalString(Inline("IV")))` for the Roman 4. -/
example : answer .circledNumber 51 = .outOfBounds ∧
    resultLine (fun c => [c]) (present true 51 .outOfBounds) =
      some ['E', 'r', 'r', '(', 'O', 'u', 't', 'O', 'f', 'B', 'o', 'u', 'n', 'd', 's', '(', '5', '1', ')', ')'] ∧
    resultLine (fun c => [c]) (present true 4 (.text ['I', 'V'])) =
      some (['O', 'k', '(', 'N', 'o', 'm', 'i', 'n', 'a', 'l', 'S', 't', 'r', 'i', 'n', 'g', '(', 'I', 'n', 'l', 'i', 'n', 'e', '(', '"', 'I', 'V', '"', ')', ')', ')']) := by
  decide +kernel

end Nominals.Props
