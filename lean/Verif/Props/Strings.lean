import Verif.Proofs.StringRuns

/-!
# Properties C01–C08 and C50: `NominalString`

The vocabulary (`Init`, `Op`, `texts`, `run`, `Reachable`, …) is in `Verif/Spec/Strings.lean`.
-/

namespace Nominals.Props

open Nominals.Spec

/-- C01. In an `alloc` build every constructor succeeds with the text it was given, and every sequence of operations
succeeds and shows, after each operation, the text an ordinary string would have. -/
theorem C01_push_is_concatenation (ptr : PtrWidth) (chk : Bool) (i : Init) (ops : List Op) :
    ∃ s obs, i.build ⟨true, ptr, chk⟩ = .ok s ∧ s.asStr = some i.text ∧ run ⟨true, ptr, chk⟩ s ops = .ok obs ∧
      obs.map (·.1) = texts i.text ops ∧ ∀ o ∈ obs, o.2.2 = true := by
  have ha : i.Allowed (Cfg.mk true ptr chk).alloc := by cases i <;> simp [Init.Allowed]
  obtain ⟨s, h1, h2, h3⟩ := build_holds (cfg := ⟨true, ptr, chk⟩) ha
  exact ⟨s, _, h1, h2.asStr, run_refines h2 ops, absRun_alloc _ _ _⟩

/-- Test of the specification: what `texts` says about a mixed history. -/
example : texts (Init.text (.fromChar 'b')) [.push 'c', .pushFront 'a', .pushStr ['d', 'e']]
    = [['b', 'c'], ['a', 'b', 'c'], ['a', 'b', 'c', 'd', 'e']] := rfl

/-- C02. Any history on `new()` and on `new_reverse()` is defined and shows the same texts, the same `is_inline()` and
the same `Ok`/`Err` results at every point. -/
theorem C02_direction_is_unobservable (cfg : Cfg) (ops : List Op) :
    NStr.new.asStr = some [] ∧ NStr.newReverse.asStr = some [] ∧ NStr.new.isInline = NStr.newReverse.isInline ∧
    ∃ obs, run cfg NStr.new ops = .ok obs ∧ run cfg NStr.newReverse ops = .ok obs :=
  ⟨NStr.new_holds.asStr, NStr.newReverse_holds.asStr, rfl, _, run_refines NStr.new_holds ops,
    run_refines NStr.newReverse_holds ops⟩

/-- The two strings compared in C02 are different in memory. -/
example : NStr.new.tryPush ⟨true, .w64, true⟩ 'x' ≠ NStr.newReverse.tryPush ⟨true, .w64, true⟩ 'x' := by decide +kernel

/-- C03, part 1. Whatever can be built through the API, the next operation neither panics nor reads or exposes anything
undefined (`call` would return `panic` or `ub`). -/
theorem C03_operations_are_defined {cfg : Cfg} {s : NStr} (h : Reachable cfg s) (op : Op) :
    ∃ s' ok, op.call cfg s = .ok (s', ok) ∧ Reachable cfg s' := by
  obtain ⟨t, ht, _⟩ := reachable_holds h
  obtain ⟨s', h1, _⟩ := call_refines (cfg := cfg) ht op
  refine ⟨s', _, h1, ?_⟩
  obtain ⟨i, s0, ops, h2, h3, h4⟩ := h
  exact ⟨i, s0, ops ++ [op], h2, h3, runState_snoc h4 h1⟩

/-- A string that fills its buffer from the back, in a build without `alloc`: the next push is defined. -/
example : ∃ s, Reachable ⟨false, .w32, true⟩ s ∧ s.asStr = some (List.replicate 31 'é') ∧
    ∃ s' ok, (Op.pushFront '漢').call ⟨false, .w32, true⟩ s = .ok (s', ok) ∧ Reachable ⟨false, .w32, true⟩ s' := by
  obtain ⟨s, h, ht⟩ : ∃ s, runState ⟨false, .w32, true⟩ NStr.newReverse [.pushStr (List.replicate 31 'é')] = .ok s ∧
      s.asStr = some (List.replicate 31 'é') :=
    ⟨.inline ⟨0x80 + 62, (utf8Encode (List.replicate 31 'é')).map some⟩, by decide +kernel, by decide +kernel⟩
  have hr : Reachable ⟨false, .w32, true⟩ s := ⟨.newReverse, _, _, trivial, rfl, h⟩
  exact ⟨s, hr, ht, C03_operations_are_defined hr _⟩

/-- C03, part 2. In every reachable inline string the exposed window lies inside the 62-byte buffer, every byte of it
has been written, and together they are the UTF-8 encoding of a text, which is what `Deref` shows. -/
theorem C03_window_is_valid_utf8 {cfg : Cfg} {s : InlineString} (h : Reachable cfg (.inline s)) :
    s.bytes.length = 62 ∧ s.dataOffset + s.lenUsize ≤ 62 ∧
    ∃ t, (s.bytes.drop s.dataOffset).take s.lenUsize = (utf8Encode t).map some ∧ s.asStr = some t := by
  obtain ⟨t, ht, _⟩ := reachable_holds h
  have ht : s.Holds t := ht
  have hs := InlineString.Holds.asStr ht
  obtain ⟨hl, pad, hp, hb, hx⟩ := ht
  rw [hb, hl, InlineString.dataOffset, hl, INLINE_CAPACITY]
  cases hr : s.isReverse
  · refine ⟨by simp; omega, by simp; omega, t, ?_, hs⟩
    simp only [Bool.false_eq_true, ↓reduceIte, List.drop_zero]
    rw [List.take_append_of_le_length (by simp), List.take_of_length_le (by simp)]
  · refine ⟨by simp; omega, by simp; omega, t, ?_, hs⟩
    simp only [↓reduceIte]
    rw [List.drop_append_of_le_length (by omega), List.drop_of_length_le (by omega), List.nil_append,
      List.take_of_length_le (by simp)]

/-- A reachable string that is inline, reversed and non-empty. -/
example : ∃ s, Reachable ⟨false, .w32, true⟩ (.inline s) ∧ s.isReverse = true ∧ s.asStr = some ['a', 'é', '漢'] := by
  obtain ⟨s, h⟩ : ∃ s, runState ⟨false, .w32, true⟩ NStr.newReverse [.push 'é', .pushFront 'a', .push '漢'] = .ok (.inline s) ∧
      s.isReverse = true ∧ s.asStr = some ['a', 'é', '漢'] := by
    refine ⟨⟨0x86, List.replicate 56 none ++ (utf8Encode ['a', 'é', '漢']).map some⟩, ?_⟩
    decide +kernel
  exact ⟨s, ⟨.newReverse, _, _, trivial, rfl, h.1⟩, h.2⟩

/-- C04, part 1. For every constructor except `From<String>`, at every point of every history the string is on the heap
exactly when its text is longer than 62 bytes. -/
theorem C04_heap_iff_long {cfg : Cfg} {i : Init} {s : NStr} (hi : ∀ t, i ≠ .fromString t) (ha : i.Allowed cfg.alloc)
    (hb : i.build cfg = .ok s) (ops : List Op) :
    s.isInline = decide (utf8Len i.text ≤ 62) ∧
    ∃ obs, run cfg s ops = .ok obs ∧ ∀ o ∈ obs, o.2.1 = decide (62 < utf8Len o.1) := by
  obtain ⟨s', h1, h2, h3⟩ := build_holds (cfg := cfg) ha
  rw [hb] at h1
  cases h1
  have hh : i.onHeap = decide (62 < utf8Len i.text) := by
    cases i with
    | new => rfl
    | newReverse => rfl
    | fromChar c =>
      have := utf8Size_le c
      simp [Init.onHeap, Init.text]
      omega
    | fromStr t => rfl
    | fromString t => exact absurd rfl (hi t)
  constructor
  · rw [hh] at h3
    have := congrArg not h3
    rw [Bool.not_not] at this
    rw [this, ← decide_not]
    simp
  · refine ⟨_, run_refines h2 ops, ?_⟩
    rw [h3, hh]
    exact absRun_canonical _ _ _

/-- A string of 61 bytes made from a `str`, pushed over the limit by a two-byte character. -/
example : ∃ s, (Init.fromStr (List.replicate 61 'x')).build ⟨true, .w64, true⟩ = .ok s ∧ s.isInline = true ∧
    ∃ obs, run ⟨true, .w64, true⟩ s [.push 'é'] = .ok obs ∧ ∀ o ∈ obs, o.2.1 = decide (62 < utf8Len o.1) := by
  refine ⟨_, rfl, ?_⟩
  have h := C04_heap_iff_long (cfg := ⟨true, .w64, true⟩) (i := .fromStr (List.replicate 61 'x')) (by simp) (.inl rfl) rfl [.push 'é']
  exact ⟨h.1.trans (by decide +kernel), h.2⟩

/-- C04, part 2. Once on the heap, a string stays on the heap. -/
theorem C04_heap_stays {cfg : Cfg} {s : NStr} (h : Reachable cfg s) (hh : s.isInline = false) (ops : List Op) :
    ∃ obs, run cfg s ops = .ok obs ∧ ∀ o ∈ obs, o.2.1 = true := by
  obtain ⟨t, ht, _⟩ := reachable_holds h
  refine ⟨_, run_refines ht ops, ?_⟩
  rw [hh]
  exact absRun_heap _ _ _

/-- A short text on the heap, extended at both ends. -/
example : ∃ obs, run ⟨true, .w64, true⟩ (NStr.ofString ['a']) [.push 'b', .pushFront 'c'] = .ok obs ∧ ∀ o ∈ obs, o.2.1 = true :=
  C04_heap_stays (cfg := ⟨true, .w64, true⟩) ⟨.fromString ['a'], _, [], rfl, rfl, rfl⟩ rfl _

/-- C04, part 3. `From<String>` gives a heap string whatever the length, and whatever is done with it afterwards it is the expected text on
the heap. -/
theorem C04_from_string_on_heap (ptr : PtrWidth) (chk : Bool) (t : List Char) (ops : List Op) :
    (NStr.ofString t).isInline = false ∧ (NStr.ofString t).asStr = some t ∧
    ∃ obs, run ⟨true, ptr, chk⟩ (NStr.ofString t) ops = .ok obs ∧ obs.map (·.1) = texts t ops ∧ ∀ o ∈ obs, o.2.1 = true ∧ o.2.2 = true := by
  obtain ⟨s, obs, h1, -, h2, h3, h4⟩ := C01_push_is_concatenation ptr chk (.fromString t) ops
  cases h1
  obtain ⟨obs', h5, h6⟩ := C04_heap_stays (cfg := ⟨true, ptr, chk⟩) ⟨.fromString t, _, [], rfl, rfl, rfl⟩ (s := NStr.ofString t) rfl ops
  rw [h2] at h5
  cases h5
  exact ⟨rfl, rfl, obs, h2, h3, fun o ho => ⟨h6 o ho, h4 o ho⟩⟩

example : utf8Len ['i', 'x'] ≤ 62 ∧ (NStr.ofString ['i', 'x']).isInline = false := by decide

/-- Both sides of the boundary occur: 62 bytes stay inline, the 63rd moves the string. -/
example : ((run ⟨true, .w64, true⟩ NStr.new [.pushStr (List.replicate 62 'x'), .pushFront 'y']).map
    fun obs => obs.map (fun o => (o.1.length, o.2.1))) = .ok [(62, false), (63, true)] := by decide +kernel

/-- C05. Without `alloc`: a push (or edit) on any reachable string succeeds exactly when the new text fits 62 bytes, and
then shows the new text; otherwise it reports failure and leaves the very same string (so everything later is as if the
push had not been made). -/
theorem C05_failed_push_changes_nothing {ptr : PtrWidth} {chk : Bool} {s : NStr} {t : List Char} (h : Reachable ⟨false, ptr, chk⟩ s)
    (ht : s.asStr = some t) (op : Op) :
    (utf8Len (op.on t) ≤ 62 → ∃ s', op.call ⟨false, ptr, chk⟩ s = .ok (s', true) ∧ s'.asStr = some (op.on t)) ∧
    (62 < utf8Len (op.on t) → op.call ⟨false, ptr, chk⟩ s = .ok (s, false)) := by
  have hh := reachable_text h ht
  have hi : s.isInline = true := by
    obtain ⟨_, _, h1⟩ := reachable_holds h
    simpa using h1
  constructor
  · intro hl
    obtain ⟨s', h1, h2, _⟩ := call_refines (cfg := ⟨false, ptr, chk⟩) hh op
    simp only [absStep, hi, Bool.not_true, Bool.false_eq_true, ↓reduceIte, hl] at h1 h2
    exact ⟨s', h1, h2.asStr⟩
  · intro hl
    have key : ∀ r, NStr.Ext ⟨false, ptr, chk⟩ s (op.on t) r → callOutcome r = .ok (s, false) := by
      intro r hr
      cases hr with
      | fits s' h1 h2 => omega
      | spills h1 h2 h3 => cases h3
      | fails h1 h2 h3 => rfl
      | heap h1 => rw [hi] at h1; cases h1
    cases op with
    | push c => exact key _ (NStr.tryPush_ext hh c)
    | pushStr u => exact key _ (NStr.tryPushStr_ext hh u)
    | pushFront c => exact key _ (NStr.tryPushFront_ext hh c)
    | edit f hf =>
      have := hh.len_le hi
      simp only [Op.on, hf] at hl
      omega

/-- A history with failing and succeeding pushes in a no-`alloc` build. -/
example : ((run ⟨false, .w64, true⟩ NStr.newReverse [.pushStr (List.replicate 60 'x'), .pushFront '漢', .push 'é', .push 'y']).map
    fun obs => obs.map (fun o => (o.1.drop 59, o.2.1, o.2.2))) =
    .ok [(['x'], false, true), (['x'], false, false), (['x', 'é'], false, true), (['x', 'é'], false, false)] := by decide +kernel

/-- C06, part 1. `From<char>` keeps the character and is inline. -/
theorem C06_from_char (cfg : Cfg) (c : Char) :
    ∃ s, NStr.ofChar (ε := Empty) cfg c = .ok s ∧ s.asStr = some [c] ∧ s.isInline = true := by
  obtain ⟨s, h1, h2, h3⟩ := build_holds (cfg := cfg) (i := .fromChar c) trivial
  exact ⟨s, h1, h2.asStr, by simpa [Init.onHeap] using h3⟩

/-- A character of four bytes. -/
example : ((NStr.ofChar (ε := Empty) ⟨false, .w16, false⟩ '𐄇').map fun s => (s.asStr, s.isInline)) = .ok (some ['𐄇'], true) := by decide +kernel

/-- C06, part 2. `From<&str>`/`From<&String>`: keeps the text and is inline exactly up to 62 bytes; longer texts go to
the heap in `alloc` builds and panic in no-`alloc` builds. -/
theorem C06_from_str (cfg : Cfg) (t : List Char) :
    (utf8Len t ≤ 62 → ∃ s, NStr.ofStr (ε := Empty) cfg t = .ok s ∧ s.asStr = some t ∧ s.isInline = true) ∧
    (62 < utf8Len t → cfg.alloc = true → ∃ s, NStr.ofStr (ε := Empty) cfg t = .ok s ∧ s.asStr = some t ∧ s.isInline = false) ∧
    (62 < utf8Len t → cfg.alloc = false → NStr.ofStr (ε := Empty) cfg t = .panic) := by
  refine ⟨fun h => ?_, fun h ha => ?_, fun h ha => ?_⟩
  · obtain ⟨s, h1, h2, h3⟩ := ofStr_is (ε := Empty) cfg t (.inr h)
    exact ⟨s, h1, h2.asStr, by simp [h3, h]⟩
  · obtain ⟨s, h1, h2, h3⟩ := ofStr_is (ε := Empty) cfg t (.inl ha)
    exact ⟨s, h1, h2.asStr, by simp [h3, h]⟩
  · unfold NStr.ofStr
    simp only [utf8Encode_length, INLINE_CAPACITY, ha]
    rw [if_neg (by omega)]
    rfl

/-- All three cases. -/
example : ((NStr.ofStr (ε := Empty) ⟨false, .w64, true⟩ (List.replicate 62 'x')).map (·.isInline), (NStr.ofStr (ε := Empty) ⟨true, .w64, true⟩ (List.replicate 63 'x')).map (·.isInline),
    (NStr.ofStr (ε := Empty) ⟨false, .w64, true⟩ (List.replicate 63 'x')).map (·.isInline)) = (.ok true, .ok false, .panic) := by decide +kernel

/-- C06, part 3. Converting back: `String::from` gives the text; `try_into_string` gives the text exactly when the string
is on the heap and otherwise hands back the same string. -/
theorem C06_into_string {cfg : Cfg} {s : NStr} {t : List Char} (h : Reachable cfg s) (ht : s.asStr = some t) :
    s.toString' = some t ∧
    (s.isInline = false → s.tryIntoString = .inl t) ∧ (s.isInline = true → s.tryIntoString = .inr s) := by
  have hh := reachable_text h ht
  cases s with
  | inline s => exact ⟨ht, by simp [NStr.isInline], fun _ => rfl⟩
  | heap u => cases hh; exact ⟨rfl, fun _ => rfl, by simp [NStr.isInline]⟩

example : (NStr.ofStr (ε := Empty) ⟨true, .w64, true⟩ ['z', 'é']).map (·.toString') = .ok (some ['z', 'é']) ∧
    (NStr.ofString ['z', 'é']).tryIntoString = .inl ['z', 'é'] := ⟨by decide +kernel, rfl⟩

/-- C06, part 4. There and back: whichever of the conversions made the string, `String::from` returns the text it was made from; a string
made `From<String>` is on the heap whatever its length, and `try_into_string` hands the text back. -/
theorem C06_round_trip (cfg : Cfg) (t : List Char) :
    (∀ s, NStr.ofStr (ε := Empty) cfg t = .ok s → s.toString' = some t) ∧
    (∀ c s, NStr.ofChar (ε := Empty) cfg c = .ok s → s.toString' = some [c]) ∧
    (NStr.ofString t).toString' = some t ∧ (NStr.ofString t).asStr = some t ∧ (NStr.ofString t).isInline = false ∧
    (NStr.ofString t).tryIntoString = .inl t := by
  refine ⟨fun s h => ?_, fun c s h => ?_, rfl, rfl, rfl, rfl⟩
  · by_cases hl : utf8Len t ≤ 62
    · obtain ⟨s', h1, h2, h3⟩ := (C06_from_str cfg t).1 hl
      rw [h] at h1; cases h1
      cases s with
      | inline s => exact h2
      | heap u => cases h3
    · cases ha : cfg.alloc with
      | false =>
        have := (C06_from_str cfg t).2.2 (by omega) ha
        rw [h] at this; cases this
      | true =>
        obtain ⟨s', h1, h2, h3⟩ := (C06_from_str cfg t).2.1 (by omega) ha
        rw [h] at h1; cases h1
        cases s with
        | inline s => cases h3
        | heap u => exact h2
  · obtain ⟨s', h1, h2, h3⟩ := C06_from_char cfg c
    rw [h] at h1; cases h1
    cases s with
    | inline s => exact h2
    | heap u => cases h3

example : ((NStr.ofStr (ε := Empty) ⟨true, .w64, true⟩ (List.replicate 70 'é')).map (·.toString'),
    (NStr.ofStr (ε := Empty) ⟨false, .w64, true⟩ (List.replicate 31 'é')).map (·.toString')) =
    (.ok (some (List.replicate 70 'é')), .ok (some (List.replicate 31 'é'))) := by decide +kernel

/-- C07, part 1. `==` between any two reachable strings, and against a `str`, is equality of the texts. -/
theorem C07_eq_is_text_equality {cfg : Cfg} {a b : NStr} {t u : List Char} (ha : Reachable cfg a) (hb : Reachable cfg b)
    (hat : a.asStr = some t) (hbt : b.asStr = some u) :
    a.eq b = some (decide (t = u)) ∧ a.eqStr u = some (decide (t = u)) := by
  have h1 := (reachable_text ha hat).strBytes
  have h2 := (reachable_text hb hbt).strBytes
  have h3 : (utf8Encode t == utf8Encode u) = decide (t = u) := by
    rw [Bool.eq_iff_iff]
    simp only [beq_iff_eq, decide_eq_true_eq]
    exact ⟨fun h => utf8Encode_injective h, fun h => by rw [h]⟩
  simp [NStr.eq, NStr.eqStr, h1, h2, h3]

/-- A heap string and an inline string with different texts. -/
example : ∃ b, Reachable ⟨true, .w64, true⟩ b ∧ b.isInline = true ∧ (NStr.ofString ['z', 'é']).eq b = some false := by
  obtain ⟨b, hb, ht⟩ : ∃ b, NStr.ofStr (ε := Empty) ⟨true, .w64, true⟩ ['z'] = .ok b ∧ b.asStr = some ['z'] ∧ b.isInline = true :=
    ⟨_, rfl, by decide +kernel, rfl⟩
  have hr : Reachable ⟨true, .w64, true⟩ b := ⟨.fromStr ['z'], b, [], .inl rfl, hb, rfl⟩
  exact ⟨b, hr, ht.2, (C07_eq_is_text_equality (cfg := ⟨true, .w64, true⟩) (t := ['z', 'é']) ⟨.fromString _, _, [], rfl, rfl, rfl⟩ hr rfl ht.1).1⟩

/-- C07, part 2. `cmp` between any two reachable strings, and against a `str`, is the lexicographic order of the Unicode
code points of the texts. -/
theorem C07_cmp_is_code_point_order {cfg : Cfg} {a b : NStr} {t u : List Char} (ha : Reachable cfg a)
    (hb : Reachable cfg b) (hat : a.asStr = some t) (hbt : b.asStr = some u) :
    a.cmp b = some (compare (t.map (·.val.toNat)) (u.map (·.val.toNat))) ∧
    a.cmpStr u = some (compare (t.map (·.val.toNat)) (u.map (·.val.toNat))) := by
  have h1 := (reachable_text ha hat).strBytes
  have h2 := (reachable_text hb hbt).strBytes
  simp [NStr.cmp, NStr.cmpStr, h1, h2, cmpBytes_encode]

/-- 'ﬁ' (U+FB01) is below '𐄇' (U+10107), which UTF-16 would order the other way round. -/
example : (NStr.ofString ['ﬁ']).cmp (NStr.ofString ['𐄇']) = some .lt :=
  (C07_cmp_is_code_point_order (cfg := ⟨true, .w64, true⟩) (t := ['ﬁ']) (u := ['𐄇']) ⟨.fromString _, _, [], rfl, rfl, rfl⟩
    ⟨.fromString _, _, [], rfl, rfl, rfl⟩ rfl rfl).1.trans (by decide +kernel)

/-- C07, part 3. `cmp` is a total order on reachable strings, consistent with `==`: always defined, equal exactly for
`==` strings, antisymmetric and transitive. -/
theorem C07_cmp_total_order {cfg : Cfg} {a b c : NStr} (ha : Reachable cfg a) (hb : Reachable cfg b) (hc : Reachable cfg c) :
    (∃ o, a.cmp b = some o ∧ b.cmp a = some o.swap) ∧ (a.cmp b = some .eq ↔ a.eq b = some true) ∧
    (a.cmp b = some .lt → b.cmp c = some .lt → a.cmp c = some .lt) := by
  obtain ⟨t, hat, _⟩ := reachable_holds ha
  obtain ⟨u, hbt, _⟩ := reachable_holds hb
  obtain ⟨v, hct, _⟩ := reachable_holds hc
  have h1 := (C07_cmp_is_code_point_order ha hb hat.asStr hbt.asStr).1
  have h2 := (C07_cmp_is_code_point_order hb ha hbt.asStr hat.asStr).1
  have h3 := (C07_cmp_is_code_point_order hb hc hbt.asStr hct.asStr).1
  have h4 := (C07_cmp_is_code_point_order ha hc hat.asStr hct.asStr).1
  have h5 := (C07_eq_is_text_equality ha hb hat.asStr hbt.asStr).1
  have hinj : ∀ x y : List Char, x.map (·.val.toNat) = y.map (·.val.toNat) → x = y := by
    intro x y h
    refine (List.map_inj_right fun p q hpq => ?_).mp h
    exact Char.ext (UInt32.toNat_inj.mp hpq)
  rw [h1, h2, h3, h4, h5]
  refine ⟨⟨_, rfl, ?_⟩, ?_, ?_⟩
  · rw [Std.OrientedCmp.eq_swap (cmp := compare)]
  · simp only [Option.some.injEq, Std.LawfulEqCmp.compare_eq_iff_eq, decide_eq_true_eq]
    exact ⟨hinj t u, fun h => by rw [h]⟩
  · simp only [Option.some.injEq]
    exact fun h h' => Std.TransCmp.lt_trans h h'

/-- Strings with the same text in three representations (forward, reverse, heap) are equal, and the order is by code
point: 'z' < 'é' < '漢'. -/
example : (do
    let f ← (NStr.ofStr (ε := Empty) ⟨true, .w64, true⟩ ['z', 'é'])
    let r ← runState ⟨true, .w64, true⟩ NStr.newReverse [.push 'é', .pushFront 'z']
    return (f.eq r, r.eq (NStr.ofString ['z', 'é']), r.cmp (NStr.ofString ['z', '漢']))) =
    Res.ok (some true, some true, some .lt) := by decide +kernel

/-- C08. An in-place edit of any reachable string gives exactly the edited text, keeps `is_inline()`, and whatever is
done afterwards starts from the edited text. -/
theorem C08_edit_in_place {cfg : Cfg} {s : NStr} {t : List Char} (h : Reachable cfg s) (ht : s.asStr = some t)
    (f : List Char → List Char) (hf : ∀ t, utf8Len (f t) = utf8Len t) :
    ∃ s', (Op.edit f hf).call cfg s = .ok (s', true) ∧ s'.asStr = some (f t) ∧ s'.isInline = s.isInline ∧
      Reachable cfg s' ∧ ∀ ops, run cfg s' ops = .ok (absRun cfg.alloc (f t) (!s.isInline) ops) := by
  have hh := reachable_text h ht
  obtain ⟨s', h1, h2, h3⟩ := NStr.mutate_holds hh f hf
  have hc : (Op.edit f hf).call cfg s = .ok (s', true) := by simp only [Op.call, h1]
  refine ⟨s', hc, h2.asStr, h3, ?_, fun ops => ?_⟩
  · obtain ⟨i, s0, ops, h4, h5, h6⟩ := h
    exact ⟨i, s0, ops ++ [_], h4, h5, runState_snoc h6 hc⟩
  · rw [← h3]
    exact run_refines h2 ops

/-- Reversing the text of a heap string in place keeps its length in bytes. -/
example : ∃ s' h, (Op.edit List.reverse h).call ⟨true, .w64, true⟩ (NStr.ofString ['a', '漢']) = .ok (s', true) ∧ s'.asStr = some ['漢', 'a'] := by
  have hf : ∀ t : List Char, utf8Len t.reverse = utf8Len t := fun t => by simp [utf8Len]
  obtain ⟨s', h1, h2, -⟩ := C08_edit_in_place (cfg := ⟨true, .w64, true⟩) (s := NStr.ofString ['a', '漢']) (t := ['a', '漢'])
    ⟨.fromString _, _, [], rfl, rfl, rfl⟩ rfl List.reverse hf
  exact ⟨s', hf, h1, h2⟩

/-- C08, the bytes outside the text are untouched by an edit of an inline string. -/
theorem C08_edit_touches_only_text {cfg : Cfg} {s : InlineString} {t : List Char} (h : Reachable cfg (.inline s))
    (ht : s.asStr = some t) (f : List Char → List Char) (hf : ∀ t, utf8Len (f t) = utf8Len t) :
    ∃ s', (NStr.inline s).mutate (editBytes f) = some (.inline s') ∧ s'.length = s.length ∧
      s'.bytes.length = s.bytes.length ∧ s'.bytes.take s.dataOffset = s.bytes.take s.dataOffset ∧
      s'.bytes.drop (s.dataOffset + s.lenUsize) = s.bytes.drop (s.dataOffset + s.lenUsize) := by
  have hh : s.Holds t := reachable_text h ht
  have hb := InlineString.Holds.asBytes hh
  obtain ⟨h62, hw, _⟩ := C03_window_is_valid_utf8 h
  simp only [NStr.mutate, hb, Option.map_some, editBytes, utf8Decode_encode]
  have hl : s.lenUsize = (utf8Encode (f t)).length := by rw [utf8Encode_length, hf]; exact hh.1
  refine ⟨_, rfl, rfl, ?_, ?_, ?_⟩
  · simp [← hl]
    omega
  · rw [List.append_assoc, List.take_append_of_le_length (by simp; omega), List.take_take, Nat.min_self]
  · have hlen : (s.bytes.take s.dataOffset ++ (utf8Encode (f t)).map some).length = s.dataOffset + s.lenUsize := by
      simp [← hl]
      omega
    rw [List.drop_append, List.drop_eq_nil_of_le (by omega), List.nil_append, hlen, Nat.sub_self, List.drop_zero]

/-- An edit that is not the identity: upper-casing ASCII letters. -/
example : ∃ f : List Char → List Char, (∀ t, utf8Len (f t) = utf8Len t) ∧ f ['a', 'é'] = ['b', 'é'] := by
  refine ⟨fun t => t.map fun c => if c = 'a' then 'b' else c, fun t => ?_, by decide⟩
  induction t with
  | nil => rfl
  | cons c t ih =>
    simp only [List.map_cons, utf8Len_cons, ih]
    split
    · subst_vars; rfl
    · rfl

/-- C08, edits of the bytes. Overwriting the bytes of any reachable string by as many others leaves a string that reads as `t'` exactly if
the new bytes are the UTF-8 encoding of `t'`: no other bytes count as text. -/
theorem C08_bytes {cfg : Cfg} {s : NStr} {t : List Char} (h : Reachable cfg s) (ht : s.asStr = some t)
    (g : List UInt8 → List UInt8) (hg : (g (t.flatMap String.utf8EncodeChar)).length = (t.flatMap String.utf8EncodeChar).length)
    (t' : List Char) :
    (∃ s', s.mutate g = some s' ∧ s'.asStr = some t') ↔ g (t.flatMap String.utf8EncodeChar) = t'.flatMap String.utf8EncodeChar := by
  have hh := reachable_text h ht
  have dec : ∀ bs, utf8Decode bs = some t' ↔ bs = utf8Encode t' :=
    fun bs => ⟨utf8Decode_eq_some, fun e => by rw [e, utf8Decode_encode]⟩
  change (g (utf8Encode t)).length = (utf8Encode t).length at hg
  change _ ↔ g (utf8Encode t) = utf8Encode t'
  rw [← dec]
  cases s with
  | inline s =>
    have hs : s.Holds t := hh
    obtain ⟨_, hw, _⟩ := C03_window_is_valid_utf8 h
    have hl : (g (utf8Encode t)).length = s.lenUsize := by rw [hg, utf8Encode_length]; exact hs.1.symm
    have hb := InlineString.replace_asBytes (s := s) (by omega) hl
    simp only [NStr.mutate, InlineString.Holds.asBytes hs, Option.map_some, Option.some.injEq, exists_eq_left', NStr.asStr,
      InlineString.asStr, hb, Option.bind_some]
  | heap u =>
    cases hh
    simp only [NStr.mutate, Option.map_eq_some_iff]
    constructor
    · rintro ⟨s', ⟨a, ha, rfl⟩, e⟩
      rw [ha]; exact e
    · intro e
      exact ⟨_, ⟨_, e, rfl⟩, rfl⟩

/-- An overlong form is not text: the two bytes of 'é' overwritten by `C1 A1`, an overlong 'a'. -/
example (t' : List Char) : ¬ ∃ s', (NStr.ofString ['é']).mutate (fun _ => [0xC1, 0xA1]) = some s' ∧ s'.asStr = some t' := by
  rw [C08_bytes (cfg := ⟨true, .w64, true⟩) (t := ['é']) ⟨.fromString _, _, [], rfl, rfl, rfl⟩ rfl _ (by decide) t']
  intro e
  have hd : utf8Decode [0xC1, 0xA1] = none := by decide +kernel
  have h2 : utf8Decode [0xC1, 0xA1] = some t' := by rw [e]; exact utf8Decode_encode t'
  rw [hd] at h2
  cases h2

/-! ## C50: strict reading of `slice::from_raw_parts_mut`

The forward branch of `push_front` lengthens the string and then takes `as_bytes_mut()` over the lengthened window. Under
the strict reading (every element of a `&mut [u8]` must be initialised when the slice is created) the SAFETY comment there is
wrong: -/

/-- C50. `NominalString::new().try_push_front('x')` creates a slice over one byte nobody has written. -/
example :
    (InlineString.mk 0 (List.replicate 62 none)).frontSlice 1 0 1 = some [none] := by decide +kernel

/-- C50, exactly. Prepending a character that fits to a reachable forward string creates a slice as long as the new text; the
slice covers a byte nobody has written if and only if the character is wider than the text. (Reverse strings do not create
the slice, and a character that does not fit is not written to the buffer.) -/
theorem C50_slice_initialised_iff {cfg : Cfg} {s : InlineString} {t : List Char} (h : Reachable cfg (.inline s))
    (ht : s.asStr = some t) (hr : s.isReverse = false) (c : Char) (hfit : utf8Len t + c.utf8Size ≤ 62) :
    ∃ cells, s.frontSlice (UInt8.ofNat c.utf8Size) s.len (UInt8.ofNat (utf8Len t + c.utf8Size)) = some cells ∧
      cells.length = utf8Len t + c.utf8Size ∧ (none ∈ cells ↔ utf8Len t < c.utf8Size) := by
  have hh : s.Holds t := reachable_text h ht
  obtain ⟨hl, pad, hp, hb, hx⟩ := hh
  have hk1 : (UInt8.ofNat c.utf8Size).toNat = c.utf8Size := by simp; have := utf8Size_le c; omega
  have hk2 : (UInt8.ofNat (utf8Len t + c.utf8Size)).toNat = utf8Len t + c.utf8Size := by simp; omega
  have hl' : s.len.toNat = utf8Len t := hl
  rw [hr] at hb
  simp only [Bool.false_eq_true, ↓reduceIte] at hb
  have hel : ((utf8Encode t).map some).length = utf8Len t := by simp
  unfold InlineString.frontSlice InlineString.frontShifted copyWithin
  rw [hk1, hl', hb, if_pos (by simp; omega)]
  have h128 : (UInt8.ofNat (utf8Len t + c.utf8Size)).toNat < 128 := by omega
  have hrv : ∀ B, (InlineString.setLength ⟨s.length, B⟩ (UInt8.ofNat (utf8Len t + c.utf8Size))).isReverse = false := fun B => by
    rw [setLength_isReverse _ _ h128]; exact hr
  simp only [Option.map_some, setLength_bytes, InlineString.dataOffset, hrv, InlineString.lenUsize,
    setLength_len _ _ h128, hk2, Bool.false_eq_true, ↓reduceIte, List.drop_zero, Nat.sub_zero]
  refine ⟨_, rfl, by simp; omega, ?_⟩
  -- the slice is the first `utf8Size` old cells followed by the moved text
  rw [List.take_append_of_le_length (by simp; omega), List.take_of_length_le (by simp; omega), List.mem_append,
    List.take_append_of_le_length (i := utf8Len t) (by simp)]
  have hm : none ∉ List.take (utf8Len t) ((utf8Encode t).map some) := fun hm => by
    simpa using List.mem_of_mem_take hm
  constructor
  · rintro (h1 | h1)
    · refine Classical.byContradiction fun hc => ?_
      rw [List.take_append_of_le_length (by simp; omega)] at h1
      simpa using List.mem_of_mem_take h1
    · exact absurd h1 hm
  · intro hlt
    left
    rw [List.take_append, hel, List.mem_append]
    right
    match pad, hp, hx with
    | [], hp, _ => simp at hp; omega
    | x :: pad, _, hx =>
      rw [show c.utf8Size - utf8Len t = (c.utf8Size - utf8Len t - 1) + 1 by omega, List.take_succ_cons, hx x (by simp)]
      simp

/-- Both cases occur on reachable forward strings: '漢' in front of "é" (two bytes) and in front of "abc". -/
example : ∃ s s', Reachable ⟨true, .w64, true⟩ (.inline s) ∧ s.asStr = some ['é'] ∧ s.isReverse = false ∧
    Reachable ⟨true, .w64, true⟩ (.inline s') ∧ s'.asStr = some ['a', 'b', 'c'] ∧ s'.isReverse = false := by
  refine ⟨⟨2, (utf8Encode ['é']).map some ++ List.replicate 60 none⟩, ⟨3, (utf8Encode ['a', 'b', 'c']).map some ++ List.replicate 59 none⟩,
    ⟨.fromStr ['é'], _, [], .inl rfl, ?_, rfl⟩, ?_, ?_, ⟨.fromStr ['a', 'b', 'c'], _, [], .inl rfl, ?_, rfl⟩, ?_, ?_⟩ <;> decide +kernel

/-! ## C55: what is in the buffer -/

/-- C55. The contents of the buffer of an inline string are determined by its text and its direction: the encoding of the text
at the front (forward) or at the end (reverse), and every other cell has never been written. No earlier state of the string
leaves a trace. -/
theorem C55_buffer_determined {cfg : Cfg} {s : InlineString} {t : List Char} (h : Reachable cfg (.inline s))
    (ht : s.asStr = some t) :
    s.bytes = if s.isReverse then List.replicate (62 - utf8Len t) none ++ (utf8Encode t).map some
      else (utf8Encode t).map some ++ List.replicate (62 - utf8Len t) none := by
  obtain ⟨_, pad, hp, hb, hx⟩ := (reachable_text h ht : s.Holds t)
  have : pad = List.replicate (62 - utf8Len t) none := List.eq_replicate_iff.mpr ⟨by omega, hx⟩
  rw [hb, this]

/-- A reverse string grown at both ends. -/
example (s : InlineString) (h : runState ⟨false, .w32, true⟩ NStr.newReverse [.push 'b', .pushFront 'a'] = .ok (.inline s))
    (ht : s.asStr = some ['a', 'b']) (hr : s.isReverse = true) : s.bytes = List.replicate 60 none ++ [some 97, some 98] := by
  rw [C55_buffer_determined (cfg := ⟨false, .w32, true⟩) ⟨.newReverse, _, _, trivial, rfl, h⟩ ht, if_pos hr]
  rfl

theorem length_eq {a b : InlineString} (h1 : a.len = b.len) (h2 : a.isReverse = b.isReverse) : a.length = b.length := by
  have key : ∀ x : UInt8, x = (x &&& 0x7F) ||| (x &&& 0x80) := u8_forall (by decide +kernel)
  have h3 : a.length &&& 0x80 = b.length &&& 0x80 := by
    unfold InlineString.isReverse at h2
    rcases hi_bit a.length with h | h <;> rcases hi_bit b.length with h' | h' <;> rw [h, h'] at h2 ⊢ <;> simp at h2
  rw [key a.length, key b.length, h3]
  unfold InlineString.len at h1
  rw [h1]

theorem tryPushFront_isReverse {cfg : Cfg} {s s' : InlineString} {t : List Char} (h : s.Holds t) (c : Char)
    (he : (NStr.inline s).tryPushFront cfg c = .ok (.inline s')) : s'.isReverse = s.isReverse := by
  have hl : s.len.toNat = utf8Len t := h.1
  have hle := InlineString.Holds.le h
  have h4 := utf8Size_le c
  have hk1 : (UInt8.ofNat c.utf8Size).toNat = c.utf8Size := by simp; omega
  have hadd : s.len + UInt8.ofNat c.utf8Size = UInt8.ofNat (utf8Len t + c.utf8Size) := by
    apply UInt8.toNat_inj.mp
    rw [UInt8.toNat_add, hl, hk1]
    simp
  have hk2 : (UInt8.ofNat (utf8Len t + c.utf8Size)).toNat = utf8Len t + c.utf8Size := by simp; omega
  simp only [NStr.tryPushFront, addU8, hl, hk1] at he
  rw [if_pos (by omega), hadd] at he
  simp only [Res.bind, hk2, INLINE_CAPACITY] at he
  by_cases hfit : utf8Len t + c.utf8Size ≤ 62
  · rw [if_pos hfit] at he
    obtain ⟨s2, h1, _, h3⟩ := InlineString.pushFront_holds (ε := OutOfMemoryError × NStr) h c hfit
    rw [h1] at he
    cases he
    exact h3
  · rw [if_neg hfit, InlineString.Holds.asStr h] at he
    cases ha : cfg.alloc <;> rw [ha] at he <;> simp at he

theorem tryPush_isReverse {cfg : Cfg} {s s' : InlineString} {t : List Char} (h : s.Holds t) (c : Char)
    (he : (NStr.inline s).tryPush cfg c = .ok (.inline s')) : s'.isReverse = s.isReverse := by
  have hl : s.len.toNat = utf8Len t := h.1
  have hle := InlineString.Holds.le h
  have h4 := utf8Size_le c
  have hk1 : (UInt8.ofNat c.utf8Size).toNat = c.utf8Size := by simp; omega
  have hadd : s.len + UInt8.ofNat c.utf8Size = UInt8.ofNat (utf8Len t + c.utf8Size) := by
    apply UInt8.toNat_inj.mp
    rw [UInt8.toNat_add, hl, hk1]
    simp
  have hk2 : (UInt8.ofNat (utf8Len t + c.utf8Size)).toNat = utf8Len t + c.utf8Size := by simp; omega
  simp only [NStr.tryPush, addU8, hl, hk1] at he
  rw [if_pos (by omega), hadd] at he
  simp only [Res.bind, hk2, INLINE_CAPACITY] at he
  by_cases hfit : utf8Len t + c.utf8Size ≤ 62
  · rw [if_pos hfit] at he
    obtain ⟨s2, h1, _, h3⟩ := InlineString.push_holds (ε := OutOfMemoryError × NStr) h c hfit
    rw [h1] at he
    cases he
    exact h3
  · rw [if_neg hfit, InlineString.Holds.asStr h] at he
    cases ha : cfg.alloc <;> rw [ha] at he <;> simp at he

/-- C55. Two inline strings with the same text and direction are identical in memory, whatever their histories. -/
theorem C55_same_text_same_memory {cfg cfg' : Cfg} {s s' : InlineString} (h : Reachable cfg (.inline s))
    (h' : Reachable cfg' (.inline s')) (ht : s.asStr = s'.asStr) (hr : s.isReverse = s'.isReverse) : s = s' := by
  obtain ⟨t, hh, _⟩ := reachable_holds h
  have h1 : s.asStr = some t := InlineString.Holds.asStr hh
  have h2 : s'.asStr = some t := ht ▸ h1
  have hh' : s'.Holds t := reachable_text h' h2
  have hb : s.bytes = s'.bytes := by rw [C55_buffer_determined h h1, C55_buffer_determined h' h2, hr]
  have hl : s.length = s'.length := length_eq (UInt8.toNat_inj.mp ((hh : s.Holds t).1.trans hh'.1.symm)) hr
  cases s; cases s'
  simp only at hb hl
  rw [hb, hl]

/-- Growing at the front or at the back leads to the same memory. -/
example : ∃ s, runState ⟨false, .w32, true⟩ NStr.newReverse [.pushFront 'b', .pushFront 'a'] = .ok (.inline s) ∧
    runState ⟨true, .w64, false⟩ NStr.newReverse [.push 'a', .push 'b'] = .ok (.inline s) :=
  ⟨⟨0x82, List.replicate 60 none ++ [some 97, some 98]⟩, by decide +kernel, by decide +kernel⟩

/-- C55. Prepending to a reverse string, and appending to a forward string, moves nothing: exactly the cells next to the text
are written, and the cells holding the old text keep their values. -/
theorem C55_push_moves_nothing {cfg : Cfg} {s s' : InlineString} {t : List Char} (h : Reachable cfg (.inline s))
    (ht : s.asStr = some t) (c : Char) :
    (s.isReverse = true → (NStr.inline s).tryPushFront cfg c = .ok (.inline s') →
      s'.bytes = s.bytes.take (62 - utf8Len t - c.utf8Size) ++ (String.utf8EncodeChar c).map some ++ s.bytes.drop (62 - utf8Len t)) ∧
    (s.isReverse = false → (NStr.inline s).tryPush cfg c = .ok (.inline s') →
      s'.bytes = s.bytes.take (utf8Len t) ++ (String.utf8EncodeChar c).map some ++ s.bytes.drop (utf8Len t + c.utf8Size)) := by
  have hh : s.Holds t := reachable_text h ht
  have hb := C55_buffer_determined h ht
  have hu := utf8EncodeChar_length c
  constructor
  · intro hr he
    have hr' := tryPushFront_isReverse hh c he
    have hx : NStr.Ext cfg (.inline s) (c :: t) ((NStr.inline s).tryPushFront cfg c) := NStr.tryPushFront_ext (s := .inline s) hh c
    rw [he] at hx
    cases hx with
    | fits _ h1 h2 h3 h4 =>
      obtain ⟨_, pad, hp, hb', hx⟩ := (h4 : s'.Holds (c :: t))
      have : pad = List.replicate (62 - utf8Len (c :: t)) none := List.eq_replicate_iff.mpr ⟨by omega, hx⟩
      rw [hb', hr', hr, hb, hr, this]
      simp only [utf8Len_cons] at h2
      simp only [↓reduceIte, utf8Len_cons, utf8Encode_cons, List.map_append]
      rw [List.take_append_of_le_length (by simp), List.take_replicate, List.drop_left' (by simp), List.append_assoc,
        show min (62 - utf8Len t - c.utf8Size) (62 - utf8Len t) = 62 - (c.utf8Size + utf8Len t) by omega]
  · intro hr he
    have hr' := tryPush_isReverse hh c he
    have hx : NStr.Ext cfg (.inline s) (t ++ [c]) ((NStr.inline s).tryPush cfg c) := NStr.tryPush_ext (s := .inline s) hh c
    rw [he] at hx
    cases hx with
    | fits _ h1 h2 h3 h4 =>
      obtain ⟨_, pad, hp, hb', hx⟩ := (h4 : s'.Holds (t ++ [c]))
      have : pad = List.replicate (62 - utf8Len (t ++ [c])) none := List.eq_replicate_iff.mpr ⟨by omega, hx⟩
      rw [hb', hr', hr, hb, hr, this]
      simp only [utf8Len_append, utf8Len_cons, utf8Len_nil, Nat.add_zero] at h2
      simp only [Bool.false_eq_true, ↓reduceIte, utf8Len_append, utf8Len_cons, utf8Len_nil, Nat.add_zero]
      rw [List.take_left' (by simp), ← List.drop_drop, List.drop_left' (by simp), List.drop_replicate]
      simp [Nat.sub_sub]

/-- The hypotheses are met: a reverse string "b" and its extension "ab". -/
example : (NStr.newReverse.tryPushFront ⟨false, .w32, true⟩ 'b').bind (fun s => s.tryPushFront ⟨false, .w32, true⟩ 'a') =
    .ok (.inline ⟨0x82, List.replicate 60 none ++ [some 97, some 98]⟩) := by decide +kernel

theorem tryPushStr_isReverse {cfg : Cfg} {s s' : InlineString} {t : List Char} (h : s.Holds t) (u : List Char)
    (he : (NStr.inline s).tryPushStr cfg u = .ok (.inline s')) : s'.isReverse = s.isReverse := by
  have hl : s.len.toNat = utf8Len t := h.1
  simp only [NStr.tryPushStr, hl, utf8Encode_length, INLINE_CAPACITY] at he
  by_cases hfit : utf8Len t + utf8Len u ≤ 62
  · rw [if_pos (by omega)] at he
    obtain ⟨s2, h1, _, h3⟩ := InlineString.pushStr_holds (ε := OutOfMemoryError × NStr) h u hfit
    rw [h1] at he
    cases he
    exact h3
  · rw [if_neg (by omega), InlineString.Holds.asStr h] at he
    cases ha : cfg.alloc <;> rw [ha] at he <;> simp at he

/-- Operations keep the direction. -/
theorem call_isReverse {cfg : Cfg} {s : NStr} {t : List Char} (h : s.Holds t) (op : Op) {s' : InlineString} {b : Bool}
    (he : op.call cfg s = .ok (.inline s', b)) : ∃ s0, s = .inline s0 ∧ s'.isReverse = s0.isReverse := by
  cases s with
  | heap u =>
    obtain ⟨s'', h1, _, h3⟩ := call_refines (cfg := cfg) h op
    rw [he] at h1
    cases h1
    simp [NStr.isInline, absStep] at h3
  | inline s0 =>
    refine ⟨s0, rfl, ?_⟩
    have key : ∀ {r : Res (OutOfMemoryError × NStr) NStr} {t'}, NStr.Ext cfg (.inline s0) t' r →
        (∀ s1, r = .ok (.inline s1) → s1.isReverse = s0.isReverse) → callOutcome r = .ok (.inline s', b) → s'.isReverse = s0.isReverse := by
      intro r t' hx hr he
      cases hx with
      | fits s1 _ _ _ _ => cases he; exact hr _ rfl
      | spills => cases he
      | fails => cases he; rfl
      | heap h1 => cases h1
    cases op with
    | push c => exact key (NStr.tryPush_ext h c) (fun s1 h1 => tryPush_isReverse h c h1) he
    | pushStr u => exact key (NStr.tryPushStr_ext h u) (fun s1 h1 => tryPushStr_isReverse h u h1) he
    | pushFront c => exact key (NStr.tryPushFront_ext h c) (fun s1 h1 => tryPushFront_isReverse h c h1) he
    | edit f hf =>
      simp only [Op.call, NStr.mutate, InlineString.Holds.asBytes h, Option.map_some] at he
      cases he
      rfl

theorem build_isReverse {cfg : Cfg} {i : Init} {s : InlineString} (h : i.build cfg = .ok (.inline s)) :
    s.isReverse = true ↔ i = .newReverse := by
  cases i with
  | new => cases h; simp [InlineString.isReverse]
  | newReverse => cases h; simp [InlineString.isReverse]
  | fromChar c =>
    simp only [Init.build, NStr.ofChar, NStr.push] at h
    cases he : NStr.new.tryPush cfg c with
    | ok s1 =>
      rw [he] at h
      cases h
      have := tryPush_isReverse (s := { length := 0, bytes := List.replicate INLINE_CAPACITY none }) NStr.new_holds c he
      rw [this]
      simp [InlineString.isReverse]
    | err e => rw [he] at h; cases h
    | panic => rw [he] at h; cases h
    | ub => rw [he] at h; cases h
    | timeout => rw [he] at h; cases h
  | fromStr t =>
    simp only [Init.build, NStr.ofStr] at h
    split at h
    · next hl =>
      cases hz : zipWrite (List.replicate INLINE_CAPACITY none) 0 (utf8Encode t).length (utf8Encode t) with
      | none => rw [hz] at h; cases h
      | some b =>
        rw [hz] at h
        simp only [Res.ofIndex, Res.bind] at h
        cases h
        have hlt : (UInt8.ofNat (utf8Encode t).length).toNat < 128 := by simp [INLINE_CAPACITY] at hl ⊢; omega
        have h0 := len_setLength0 _ hlt
        simp only [UInt8.zero_or] at h0
        rw [utf8Encode_length] at h0
        simp [InlineString.isReverse, h0.2]
    · split at h <;> cases h
  | fromString t => cases h

/-- C55. An inline string runs backwards through its buffer exactly if it was made by `new_reverse`: whatever is done to it
afterwards, operations that fail included, it keeps its direction. -/
theorem C55_direction {cfg : Cfg} {i : Init} {s0 : NStr} {s : InlineString} {ops : List Op} (hi : i.Allowed cfg.alloc)
    (hb : i.build cfg = .ok s0) (hr : runState cfg s0 ops = .ok (.inline s)) : s.isReverse = true ↔ i = .newReverse := by
  obtain ⟨s1, h1, h2, _⟩ := build_holds hi
  rw [hb] at h1
  cases h1
  have key : ∀ (ops : List Op) {s0 : NStr} {t : List Char}, s0.Holds t → runState cfg s0 ops = .ok (.inline s) →
      ∃ s1, s0 = .inline s1 ∧ s.isReverse = s1.isReverse := by
    intro ops
    induction ops with
    | nil => intro s0 t _ h; cases h; exact ⟨s, rfl, rfl⟩
    | cons op ops ih =>
      intro s0 t hs h
      obtain ⟨s', h1, h2, _⟩ := call_refines (cfg := cfg) hs op
      rw [runState, h1] at h
      obtain ⟨s2, rfl, h4⟩ := ih h2 h
      obtain ⟨s3, h5, h6⟩ := call_isReverse hs op h1
      exact ⟨s3, h5, h4.trans h6⟩
  obtain ⟨s1, rfl, h4⟩ := key ops h2 hr
  rw [h4]
  exact build_isReverse hb

/-- A reverse string after appending, a failed append and prepending, and a forward string after prepending. -/
example : (∃ s, (runState ⟨false, .w32, true⟩ NStr.newReverse [.push 'x', .pushStr (List.replicate 62 'y'), .pushFront 'z']) = .ok (.inline s) ∧
      s.isReverse = true ∧ s.asStr = some ['z', 'x']) ∧
    (∃ s, (runState ⟨false, .w32, true⟩ NStr.new [.pushFront 'x']) = .ok (.inline s) ∧ s.isReverse = false ∧ s.asStr = some ['x']) :=
  ⟨⟨⟨0x82, List.replicate 60 none ++ [some 122, some 120]⟩, by decide +kernel⟩,
    ⟨⟨1, [some 120] ++ List.replicate 61 none⟩, by decide +kernel⟩⟩

end Nominals.Props
