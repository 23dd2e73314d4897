import Verif.Spec.AsciiCase
import Verif.Props.Outline

/-!
# Property C88: ASCII case of labels

Vocabulary: `Verif/Spec/AsciiCase.lean`.
-/

namespace Nominals.Props

open Nominals Nominals.Spec

/-! ## Bytes and characters -/

theorem lowerByte_ofNat {v : Nat} (h : v < 256) : lowerByte (UInt8.ofNat v) = if 65 ≤ v ∧ v ≤ 90 then UInt8.ofNat (v + 32) else UInt8.ofNat v := by
  have : (UInt8.ofNat v).toNat = v := by simp; omega
  rw [lowerByte, this]

theorem upperByte_ofNat {v : Nat} (h : v < 256) : upperByte (UInt8.ofNat v) = if 97 ≤ v ∧ v ≤ 122 then UInt8.ofNat (v - 32) else UInt8.ofNat v := by
  have : (UInt8.ofNat v).toNat = v := by simp; omega
  rw [upperByte, this]

theorem toLower_val (c : Char) : c.toLower.val.toNat = if 65 ≤ c.val.toNat ∧ c.val.toNat ≤ 90 then c.val.toNat + 32 else c.val.toNat := by
  unfold Char.toLower
  have e : (c.val ≥ 'A'.val ∧ c.val ≤ 'Z'.val) ↔ (65 ≤ c.val.toNat ∧ c.val.toNat ≤ 90) := by
    simp [UInt32.le_iff_toNat_le]
  split
  · rename_i h
    rw [if_pos (e.mp h)]
    have hh := e.mp h
    have hc : c.toNat = c.val.toNat := rfl
    simp [UInt32.toNat_add]
    omega
  · rename_i h
    rw [if_neg fun x => h (e.mpr x)]

theorem toUpper_val (c : Char) : c.toUpper.val.toNat = if 97 ≤ c.val.toNat ∧ c.val.toNat ≤ 122 then c.val.toNat - 32 else c.val.toNat := by
  unfold Char.toUpper
  have e : (c.val ≥ 'a'.val ∧ c.val ≤ 'z'.val) ↔ (97 ≤ c.val.toNat ∧ c.val.toNat ≤ 122) := by
    simp [UInt32.le_iff_toNat_le]
  split
  · rename_i h
    rw [if_pos (e.mp h)]
    have hh := e.mp h
    have hc : c.toNat = c.val.toNat := rfl
    simp [UInt32.toNat_add]
    omega
  · rename_i h
    rw [if_neg fun x => h (e.mpr x)]

theorem encode_toLower (c : Char) : String.utf8EncodeChar c.toLower = (String.utf8EncodeChar c).map lowerByte := by
  have hv := toLower_val c
  have hlt : c.val.toNat < 0x110000 := by rcases char_valid c with h | h <;> omega
  unfold String.utf8EncodeChar
  rw [hv]
  generalize c.val.toNat = v at *
  by_cases h : 65 ≤ v ∧ v ≤ 90
  · rw [if_pos h]
    simp only
    rw [if_pos (by omega), if_pos (by omega)]
    simp (disch := omega) only [List.map_cons, List.map_nil, lowerByte_ofNat, if_pos h]
  · rw [if_neg h]
    simp only
    repeat' split
    all_goals simp (disch := omega) only [List.map_cons, List.map_nil, lowerByte_ofNat]
    all_goals simp (disch := omega) only [if_neg]

theorem encode_toUpper (c : Char) : String.utf8EncodeChar c.toUpper = (String.utf8EncodeChar c).map upperByte := by
  have hv := toUpper_val c
  have hlt : c.val.toNat < 0x110000 := by rcases char_valid c with h | h <;> omega
  unfold String.utf8EncodeChar
  rw [hv]
  generalize c.val.toNat = v at *
  by_cases h : 97 ≤ v ∧ v ≤ 122
  · rw [if_pos h]
    simp only
    rw [if_pos (by omega), if_pos (by omega)]
    simp (disch := omega) only [List.map_cons, List.map_nil, upperByte_ofNat, if_pos h]
  · rw [if_neg h]
    simp only
    repeat' split
    all_goals simp (disch := omega) only [List.map_cons, List.map_nil, upperByte_ofNat]
    all_goals simp (disch := omega) only [if_neg]

theorem utf8Encode_lower (t : List Char) : utf8Encode (t.map Char.toLower) = (utf8Encode t).map lowerByte := by
  induction t with
  | nil => rfl
  | cons c t ih => simp [encode_toLower, ih]

theorem utf8Encode_upper (t : List Char) : utf8Encode (t.map Char.toUpper) = (utf8Encode t).map upperByte := by
  induction t with
  | nil => rfl
  | cons c t ih => simp [encode_toUpper, ih]

theorem utf8Len_lower (t : List Char) : utf8Len (t.map Char.toLower) = utf8Len t := by
  rw [← utf8Encode_length, ← utf8Encode_length, utf8Encode_lower, List.length_map]

theorem utf8Len_upper (t : List Char) : utf8Len (t.map Char.toUpper) = utf8Len t := by
  rw [← utf8Encode_length, ← utf8Encode_length, utf8Encode_upper, List.length_map]

/-- An edit of the bytes that is an edit of the characters. -/
theorem mutate_bytes {s : NStr} {t : List Char} (h : s.Holds t) {b : List UInt8 → List UInt8} {f : List Char → List Char}
    (hf : ∀ t, utf8Len (f t) = utf8Len t) (hb : b (utf8Encode t) = utf8Encode (f t)) :
    ∃ s', s.mutate b = some s' ∧ s.mutate (editBytes f) = some s' ∧ s'.Holds (f t) ∧ s'.isInline = s.isInline := by
  obtain ⟨s', h1, h2, h3⟩ := NStr.mutate_holds h f hf
  refine ⟨s', ?_, h1, h2, h3⟩
  rw [← h1]
  cases s with
  | inline s => simp only [NStr.mutate, InlineString.Holds.asBytes h, Option.map_some, editBytes, utf8Decode_encode, hb]
  | heap u =>
    cases h
    simp only [NStr.mutate, editBytes, utf8Decode_encode, hb]

/-- C88, part 1. The two edits on any string, however it was built: each character is replaced by its ASCII lower or upper case, nothing else
changes, and the string stays where it is and remains an ordinary string. -/
theorem C88_edit {cfg : Cfg} {s : NStr} {t : List Char} (h : Reachable cfg s) (ht : s.asStr = some t) :
    (∃ s', makeAsciiLowercase s = some s' ∧ s'.asStr = some (t.map Char.toLower) ∧ s'.isInline = s.isInline ∧ Reachable cfg s') ∧
    (∃ s', makeAsciiUppercase s = some s' ∧ s'.asStr = some (t.map Char.toUpper) ∧ s'.isInline = s.isInline ∧ Reachable cfg s') := by
  have hh := reachable_text h ht
  refine ⟨?_, ?_⟩
  · obtain ⟨s', a1, a2, a3, a4⟩ := mutate_bytes hh (b := List.map lowerByte) (f := List.map Char.toLower) utf8Len_lower (utf8Encode_lower t).symm
    obtain ⟨s'', b1, _, _, b4, _⟩ := C08_edit_in_place h ht (List.map Char.toLower) utf8Len_lower
    simp only [Op.call, a2, Res.ok.injEq, Prod.mk.injEq, and_true] at b1
    exact ⟨s', a1, a3.asStr, a4, b1 ▸ b4⟩
  · obtain ⟨s', a1, a2, a3, a4⟩ := mutate_bytes hh (b := List.map upperByte) (f := List.map Char.toUpper) utf8Len_upper (utf8Encode_upper t).symm
    obtain ⟨s'', b1, _, _, b4, _⟩ := C08_edit_in_place h ht (List.map Char.toUpper) utf8Len_upper
    simp only [Op.call, a2, Res.ok.injEq, Prod.mk.injEq, and_true] at b1
    exact ⟨s', a1, a3.asStr, a4, b1 ▸ b4⟩

/-- A label with letters, digits and a character outside ASCII, on the heap. -/
example : ∃ s', makeAsciiUppercase (NStr.ofString ['a', '1', 'é', 'Z']) = some s' ∧ s'.asStr = some ['A', '1', 'é', 'Z'] ∧ s'.isInline = false := by
  obtain ⟨s', h, ht, hi, -⟩ := (C88_edit (cfg := ⟨true, .w64, true⟩) (s := NStr.ofString ['a', '1', 'é', 'Z']) (t := ['a', '1', 'é', 'Z'])
    ⟨.fromString _, _, [], rfl, rfl, rfl⟩ rfl).2
  exact ⟨s', h, ht, hi⟩

/-! ## Answers -/

/-- The text of an answer, mapped. -/
def mapAnswer (f : Char → Char) : Answer → Answer
  | .text t => .text (t.map f)
  | a => a

theorem mapAnswer_fix {f : Char → Char} {a : Answer} (h : ∀ t, a = .text t → ∀ c ∈ t, f c = c) : mapAnswer f a = a := by
  cases a with
  | text t =>
    rw [mapAnswer, List.map_congr_left (g := id) (h t rfl), List.map_id]
  | _ => rfl

theorem spell_map {f : Char → Char} {al : List Char} {ds : List Nat} (h : ∀ d ∈ ds, d < al.length) :
    spell (al.map f) ds = (spell al ds).map f := by
  rw [spell, spell, List.map_map]
  refine List.map_congr_left fun d hd => ?_
  have := h d hd
  simp [List.getD_eq_getElem?_getD, this]

theorem columnName_map {f : Char → Char} {al : List Char} (hb : 1 ≤ al.length) (n : Nat) :
    columnName (al.map f) n = mapAnswer f (columnName al n) := by
  rw [columnName, columnName, mapAnswer, List.length_map, spell_map (column_lt hb n)]

theorem repertoire_lower (s : Named) (hs : lowerTwin s = s) : ∀ c ∈ repertoire s, c.toLower = c := by
  cases s with
  | chinese k o =>
    obtain ⟨sc, u⟩ := o
    cases k <;> cases u <;> cases sc <;> decide +kernel
  | letterUpper | hexUpper | romanUpper => cases hs
  | _ => decide +kernel

theorem repertoire_upper (s : Named) (hs : upperTwin s = s) : ∀ c ∈ repertoire s, c.toUpper = c := by
  cases s with
  | chinese k o =>
    obtain ⟨sc, u⟩ := o
    cases k <;> cases u <;> cases sc <;> decide +kernel
  | letterLower | hexLower | romanLower => cases hs
  | _ => decide +kernel

theorem answer_lower (s : Named) {n : Nat} (hn : n < 2 ^ 128) : answer (lowerTwin s) n = mapAnswer Char.toLower (answer s n) := by
  by_cases hs : lowerTwin s = s
  · rw [hs, mapAnswer_fix]
    exact fun t ht c hc => repertoire_lower s hs c (answer_mem s hn ht c hc)
  · cases s with
    | letterUpper =>
      simp only [lowerTwin, answer]
      rw [← columnName_map (by decide)]
      congr 1
    | hexUpper =>
      simp only [lowerTwin, answer, mapAnswer, List.map_map]
      congr 1
      refine ((List.map_congr_left (g := id) fun c hc => ?_).trans (List.map_id _)).symm
      obtain ⟨d, hd, rfl⟩ := toDigits_mem (by omega) hc
      have : ∀ d, d < 16 → (Char.toLower ∘ Char.toUpper) (Nat.digitChar d) = id (Nat.digitChar d) := by decide
      exact this d hd
    | romanUpper =>
      simp only [lowerTwin, answer, mapAnswer]
      split <;> rfl
    | _ => exact absurd rfl hs

theorem answer_upper (s : Named) {n : Nat} (hn : n < 2 ^ 128) : answer (upperTwin s) n = mapAnswer Char.toUpper (answer s n) := by
  by_cases hs : upperTwin s = s
  · rw [hs, mapAnswer_fix]
    exact fun t ht c hc => repertoire_upper s hs c (answer_mem s hn ht c hc)
  · cases s with
    | letterLower =>
      simp only [upperTwin, answer]
      rw [← columnName_map (by decide)]
      congr 1
    | hexLower => rfl
    | romanLower =>
      simp only [upperTwin, answer, mapAnswer]
      congr 1
      split
      · rfl
      · rename_i h0
        rw [List.map_map]
        refine ((List.map_congr_left (g := id) fun c hc => ?_).trans (List.map_id _)).symm
        have hm := answer_mem .romanUpper hn (t := romanText n) (by rw [answer, if_neg h0]) c hc
        have : ∀ c ∈ repertoire .romanUpper, (Char.toUpper ∘ Char.toLower) c = id c := by decide +kernel
        exact this c hm
    | _ => exact absurd rfl hs

/-! ## Labels -/

theorem present_map {f : Char → Char} (hf : ∀ t : List Char, utf8Len (t.map f) = utf8Len t) (alloc : Bool) (n : Nat) (a : Answer) :
    present alloc n (mapAnswer f a) = (present alloc n a).bind fun x => .ok (x.1.map f, x.2) := by
  cases a with
  | text t =>
    simp only [mapAnswer, present, deliver, hf]
    split
    · rfl
    · split <;> rfl
  | _ => rfl

theorem label_map {cfg : Cfg} {T : IntTy} {n : Nat} {s s' : Named} (hn : T.Fits cfg n) {f : Char → Char}
    (hf : ∀ t : List Char, utf8Len (t.map f) = utf8Len t) (hd : ∀ c, c.isDigit = true → f c = c)
    (ha : answer s' n = mapAnswer f (answer s n)) {t : List Char} {i : Bool} (h : view (toNominal cfg T n s.system) = .ok (t, i)) :
    view (toNominal cfg T n s'.system) = .ok (t.map f, i) := by
  have h1 := C51_catalogue (cfg := cfg) (T := T) s hn
  have h2 := C51_catalogue (cfg := cfg) (T := T) s' hn
  rw [ha, present_map hf, ← h1] at h2
  rcases C41_always_succeeds s hn with ⟨x, a1, a2⟩ | ⟨e, a1, a2⟩
  · rw [a2] at h
    cases h
    rw [a1] at h2
    rcases C41_always_succeeds s' hn with ⟨y, b1, b2⟩ | ⟨e, b1, b2⟩
    · rw [b1] at h2
      rw [b2]
      cases h2
      rfl
    · rw [b1] at h2; cases h2
  · rw [a2] at h
    cases h
    rw [a1] at h2
    rcases C41_always_succeeds s' hn with ⟨y, b1, b2⟩ | ⟨e, b1, b2⟩
    · rw [b1] at h2; cases h2
    · rw [b2, List.map_congr_left (g := id) fun c hc => hd c (decimal_isDigit c hc), List.map_id]

theorem digit_lower (c : Char) (h : c.isDigit = true) : c.toLower = c := by
  apply Char.ext
  apply UInt32.toNat_inj.mp
  rw [toLower_val]
  have : c.val.toNat ≤ 57 := by
    have hc : c.toNat = c.val.toNat := rfl
    simp [Char.isDigit, UInt32.le_iff_toNat_le] at h
    omega
  rw [if_neg (by omega)]

theorem digit_upper (c : Char) (h : c.isDigit = true) : c.toUpper = c := by
  apply Char.ext
  apply UInt32.toNat_inj.mp
  rw [toUpper_val]
  have : c.val.toNat ≤ 57 := by
    have hc : c.toNat = c.val.toNat := rfl
    simp [Char.isDigit, UInt32.le_iff_toNat_le] at h
    omega
  rw [if_neg (by omega)]

/-- C88, part 2. Changing the ASCII case of a label gives the label of the other system of the pair, to the byte and in the same storage; for
every system that is not one of the three pairs it changes nothing. This includes decimal fallbacks and builds without `alloc`. -/
theorem C88_twins {cfg : Cfg} {T : IntTy} {n : Nat} (s : Named) (hn : T.Fits cfg n) {x : NStr} (h : toNominal cfg T n s.system = .ok x) :
    (∃ y z, makeAsciiLowercase x = some y ∧ toNominal cfg T n (lowerTwin s).system = .ok z ∧ y.eq z = some true ∧ y.asStr = z.asStr ∧
      y.isInline = z.isInline) ∧
    (∃ y z, makeAsciiUppercase x = some y ∧ toNominal cfg T n (upperTwin s).system = .ok z ∧ y.eq z = some true ∧ y.asStr = z.asStr ∧
      y.isInline = z.isInline) := by
  have hr := (C80_named s).2 x h
  have h128 := Nominals.fits_lt hn
  obtain ⟨t, ht⟩ : ∃ t, x.asStr = some t := by
    rcases C41_always_succeeds s hn with ⟨y, _, a2⟩ | ⟨e, _, a2⟩ <;> obtain ⟨x', e1, e2⟩ := view_text a2 <;> rw [h] at e1 <;> cases e1 <;>
      exact ⟨_, e2⟩
  have hv : view (toNominal cfg T n s.system) = .ok (t, x.isInline) := by rw [h]; simp [view, Res.bind, ht]
  have fin : ∀ {s' : Named} {y : NStr} {u : List Char}, view (toNominal cfg T n s'.system) = .ok (u, x.isInline) → y.asStr = some u →
      y.isInline = x.isInline → Reachable cfg y →
      ∃ z, toNominal cfg T n s'.system = .ok z ∧ y.eq z = some true ∧ y.asStr = z.asStr ∧ y.isInline = z.isInline := by
    intro s' y u hw hy hi hyr
    obtain ⟨z, z1, z2⟩ := view_text hw
    have hzr := (C80_named s').2 z z1
    rw [z1] at hw
    simp only [view, Res.bind, z2, Res.ok.injEq, Prod.mk.injEq, true_and] at hw
    refine ⟨z, z1, ?_, by rw [hy, z2], by rw [hi, hw]⟩
    simp [NStr.eq, (reachable_text hyr hy).strBytes, (reachable_text hzr z2).strBytes]
  obtain ⟨⟨y, y1, y2, y3, y4⟩, ⟨w, w1, w2, w3, w4⟩⟩ := C88_edit hr ht
  obtain ⟨z, z1, z2, z3, z4⟩ := fin (label_map hn utf8Len_lower digit_lower (answer_lower s h128) hv) y2 y3 y4
  obtain ⟨v, v1, v2, v3, v4⟩ := fin (label_map hn utf8Len_upper digit_upper (answer_upper s h128) hv) w2 w3 w4
  exact ⟨⟨y, z, y1, z1, z2, z3, z4⟩, ⟨w, v, w1, v1, v2, v3, v4⟩⟩

/-- The Roman 14 in capitals, made lower case, is what `RomanLower` writes. -/
example : ∃ x y z, toNominal ⟨true, .w64, true⟩ .u8 14 Named.romanUpper.system = .ok x ∧ makeAsciiLowercase x = some y ∧
    toNominal ⟨true, .w64, true⟩ .u8 14 Named.romanLower.system = .ok z ∧ y.eq z = some true ∧ z.asStr = some ['x', 'i', 'v'] := by
  obtain ⟨x, h⟩ : ∃ x, toNominal ⟨true, .w64, true⟩ .u8 14 Named.romanUpper.system = .ok x := ⟨_, rfl⟩
  obtain ⟨y, z, hy, hz, he, -⟩ := (C88_twins .romanUpper (by decide) h).1
  refine ⟨x, y, z, h, hy, hz, he, ?_⟩
  have hz' : toNominal ⟨true, .w64, true⟩ .u8 14 Named.romanLower.system = .ok z := hz
  cases hz'
  decide +kernel

/-- C88, part 3. Comparing labels without regard to ASCII case confuses no two numbers: labels of one system, or of the two systems of a pair,
are equal up to case exactly if they label the same number, whichever integer types were used. -/
theorem C88_ignore_case {cfg : Cfg} {T T' : IntTy} {n m : Nat} {s s' : Named} (hs : lowerTwin s = lowerTwin s') (hn : T.Fits cfg n)
    (hm : T'.Fits cfg m) {x y : NStr} (hx : toNominal cfg T n s.system = .ok x) (hy : toNominal cfg T' m s'.system = .ok y) :
    eqIgnoreAsciiCase x y = some (decide (n = m)) := by
  have txt : ∀ {T : IntTy} {n : Nat} {s : Named} {x : NStr}, T.Fits cfg n → toNominal cfg T n s.system = .ok x →
      ∃ t, x.asStr = some t ∧ view (toNominal cfg T n s.system) = .ok (t, x.isInline) := by
    intro T n s x hn h
    rcases C41_always_succeeds s hn with ⟨y, _, a2⟩ | ⟨e, _, a2⟩ <;> obtain ⟨x', e1, e2⟩ := view_text a2 <;> rw [h] at e1 <;> cases e1 <;>
      exact ⟨_, e2, by rw [h]; simp [view, Res.bind, e2]⟩
  obtain ⟨t, tx, vt⟩ := txt hn hx
  obtain ⟨w, ty, vw⟩ := txt hm hy
  have rx := (C80_named s).2 x hx
  have ry := (C80_named s').2 y hy
  have l1 := label_map hn utf8Len_lower digit_lower (answer_lower s (Nominals.fits_lt hn)) vt
  have l2 := label_map hm utf8Len_lower digit_lower (answer_lower s' (Nominals.fits_lt hm)) vw
  rw [← hs] at l2
  have key : (utf8Encode (t.map Char.toLower) = utf8Encode (w.map Char.toLower)) ↔ n = m := by
    constructor
    · intro e
      rw [utf8Encode_injective e] at l1
      exact C75_injective _ hn hm l1 l2
    · rintro rfl
      rw [toNominal_types _ hm hn, l1] at l2
      injection l2 with l2
      injection l2 with l2 _
      rw [l2]
  simp only [eqIgnoreAsciiCase, (reachable_text rx tx).strBytes, (reachable_text ry ty).strBytes, Option.bind_eq_bind, Option.bind_some, pure,
    ← utf8Encode_lower]
  congr 1
  rw [Bool.eq_iff_iff]
  simp [key]

/-- 27 in letters, 255 in hexadecimal, 0 and 14 in Roman numerals, the Greek and Armenian capitals, which ASCII does not touch; and a fallback. -/
example :
    (∃ x y, toNominal ⟨true, .w64, true⟩ .u8 27 Named.letterUpper.system = .ok x ∧ x.asStr = some ['A', 'B'] ∧
      makeAsciiLowercase x = some y ∧ y.asStr = some ['a', 'b']) ∧
    (∃ x y, toNominal ⟨true, .w64, true⟩ .u8 255 Named.hexLower.system = .ok x ∧ makeAsciiUppercase x = some y ∧ y.asStr = some ['F', 'F']) ∧
    (∃ x y, toNominal ⟨true, .w64, true⟩ .u8 0 Named.romanUpper.system = .ok x ∧ makeAsciiLowercase x = some y ∧ y.asStr = some ['n']) ∧
    (∃ x y, toNominal ⟨true, .w64, true⟩ .u8 2 Named.greekUpper.system = .ok x ∧ makeAsciiLowercase x = some y ∧ y.asStr = some ['Γ']) ∧
    (∃ x y, toNominal ⟨true, .w64, true⟩ .u8 0 Named.armenianUpper.system = .ok x ∧ makeAsciiLowercase x = some y ∧ y.asStr = some ['0']) := by
  refine ⟨⟨_, _, rfl, ?_, rfl, ?_⟩, ⟨_, _, rfl, rfl, ?_⟩, ⟨_, _, rfl, rfl, ?_⟩, ⟨_, _, rfl, rfl, ?_⟩, ⟨_, _, rfl, rfl, ?_⟩⟩ <;> decide +kernel

/-- Upper case against lower case: 255 is `FF` and `ff`, 254 is not. -/
example :
    (∃ x y z, toNominal ⟨true, .w64, true⟩ .u8 255 Named.hexUpper.system = .ok x ∧ toNominal ⟨true, .w64, true⟩ .u16 255 Named.hexLower.system = .ok y ∧
      toNominal ⟨true, .w64, true⟩ .u16 254 Named.hexLower.system = .ok z ∧ x.eq y = some false ∧ eqIgnoreAsciiCase x y = some true ∧
      eqIgnoreAsciiCase x z = some false) := by
  refine ⟨_, _, _, rfl, rfl, rfl, ?_, ?_, ?_⟩ <;> decide +kernel

/-- C30 for `RomanLower`: in capitals, its text is read exactly as that of `RomanUpper`. -/
theorem C30_lower {cfg : Cfg} {T : IntTy} {n : Nat} (hn : T.Fits cfg n) (h0 : n ≠ 0) {t : List Char} {i : Bool}
    (h : view (romanLowerTryFormat cfg T n) = .ok (t, i)) :
    readRoman (t.map Char.toUpper) = n - (if n / 10 ^ 5 % 10 = 9 then 400000 else 0) - (if n / 10 ^ 4 % 10 = 9 then 40000 else 0) := by
  rw [(C25_roman hn).2, if_neg h0] at h
  have hw : n < 2 ^ 128 := Nat.lt_of_lt_of_le hn (Nat.pow_le_pow_right (by decide) (bits_le cfg T))
  have hu := answer_upper .romanLower hw
  simp only [upperTwin, answer, mapAnswer, if_neg h0, Answer.text.injEq] at hu
  rw [← deliver_ok h, ← hu, readRoman_romanText]

/-- 1990 and 90,123 in small letters. -/
example : readRoman ((['m', 'c', 'm', 'x', 'c'] : List Char).map Char.toUpper) = 1990 ∧
    readRoman (((romanText 90123).map Char.toLower).map Char.toUpper) = 50123 := by decide +kernel

end Nominals.Props
