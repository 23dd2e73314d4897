import Verif.Model.NominalString

/-!
# src/nominalstring.rs with a log of the cells written

The pushes of `Model/NominalString.lean` once more, with a log of the indices of the cells of the inline buffer that are written, in the
order of the calls. The log has no influence on the results: `C98_log` proves that without it these functions are those of
`Model/NominalString.lean`, and that cells which are not in the log keep their contents. Not logged: the length byte, and what `String`
does once the text is on the heap.
-/

namespace Nominals

/-- A result with the list of the cells of the buffer written on the way (src/nominalstring.rs:269). -/
abbrev Writes (ε α : Type) := List Nat × Res ε α

/-- `Res.bind` with a log (src/nominalstring.rs:335-414: one statement after the other). -/
def Writes.bind {ε α β : Type} (r : Writes ε α) (f : α → Writes ε β) : Writes ε β :=
  match r.2 with
  | .ok a => (r.1 ++ (f a).1, (f a).2)
  | .err e => (r.1, .err e)
  | .panic => (r.1, .panic)
  | .ub => (r.1, .ub)
  | .timeout => (r.1, .timeout)

/-- A step that writes to no cell (src/nominalstring.rs:341, 342, 365, 366, 398, 399, and `set_length`). -/
def Res.quiet {ε α : Type} (r : Res ε α) : Writes ε α := ([], r)

/-- `<[T]>::copy_within(lo..hi, dest)` (src/nominalstring.rs:343, 368, 409) writes `hi - lo` cells from `dest` on; none if it panics. -/
def copyWithinW {ε α : Type} (bs : List α) (lo hi dest : Nat) : Writes ε (List α) :=
  match copyWithin bs lo hi dest with
  | some b => (List.range' dest (hi - lo), .ok b)
  | none => ([], .panic)

/-- The `zip` loop over `bs[lo..hi]` (src/nominalstring.rs:345-350, 352-357, 370-375, 400-405, and `encode_utf8` in :412) writes one cell per
byte of the source, as far as the slice goes; none if the slice expression panics. -/
def zipWriteW {ε : Type} (bs : List (Option UInt8)) (lo hi : Nat) (src : List UInt8) : Writes ε (List (Option UInt8)) :=
  match zipWrite bs lo hi src with
  | some b => (List.range' lo (min (hi - lo) src.length), .ok b)
  | none => ([], .panic)

namespace InlineString

/-- src/nominalstring.rs:335-360 `push`, logged. -/
def pushW {ε : Type} (cfg : Cfg) (s : InlineString) (ch : Char) (charLen inlineLen newLength : UInt8) : Writes ε InlineString :=
  let utf8 := String.utf8EncodeChar ch
  if s.isReverse then
    let currentOffset := s.dataOffset
    (subT cfg .usize INLINE_CAPACITY newLength.toNat).quiet.bind fun dest =>
    (copyWithinW s.bytes currentOffset s.bytes.length dest).bind fun b1 =>
    (subT cfg .usize INLINE_CAPACITY charLen.toNat).quiet.bind fun start =>
    (zipWriteW b1 start b1.length (utf8.take charLen.toNat)).bind fun b2 =>
    (Res.ok (setLength { s with bytes := b2 } newLength)).quiet
  else
    (zipWriteW s.bytes inlineLen.toNat newLength.toNat (utf8.take charLen.toNat)).bind fun b1 =>
    (Res.ok (setLength { s with bytes := b1 } newLength)).quiet

/-- src/nominalstring.rs:362-391 `push_str`, logged. The raw `copy_from` (:382-387) writes `str.len()` cells from the length on. -/
def pushStrW {ε : Type} (cfg : Cfg) (s : InlineString) (str : List Char) (newLength : UInt8) : Writes ε InlineString :=
  let src := utf8Encode str
  if s.isReverse then
    let currentOffset := s.dataOffset
    (subT cfg .usize INLINE_CAPACITY newLength.toNat).quiet.bind fun dest =>
    (copyWithinW s.bytes currentOffset s.bytes.length dest).bind fun b1 =>
    (subT cfg .usize INLINE_CAPACITY src.length).quiet.bind fun start =>
    (zipWriteW b1 start b1.length src).bind fun b2 =>
    (Res.ok (setLength { s with bytes := b2 } newLength)).quiet
  else
    if s.lenUsize + src.length ≤ s.bytes.length then
      let b1 := s.bytes.take s.lenUsize ++ src.map some ++ s.bytes.drop (s.lenUsize + src.length)
      (List.range' s.lenUsize src.length, .ok (setLength { s with bytes := b1 } newLength))
    else Res.ub.quiet

/-- src/nominalstring.rs:393-414 `push_front`, logged. -/
def pushFrontW {ε : Type} (cfg : Cfg) (s : InlineString) (ch : Char) (charLen inlineLen newLength : UInt8) : Writes ε InlineString :=
  let utf8 := String.utf8EncodeChar ch
  if s.isReverse then
    (subT cfg .u8 INLINE_CAPACITY newLength.toNat).quiet.bind fun start =>
    (subT cfg .u8 INLINE_CAPACITY inlineLen.toNat).quiet.bind fun stop =>
    (zipWriteW s.bytes start stop (utf8.take charLen.toNat)).bind fun b1 =>
    (Res.ok (setLength { s with bytes := b1 } newLength)).quiet
  else
    (copyWithinW s.bytes 0 inlineLen.toNat charLen.toNat).bind fun b1 =>
    let s1 := setLength { s with bytes := b1 } newLength
    if utf8.length ≤ s1.lenUsize then
      (zipWriteW s1.bytes s1.dataOffset (s1.dataOffset + s1.lenUsize) utf8).bind fun b2 =>
      (Res.ok { s1 with bytes := b2 }).quiet
    else Res.panic.quiet

end InlineString

/-- `Res.map` with a log (src/nominalstring.rs:444, 473, 510). -/
def Writes.map {ε α β : Type} (r : Writes ε α) (f : α → β) : Writes ε β := (r.1, r.2.map f)

namespace NStr

/-- src/nominalstring.rs:435-461 `MaybeInline::push`, logged. Moving to the heap reads the buffer and replaces it; nothing is written to it. -/
def tryPushW (cfg : Cfg) (s : NStr) (ch : Char) : Writes (OutOfMemoryError × NStr) NStr :=
  match s with
  | .inline s =>
    let charLen := UInt8.ofNat ch.utf8Size
    let inlineLen := s.len
    (addU8 cfg inlineLen charLen).quiet.bind fun newLength =>
    if newLength.toNat ≤ INLINE_CAPACITY then
      (s.pushW cfg ch charLen inlineLen newLength).map .inline
    else (if cfg.alloc then
      match s.asStr with
      | some t => .ok (.heap (t ++ [ch]))
      | none => .ub
    else Res.err (.mk, .inline s)).quiet
  | .heap s => (Res.ok (.heap (s ++ [ch]))).quiet

/-- src/nominalstring.rs:464-498 `MaybeInline::push_str`, logged. -/
def tryPushStrW (cfg : Cfg) (s : NStr) (str : List Char) : Writes (OutOfMemoryError × NStr) NStr :=
  match s with
  | .inline s =>
    let strLen := (utf8Encode str).length
    if strLen < 256 ∧ s.len.toNat + strLen < 256 ∧ s.len.toNat + strLen ≤ INLINE_CAPACITY then
      (s.pushStrW cfg str (UInt8.ofNat (s.len.toNat + strLen))).map .inline
    else (if cfg.alloc then
      match s.asStr with
      | some t => .ok (.heap (t ++ str))
      | none => .ub
    else Res.err (.mk, .inline s)).quiet
  | .heap s => (Res.ok (.heap (s ++ str))).quiet

/-- src/nominalstring.rs:501-527 `MaybeInline::push_front`, logged. -/
def tryPushFrontW (cfg : Cfg) (s : NStr) (ch : Char) : Writes (OutOfMemoryError × NStr) NStr :=
  match s with
  | .inline s =>
    let charLen := UInt8.ofNat ch.utf8Size
    let inlineLen := s.len
    (addU8 cfg inlineLen charLen).quiet.bind fun newLength =>
    if newLength.toNat ≤ INLINE_CAPACITY then
      (s.pushFrontW cfg ch charLen inlineLen newLength).map .inline
    else (if cfg.alloc then
      match s.asStr with
      | some t => .ok (.heap (ch :: t))
      | none => .ub
    else Res.err (.mk, .inline s)).quiet
  | .heap s => (Res.ok (.heap (ch :: s))).quiet

end NStr

end Nominals
