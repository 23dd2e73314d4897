import Verif.Model.Prim

/-!
# src/nominalstring.rs — `NominalString` at byte level
-/

namespace Nominals

/-- src/nominalstring.rs:418 `MaybeInline::INLINE_CAPACITY` (and :36 `NominalString::INLINE_CAPACITY`). -/
def INLINE_CAPACITY : Nat := 62

/-- src/nominalstring.rs:547-548 `OutOfMemoryError`. -/
inductive OutOfMemoryError where
  | mk
deriving DecidableEq, Repr

/-- src/nominalstring.rs:266-270 `InlineString`. A cell is `none` while it is
`MaybeUninit::uninit()`. Simplification: the array is a `List` whose length (62) is an invariant rather
than a type index. -/
structure InlineString where
  length : UInt8
  bytes : List (Option UInt8)
deriving DecidableEq, Repr

/-- src/nominalstring.rs:249-254 `MaybeInline` wrapped by `NominalString` (:16). The heap `String` is the
list of its characters. In a no-`alloc` build the `heap` constructor does not exist; the model never
builds it then (see `NStr.push` etc.). -/
inductive NStr where
  | inline (s : InlineString)
  | heap (s : List Char)
deriving DecidableEq, Repr

/-! ## Standard library pieces -/

/-- `str::len` (src/nominalstring.rs:149, 467, 480), `char::len_utf8` (:438, :504): UTF-8 length in bytes of a text. -/
def utf8Len (t : List Char) : Nat := (t.map Char.utf8Size).sum

/-- `str::as_bytes` (src/nominalstring.rs:153, 372, 386), `char::encode_utf8` (:337, :396, :412): UTF-8 encoding of a text. -/
def utf8Encode (t : List Char) : List UInt8 := t.flatMap String.utf8EncodeChar

/-- One continuation byte `10xxxxxx`; for `utf8Decode` (src/nominalstring.rs:321). -/
def contByte? (b : UInt8) : Option Nat :=
  if 0x80 ≤ b.toNat ∧ b.toNat < 0xC0 then some (b.toNat - 0x80) else none

/-- For `utf8Decode` (src/nominalstring.rs:321): code point to `char`, rejecting surrogates and values above 0x10FFFF. -/
def charOfNat? (v : Nat) : Option Char :=
  if h : v.isValidChar then some (Char.ofNatAux v h) else none

/-- For `utf8Decode` (src/nominalstring.rs:321): decode one scalar value from the front of a byte list (RFC 3629, shortest form only). -/
def utf8DecodeOne : List UInt8 → Option (Char × List UInt8)
  | [] => none
  | a :: r =>
    if a.toNat < 0x80 then (charOfNat? a.toNat).map (·, r)
    else if a.toNat < 0xC0 then none
    else if a.toNat < 0xE0 then
      match r with
      | b :: r => do
        let y ← contByte? b
        let v := (a.toNat - 0xC0) * 64 + y
        if v < 0x80 then none else (charOfNat? v).map (·, r)
      | _ => none
    else if a.toNat < 0xF0 then
      match r with
      | b :: c :: r => do
        let y ← contByte? b
        let z ← contByte? c
        let v := ((a.toNat - 0xE0) * 64 + y) * 64 + z
        if v < 0x800 then none else (charOfNat? v).map (·, r)
      | _ => none
    else if a.toNat < 0xF8 then
      match r with
      | b :: c :: d :: r => do
        let y ← contByte? b
        let z ← contByte? c
        let w ← contByte? d
        let v := (((a.toNat - 0xF0) * 64 + y) * 64 + z) * 64 + w
        if v < 0x10000 then none else (charOfNat? v).map (·, r)
      | _ => none
    else none

/-- For `utf8Decode` (src/nominalstring.rs:321): decode with fuel (one unit per scalar value). -/
def utf8DecodeAux : Nat → List UInt8 → Option (List Char)
  | _, [] => some []
  | 0, _ :: _ => none
  | fuel + 1, bs => do
    let (c, r) ← utf8DecodeOne bs
    let cs ← utf8DecodeAux fuel r
    return c :: cs

/-- The text denoted by a byte string, `none` if it is not valid UTF-8. Models what
`str::from_utf8_unchecked` (src/nominalstring.rs:321, 328) yields when its safety contract holds. -/
def utf8Decode (bs : List UInt8) : Option (List Char) := utf8DecodeAux bs.length bs

/-- `<[T]>::copy_within(lo..hi, dest)` (src/nominalstring.rs:343, 368, 409); `none` is the panic on bad bounds. -/
def copyWithin {α : Type} (bs : List α) (lo hi dest : Nat) : Option (List α) :=
  if lo ≤ hi ∧ hi ≤ bs.length ∧ dest ≤ bs.length - (hi - lo) then
    some (bs.take dest ++ (bs.drop lo).take (hi - lo) ++ bs.drop (dest + (hi - lo)))
  else none

/-- `for (dest, src) in bs[lo..hi].iter_mut().zip(src) { dest.write(*src) }` (src/nominalstring.rs:153-155, 345-350, 352-357,
370-375, 400-405); `none` is the panic of the
slice expression. `zip` stops at the shorter side. -/
def zipWrite (bs : List (Option UInt8)) (lo hi : Nat) (src : List UInt8) : Option (List (Option UInt8)) :=
  if lo ≤ hi ∧ hi ≤ bs.length then
    some (bs.take lo ++ (src.take (hi - lo)).map some ++ bs.drop (lo + min (hi - lo) src.length))
  else none

namespace InlineString

/-- src/nominalstring.rs:273-275 `len`. -/
def len (s : InlineString) : UInt8 := s.length &&& 0x7F

/-- src/nominalstring.rs:277-279 `len_usize`. -/
def lenUsize (s : InlineString) : Nat := s.len.toNat

/-- src/nominalstring.rs:281-283 `is_reverse`. -/
def isReverse (s : InlineString) : Bool := s.length &&& 0x80 != 0

/-- src/nominalstring.rs:285-291 `data_offset`. Simplification: natural subtraction; the Rust
subtraction cannot underflow while `len ≤ 62`, which is part of the proved invariant. -/
def dataOffset (s : InlineString) : Nat :=
  if s.isReverse then INLINE_CAPACITY - s.lenUsize else 0

/-- src/nominalstring.rs:293-302 `as_bytes`: the `len` cells starting at `data_offset`. `none` if that
window leaves the buffer or contains an uninitialised cell (undefined behaviour). -/
def asBytes (s : InlineString) : Option (List UInt8) :=
  if s.dataOffset + s.lenUsize ≤ s.bytes.length then
    ((s.bytes.drop s.dataOffset).take s.lenUsize).mapM id
  else none

/-- src/nominalstring.rs:317-322 `as_str`; `none` is undefined behaviour. -/
def asStr (s : InlineString) : Option (List Char) := s.asBytes.bind utf8Decode

/-- src/nominalstring.rs:331-333 `set_length` (`&` binds tighter than `|`). -/
def setLength (s : InlineString) (newLength : UInt8) : InlineString :=
  { s with length := (s.length &&& 0x80) ||| newLength }

/-- src/nominalstring.rs:335-360 `push`. -/
def push {ε : Type} (cfg : Cfg) (s : InlineString) (ch : Char) (charLen inlineLen newLength : UInt8) : Res ε InlineString :=
  let utf8 := String.utf8EncodeChar ch
  if s.isReverse then
    let currentOffset := s.dataOffset
    (subT cfg .usize INLINE_CAPACITY newLength.toNat).bind fun dest =>
    (Res.ofIndex (copyWithin s.bytes currentOffset s.bytes.length dest)).bind fun b1 =>
    (subT cfg .usize INLINE_CAPACITY charLen.toNat).bind fun start =>
    (Res.ofIndex (zipWrite b1 start b1.length (utf8.take charLen.toNat))).bind fun b2 =>
    .ok (setLength { s with bytes := b2 } newLength)
  else
    (Res.ofIndex (zipWrite s.bytes inlineLen.toNat newLength.toNat (utf8.take charLen.toNat))).bind fun b1 =>
    .ok (setLength { s with bytes := b1 } newLength)

/-- src/nominalstring.rs:362-391 `push_str`. The forward branch is a raw `copy_from`; leaving the buffer is
undefined behaviour. -/
def pushStr {ε : Type} (cfg : Cfg) (s : InlineString) (str : List Char) (newLength : UInt8) : Res ε InlineString :=
  let src := utf8Encode str
  if s.isReverse then
    let currentOffset := s.dataOffset
    (subT cfg .usize INLINE_CAPACITY newLength.toNat).bind fun dest =>
    (Res.ofIndex (copyWithin s.bytes currentOffset s.bytes.length dest)).bind fun b1 =>
    (subT cfg .usize INLINE_CAPACITY src.length).bind fun start =>
    (Res.ofIndex (zipWrite b1 start b1.length src)).bind fun b2 =>
    .ok (setLength { s with bytes := b2 } newLength)
  else
    if s.lenUsize + src.length ≤ s.bytes.length then
      let b1 := s.bytes.take s.lenUsize ++ src.map some ++ s.bytes.drop (s.lenUsize + src.length)
      .ok (setLength { s with bytes := b1 } newLength)
    else .ub

/-- src/nominalstring.rs:408-410, the forward branch of `push_front` up to the point where `self.as_bytes_mut()` is called:
`copy_within` and `set_length`. `none` if `copy_within` panics. -/
def frontShifted (s : InlineString) (charLen inlineLen newLength : UInt8) : Option InlineString :=
  (copyWithin s.bytes 0 inlineLen.toNat charLen.toNat).map fun b1 => setLength { s with bytes := b1 } newLength

/-- src/nominalstring.rs:393-414 `push_front`. In the forward branch `ch.encode_utf8(self.as_bytes_mut())`
writes the encoding over the first bytes of the (already lengthened) window; `encode_utf8` panics if the
window is too short. The window is only written to; see `frontSlice` and C50 for the remark on its
`SAFETY` comment. -/
def pushFront {ε : Type} (cfg : Cfg) (s : InlineString) (ch : Char) (charLen inlineLen newLength : UInt8) : Res ε InlineString :=
  let utf8 := String.utf8EncodeChar ch
  if s.isReverse then
    (subT cfg .u8 INLINE_CAPACITY newLength.toNat).bind fun start =>
    (subT cfg .u8 INLINE_CAPACITY inlineLen.toNat).bind fun stop =>
    (Res.ofIndex (zipWrite s.bytes start stop (utf8.take charLen.toNat))).bind fun b1 =>
    .ok (setLength { s with bytes := b1 } newLength)
  else
    (Res.ofIndex (s.frontShifted charLen inlineLen newLength)).bind fun s1 =>
    if utf8.length ≤ s1.lenUsize then
      (Res.ofIndex (zipWrite s1.bytes s1.dataOffset (s1.dataOffset + s1.lenUsize) utf8)).bind fun b2 =>
      .ok { s1 with bytes := b2 }
    else .panic

/-- src/nominalstring.rs:412, 304-315: the cells of the slice that `self.as_bytes_mut()` materialises in the forward
branch of `push_front`, at the moment it is created (before `encode_utf8` writes to it). `pushFront` above treats the slice
as write-only; this definition records what a stricter reading of `slice::from_raw_parts_mut` (all elements initialised)
would look at. -/
def frontSlice (s : InlineString) (charLen inlineLen newLength : UInt8) : Option (List (Option UInt8)) :=
  (s.frontShifted charLen inlineLen newLength).map fun s1 => (s1.bytes.drop s1.dataOffset).take s1.lenUsize

end InlineString

namespace NStr

/-- src/nominalstring.rs:420-425 `MaybeInline::new` (:40-42 `NominalString::new`, :127-131 `default`). -/
def new : NStr := .inline { length := 0, bytes := List.replicate INLINE_CAPACITY none }

/-- src/nominalstring.rs:427-432 `MaybeInline::reverse` (:56-58 `NominalString::new_reverse`). -/
def newReverse : NStr := .inline { length := 0x80, bytes := List.replicate INLINE_CAPACITY none }

/-- src/nominalstring.rs:529-535 `as_str` (:184-190 `Deref`); `none` is undefined behaviour. -/
def asStr : NStr → Option (List Char)
  | .inline s => s.asStr
  | .heap s => some s

/-- src/nominalstring.rs:92-94 `is_inline`. -/
def isInline : NStr → Bool
  | .inline _ => true
  | .heap _ => false

/-- `str::is_empty` through `Deref` (src/hebrew.rs:61): byte length is 0. -/
def isEmpty : NStr → Bool
  | .inline s => s.lenUsize == 0
  | .heap s => s.isEmpty

/-- src/nominalstring.rs:435-461 `MaybeInline::push` (:66-68 `try_push`). The call mutates `self`; `ok s'` and
`err (e, s')` carry the string as it is after the call. -/
def tryPush (cfg : Cfg) (s : NStr) (ch : Char) : Res (OutOfMemoryError × NStr) NStr :=
  match s with
  | .inline s =>
    let charLen := UInt8.ofNat ch.utf8Size
    let inlineLen := s.len
    (addU8 cfg inlineLen charLen).bind fun newLength =>
    if newLength.toNat ≤ INLINE_CAPACITY then
      (s.push cfg ch charLen inlineLen newLength).map .inline
    else if cfg.alloc then
      match s.asStr with
      | some t => .ok (.heap (t ++ [ch]))
      | none => .ub
    else .err (.mk, .inline s)
  | .heap s => .ok (.heap (s ++ [ch]))

/-- src/nominalstring.rs:66-68 `try_push`: `tryPush` as used by the formatters with `?`, which drop the string on error. -/
def push (cfg : Cfg) (s : NStr) (ch : Char) : Res OutOfMemoryError NStr :=
  (s.tryPush cfg ch).mapErr Prod.fst

/-- src/nominalstring.rs:464-498 `MaybeInline::push_str` (:76-78 `try_push_str`). The test
`u8::try_from(str.len())` / `checked_add` / `<= INLINE_CAPACITY` is transcribed as is. -/
def tryPushStr (cfg : Cfg) (s : NStr) (str : List Char) : Res (OutOfMemoryError × NStr) NStr :=
  match s with
  | .inline s =>
    let strLen := (utf8Encode str).length
    if strLen < 256 ∧ s.len.toNat + strLen < 256 ∧ s.len.toNat + strLen ≤ INLINE_CAPACITY then
      (s.pushStr cfg str (UInt8.ofNat (s.len.toNat + strLen))).map .inline
    else if cfg.alloc then
      match s.asStr with
      | some t => .ok (.heap (t ++ str))
      | none => .ub
    else .err (.mk, .inline s)
  | .heap s => .ok (.heap (s ++ str))

/-- src/nominalstring.rs:76-78 `try_push_str`: `tryPushStr` as used by the formatters with `?`, which drop the string on error. -/
def pushStr (cfg : Cfg) (s : NStr) (str : List Char) : Res OutOfMemoryError NStr :=
  (s.tryPushStr cfg str).mapErr Prod.fst

/-- src/nominalstring.rs:501-527 `MaybeInline::push_front` (:86-88 `try_push_front`). -/
def tryPushFront (cfg : Cfg) (s : NStr) (ch : Char) : Res (OutOfMemoryError × NStr) NStr :=
  match s with
  | .inline s =>
    let charLen := UInt8.ofNat ch.utf8Size
    let inlineLen := s.len
    (addU8 cfg inlineLen charLen).bind fun newLength =>
    if newLength.toNat ≤ INLINE_CAPACITY then
      (s.pushFront cfg ch charLen inlineLen newLength).map .inline
    else if cfg.alloc then
      match s.asStr with
      | some t => .ok (.heap (ch :: t))
      | none => .ub
    else .err (.mk, .inline s)
  | .heap s => .ok (.heap (ch :: s))

/-- src/nominalstring.rs:86-88 `try_push_front`: `tryPushFront` as used by the formatters with `?`, which drop the string on error. -/
def pushFront (cfg : Cfg) (s : NStr) (ch : Char) : Res OutOfMemoryError NStr :=
  (s.tryPushFront cfg ch).mapErr Prod.fst

/-- src/nominalstring.rs:134-138 `From<String>` (alloc builds only). -/
def ofString (t : List Char) : NStr := .heap t

/-- src/nominalstring.rs:147-174 `From<&str>` (:141-145 `From<&String>` delegates to it). -/
def ofStr {ε : Type} (cfg : Cfg) (t : List Char) : Res ε NStr :=
  let bs := utf8Encode t
  if bs.length < 256 ∧ bs.length ≤ INLINE_CAPACITY then
    (Res.ofIndex (zipWrite (List.replicate INLINE_CAPACITY none) 0 bs.length bs)).bind fun b =>
    .ok (.inline { length := UInt8.ofNat bs.length, bytes := b })
  else if cfg.alloc then .ok (ofString t)
  else .panic

/-- src/nominalstring.rs:176-182 `From<char>`: `expect` panics on error. -/
def ofChar {ε : Type} (cfg : Cfg) (ch : Char) : Res ε NStr :=
  match push cfg new ch with
  | .ok s => .ok s
  | .err _ => .panic
  | .panic => .panic
  | .ub => .ub
  | .timeout => .timeout

/-- src/nominalstring.rs:103-108 `try_into_string`: `Ok` for a heap string, otherwise gives `self` back.
(`Err(self)` is not a failure of the model, hence a sum.) -/
def tryIntoString : NStr → List Char ⊕ NStr
  | .inline s => .inr (.inline s)
  | .heap t => .inl t

/-- src/nominalstring.rs:112-119 `From<NominalString> for String`; `none` is undefined behaviour. -/
def toString' (s : NStr) : Option (List Char) :=
  match s.tryIntoString with
  | .inl t => some t
  | .inr s => s.asStr

/-- src/nominalstring.rs:184-190: the bytes behind `Deref<Target = str>`. -/
def strBytes : NStr → Option (List UInt8)
  | .inline s => s.asBytes
  | .heap s => some (utf8Encode s)

/-- src/nominalstring.rs:192-196, 324-329, 537-543 `DerefMut`: safe code receives `&mut str` and may
overwrite the exposed bytes, keeping their number; `f` is what it does to them. -/
def mutate (s : NStr) (f : List UInt8 → List UInt8) : Option NStr :=
  match s with
  | .inline s =>
    s.asBytes.map fun bs =>
      .inline { s with bytes := s.bytes.take s.dataOffset ++ (f bs).map some ++ s.bytes.drop (s.dataOffset + s.lenUsize) }
  | .heap t => (utf8Decode (f (utf8Encode t))).map .heap

/-- src/nominalstring.rs:200-204 `PartialEq<str>` (:212-216 `&str`, :217-222 `String` delegate to it): `str` equality
is equality of the bytes. -/
def eqStr (a : NStr) (other : List Char) : Option Bool := a.strBytes.map fun x => x == utf8Encode other

/-- src/nominalstring.rs:206-210 `PartialEq<Self>`: `self == &**other`. -/
def eq (a b : NStr) : Option Bool := do
  let x ← a.strBytes
  let y ← b.strBytes
  return x == y

/-- `<[u8] as Ord>::cmp` (lexicographic), which is `str`'s ordering (src/nominalstring.rs:226, 239). -/
def cmpBytes : List UInt8 → List UInt8 → Ordering
  | [], [] => .eq
  | [], _ :: _ => .lt
  | _ :: _, [] => .gt
  | a :: as, b :: bs => if a < b then .lt else if b < a then .gt else cmpBytes as bs

/-- src/nominalstring.rs:224-228 `PartialOrd<str>` (:230-235 `String` delegates to it). -/
def cmpStr (a : NStr) (other : List Char) : Option Ordering := a.strBytes.map fun x => cmpBytes x (utf8Encode other)

/-- src/nominalstring.rs:237-241 `Ord::cmp` (:243-247 `partial_cmp` wraps it). -/
def cmp (a b : NStr) : Option Ordering := do
  let x ← a.strBytes
  let y ← b.strBytes
  return cmpBytes x y

end NStr

end Nominals
