/-!
# Outcomes, configurations and machine integers

Shared vocabulary of the model: what a Rust call can do (`Res`), which build of the crate is running
(`Cfg`), and the six integer types that implement `Nominal`.
-/

namespace Nominals

/-- Outcome of running a piece of Rust code, for instance of `try_format_nominal` (src/lib.rs:55) or `try_push`
(src/nominalstring.rs:66).

* `ok a`    – returned `a` (or `Ok(a)`),
* `err e`   – returned `Err(e)`,
* `panic`   – panicked (index out of range, division by zero, integer underflow, `expect`, `panic!`),
* `ub`      – executed undefined behaviour (read of an uninitialised byte, invalid UTF-8 handed to
              `from_utf8_unchecked`, raw pointer outside the buffer),
* `timeout` – the fuel given to a loop or the depth given to a recursion ran out. -/
inductive Res (ε α : Type) where
  | ok (a : α)
  | err (e : ε)
  | panic
  | ub
  | timeout
deriving DecidableEq, Repr

namespace Res

/-- Sequencing; models `?` (for instance src/hebrew.rs:51, src/chinese.rs:77) and ordinary statement order. -/
def bind {ε α β : Type} (r : Res ε α) (f : α → Res ε β) : Res ε β :=
  match r with
  | ok a => f a
  | err e => err e
  | panic => panic
  | ub => ub
  | timeout => timeout

/-- `do` notation for `bind`; models statement order, as in src/additive.rs:50-64. -/
instance {ε : Type} : Monad (Res ε) where
  pure := ok
  bind := bind

/-- Models `Result::map_err` (src/lib.rs:245, src/chinese.rs:386-390 through `?`). -/
def mapErr {ε ε' α : Type} (f : ε → ε') (r : Res ε α) : Res ε' α :=
  match r with
  | ok a => ok a
  | err e => err (f e)
  | panic => panic
  | ub => ub
  | timeout => timeout

/-- Apply a function to the successful value; a call followed by building the result from it, as in src/nominalstring.rs:435-461. -/
def map {ε α β : Type} (f : α → β) (r : Res ε α) : Res ε β :=
  match r with
  | ok a => ok (f a)
  | err e => err e
  | panic => panic
  | ub => ub
  | timeout => timeout

/-- An indexing expression such as `characters[0]` (src/chinese.rs:77) or `self.digits[index]` (src/digital.rs:536): `none` is an out-of-range index, i.e. a panic. -/
def ofIndex {ε α : Type} (o : Option α) : Res ε α :=
  match o with
  | some a => ok a
  | none => panic

end Res

/-- Pointer width of the target, which decides what `usize` means in all of src/*.rs (`usize` is 16, 32 or 64 bits wide on every Rust target). -/
inductive PtrWidth where
  | w16 | w32 | w64
deriving DecidableEq, Repr

/-- Width of `usize` in bits (`usize` is the index type of src/digital.rs:632-685 and a `Nominal`, src/lib.rs:128). -/
def PtrWidth.bits : PtrWidth → Nat
  | .w16 => 16
  | .w32 => 32
  | .w64 => 64

/-- Build configuration: the `alloc` cargo feature (Cargo.toml:13-15), the target's pointer width, and whether integer arithmetic is
checked for overflow (`overflow-checks` of the Cargo profile, on in the `dev` profile and off in the `release` profile unless changed). -/
structure Cfg where
  alloc : Bool
  ptr : PtrWidth
  checks : Bool
deriving DecidableEq, Repr

/-- The same build with overflow checks, as in the `dev` profile (src/*.rs has no settings of its own for it). -/
def Cfg.debug (cfg : Cfg) : Cfg := { cfg with checks := true }

/-- The same build without overflow checks, as in the `release` profile (Cargo.toml has no profile section, src/*.rs no settings of its own). -/
def Cfg.release (cfg : Cfg) : Cfg := { cfg with checks := false }

/-- The six types with `impl Nominal` (src/lib.rs:123-128). The trait is sealed through
`sealed::IntegerDivision` (src/lib.rs:18-22, 144), so there are no others. -/
inductive IntTy where
  | u8 | u16 | u32 | u64 | u128 | usize
deriving DecidableEq, Repr

/-- Bit width of an integer type (src/lib.rs:123-128). -/
def IntTy.bits (cfg : Cfg) : IntTy → Nat
  | .u8 => 8
  | .u16 => 16
  | .u32 => 32
  | .u64 => 64
  | .u128 => 128
  | .usize => cfg.ptr.bits

/-- `n` is a value of type `T` (src/lib.rs:123-128). -/
def IntTy.Fits (cfg : Cfg) (T : IntTy) (n : Nat) : Prop := n < 2 ^ T.bits cfg

/-- Whether a number fits a type can be decided (src/lib.rs:123-128). -/
instance (cfg : Cfg) (T : IntTy) (n : Nat) : Decidable (T.Fits cfg n) :=
  inferInstanceAs (Decidable (_ < _))

/-- `T::try_from(v).ok()` for `v : usize`, `u32` or `u128` (standard integer conversions; src/additive.rs:55, src/hebrew.rs:45,
src/digital.rs:562 and :599, src/chinese.rs:37, 185, 220 and 247). -/
def IntTy.tryFrom (cfg : Cfg) (T : IntTy) (v : Nat) : Option Nat :=
  if v < 2 ^ T.bits cfg then some v else none

/-- `n.try_into()` towards `usize` (src/enumerated.rs:32). -/
def tryIntoUsize (cfg : Cfg) (n : Nat) : Option Nat :=
  if n < 2 ^ cfg.ptr.bits then some n else none

/-- src/lib.rs:167-169 `UnsignedInteger::as_usize`: `self as usize` truncates. -/
def asUsize (cfg : Cfg) (n : Nat) : Nat := n % 2 ^ cfg.ptr.bits

/-- `a - b` on an unsigned type (src/digital.rs:591, src/additive.rs:59, src/hebrew.rs:65, src/enumerated.rs:37,
src/nominalstring.rs:343-345, 368-370, 398-399): underflow panics with overflow checks and wraps around without. -/
def subT {ε : Type} (cfg : Cfg) (T : IntTy) (a b : Nat) : Res ε Nat :=
  if b ≤ a then .ok (a - b) else if cfg.checks then .panic else .ok (a + 2 ^ T.bits cfg - b)

/-- `a / b` (src/digital.rs:598, src/ethiopic.rs:27-30, src/chinese.rs:65-70, 198, 332-340): division by zero panics. -/
def divT {ε : Type} (a b : Nat) : Res ε Nat := if b = 0 then .panic else .ok (a / b)

/-- `a % b` (src/digital.rs:596, src/ethiopic.rs:27-30, src/chinese.rs:65-69, 203, 331): remainder by zero panics. -/
def remT {ε : Type} (a b : Nat) : Res ε Nat := if b = 0 then .panic else .ok (a % b)

/-- `a + b` on `u8` (src/nominalstring.rs:440, 506): overflow panics with overflow checks and wraps around without. -/
def addU8 {ε : Type} (cfg : Cfg) (a b : UInt8) : Res ε UInt8 :=
  if a.toNat + b.toNat < 256 then .ok (a + b) else if cfg.checks then .panic else .ok (a + b)

end Nominals
