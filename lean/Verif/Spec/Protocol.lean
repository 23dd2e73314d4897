import Verif.Spec.Dyn

/-!
# Conversations with a digit collection

Formatting a number with a user's `DigitCollection` is a conversation: methods are called in some order, and each answers something, possibly
something else than last time. This file says which conversations take place and what comes out of them, without saying how the formatter
computes: quotients and remainders appear only through the equation `m = index + base * quotient`.
-/

namespace Nominals.Spec

/-- A method call with its answer. -/
inductive Call where
  | fixed (a : Bool)
  | hasZero (a : Bool)
  | zeroBased (a : Bool)
  | len (a : Nat)
  | isEmpty (a : Bool)
  | digit (index : Nat) (a : Char)
  | default
deriving DecidableEq

/-- The collection, asked this in state `w`, gives this answer; the state afterwards. -/
def reply {σ : Type} (c : DynColl σ) (w : σ) : Call → Option σ
  | .fixed a => match c.fixed w with | .ok (b, w') => if b = a then some w' else none | _ => none
  | .hasZero a => match c.hasZero w with | .ok (b, w') => if b = a then some w' else none | _ => none
  | .zeroBased a => match c.zeroBased w with | .ok (b, w') => if b = a then some w' else none | _ => none
  | .len a => match c.len w with | .ok (b, w') => if b = a then some w' else none | _ => none
  | .isEmpty a => match c.isEmpty w with | .ok (b, w') => if b = a then some w' else none | _ => none
  | .digit i a => match c.digit i w with | .ok (b, w') => if b = a then some w' else none | _ => none
  | .default => match c.default w with | .ok (_, w') => some w' | _ => none

/-- A tower of collections takes part in a conversation; each call is marked with the level asked. The state afterwards. -/
def converse {σ : Type} (d : DynSys σ) : σ → List (Nat × Call) → Option σ
  | w, [] => some w
  | w, (k, e) :: rest => (reply (d.level k) w e).bind fun w => converse d w rest

/-- The lengths answered are `usize` values. -/
def UsizeLen {σ : Type} (cfg : Cfg) (c : DynColl σ) : Prop := ∀ w l w', c.len w = .ok (l, w') → l < 2 ^ cfg.ptr.bits

/-- One round of the conversation: answers of `has_zero_digit`, `zero_based` and the second `has_zero_digit` (the latter two may not have been
asked), the index asked of `digit` and its answer, and the next length. -/
structure Round where
  hasZero : Bool
  zeroBased : Bool
  hasZeroAgain : Bool
  index : Nat
  symbol : Char
  next : Nat

namespace Round

/-- In this round the symbols stand for 1, 2, … instead of 0, 1, …. -/
def fromOne (r : Round) (first : Bool) : Bool := !r.hasZero && (!r.zeroBased || !first)

/-- The questions before `digit`. -/
def asks (r : Round) (first : Bool) : List Call :=
  .hasZero r.hasZero ::
    (if r.hasZero then [] else .zeroBased r.zeroBased :: if r.fromOne first then [.hasZero r.hasZeroAgain] else [])

/-- All calls of a round. -/
def calls (r : Round) (first : Bool) : List Call := r.asks first ++ [.digit r.index r.symbol, .len r.next]

/-- `m` is what is left to write, `m'` what is left after a symbol from one has taken its one away. From 0 nothing can be taken, but if
`has_zero_digit` changes its answer and arithmetic wraps, it becomes the largest number of `bits` bits. -/
def Takes (r : Round) (bits : Nat) (checks first : Bool) (m m' : Nat) : Prop :=
  if r.fromOne first then
    if m = 0 then r.hasZeroAgain = true ∧ checks = false ∧ m' + 1 = 2 ^ bits else m' + 1 = m
  else m' = m

end Round

/-- Complete rounds: writing `m` with length `base` leads to writing `m'` with length `base'`. A round takes place if there is something left
or nothing has been written yet. -/
def Rounds (bits : Nat) (checks : Bool) : (first : Bool) → (base m : Nat) → List Round → (first' : Bool) → (base' m' : Nat) → Prop
  | first, base, m, [], first', base', m' => first' = first ∧ base' = base ∧ m' = m
  | first, base, m, r :: rs, first', base', m' =>
    (m ≠ 0 ∨ first = true) ∧ r.index < base ∧ r.next < 2 ^ bits ∧
      ∃ q, r.Takes bits checks first m (r.index + base * q) ∧ Rounds bits checks false r.next q rs first' base' m'

/-- The calls of complete rounds. -/
def roundCalls : (first : Bool) → List Round → List Call
  | _, [] => []
  | first, r :: rs => r.calls first ++ roundCalls false rs

/-- The symbols obtained, the last one first. -/
def symbols (rs : List Round) : List Char := (rs.map Round.symbol).reverse

/-- How a conversation about `n` ends when `m` is left to write with length `base` and `t` has been written: the remaining calls and the
outcome. -/
inductive Ends (alloc : Bool) (bits : Nat) (checks : Bool) (n : Nat) :
    (first : Bool) → (base m : Nat) → (t : List Char) → List Call → Res Error (List Char) → Prop where
  /-- Nothing is left. -/
  | done {base : Nat} {t : List Char} : Ends alloc bits checks n false base 0 t [] (.ok t)
  /-- 0 without a symbol for it. -/
  | noZero {base : Nat} {t : List Char} :
      Ends alloc bits checks n true base 0 t [.hasZero false, .zeroBased false, .hasZero false] (.err .noZeroSymbol)
  /-- `has_zero_digit` has changed its answer, and 1 is subtracted from 0 with overflow checks. -/
  | underflow {base : Nat} {t : List Char} (h : checks = true) :
      Ends alloc bits checks n true base 0 t [.hasZero false, .zeroBased false, .hasZero true] .panic
  /-- There are no symbols. -/
  | empty {first : Bool} {m m' : Nat} {t : List Char} (r : Round) (h : m ≠ 0 ∨ first = true) (h' : r.Takes bits checks first m m') :
      Ends alloc bits checks n first 0 m t (r.asks first) .panic
  /-- The text does not fit. -/
  | memory {first : Bool} {base m q : Nat} {t : List Char} (r : Round) (h : m ≠ 0 ∨ first = true) (hi : r.index < base)
      (hq : r.Takes bits checks first m (r.index + base * q)) (ha : alloc = false) (hl : 62 < utf8Len (r.symbol :: t)) :
      Ends alloc bits checks n first base m t (r.asks first ++ [.digit r.index r.symbol]) (.err (.outOfMemory n))
  /-- The length has grown beyond the integer type. -/
  | grown {first : Bool} {base m q : Nat} {t : List Char} (r : Round) (h : m ≠ 0 ∨ first = true) (hi : r.index < base)
      (hq : r.Takes bits checks first m (r.index + base * q)) (hl : alloc = true ∨ utf8Len (r.symbol :: t) ≤ 62) (hn : 2 ^ bits ≤ r.next) :
      Ends alloc bits checks n first base m t (r.calls first) (.err (.outOfBounds n))

/-- `n` is beyond the end of a fixed collection of this length. -/
def Beyond (n length : Nat) (zeroBased : Bool) : Prop := if zeroBased then length ≤ n else length < n

/-- The conversation about `n` with the collection at level `k` and its fallbacks, and its outcome. -/
inductive Session (cfg : Cfg) (T : IntTy) (n : Nat) : (k : Nat) → List (Nat × Call) → Res Error (List Char) → Prop where
  /-- There are more symbols than numbers: one symbol is written. -/
  | symbol {k : Nat} (l : Nat) (c : Char) (hl : 2 ^ T.bits cfg ≤ l) :
      Session cfg T n k [(k, .len l), (k, .digit (n % 2 ^ cfg.ptr.bits) c)] (.ok [c])
  /-- Not fixed: rounds. -/
  | digits {k : Nat} (l : Nat) (rs : List Round) {first : Bool} {base m : Nat} {last : List Call} {out : Res Error (List Char)}
      (hl : l < 2 ^ T.bits cfg) (hr : Rounds (T.bits cfg) cfg.checks true l n rs first base m)
      (ha : cfg.alloc = true ∨ utf8Len (symbols rs) ≤ 62)
      (he : Ends cfg.alloc (T.bits cfg) cfg.checks n first base m (symbols rs) last out) :
      Session cfg T n k ((.len l :: .fixed false :: (roundCalls true rs ++ last)).map (k, ·)) out
  /-- Fixed, and within its range: rounds. -/
  | fixedDigits {k : Nat} (l : Nat) (z : Bool) (rs : List Round) {first : Bool} {base m : Nat} {last : List Call} {out : Res Error (List Char)}
      (hl : l < 2 ^ T.bits cfg) (hz : ¬ Beyond n l z) (hr : Rounds (T.bits cfg) cfg.checks true l n rs first base m)
      (ha : cfg.alloc = true ∨ utf8Len (symbols rs) ≤ 62)
      (he : Ends cfg.alloc (T.bits cfg) cfg.checks n first base m (symbols rs) last out) :
      Session cfg T n k ((.len l :: .fixed true :: .zeroBased z :: (roundCalls true rs ++ last)).map (k, ·)) out
  /-- Fixed, beyond its range, and the fallback is empty. -/
  | refused {k : Nat} (l : Nat) (z : Bool) (hl : l < 2 ^ T.bits cfg) (hz : Beyond n l z) :
      Session cfg T n k
        [(k, .len l), (k, .fixed true), (k, .zeroBased z), (k + 1, .default), (k + 1, .isEmpty true)] (.err (.outOfBounds n))
  /-- Fixed and beyond its range: the fallback takes over. -/
  | fallback {k : Nat} (l : Nat) (z : Bool) {rest : List (Nat × Call)} {out : Res Error (List Char)} (hl : l < 2 ^ T.bits cfg)
      (hz : Beyond n l z) (h : Session cfg T n (k + 1) rest out) :
      Session cfg T n k
        ((k, .len l) :: (k, .fixed true) :: (k, .zeroBased z) :: (k + 1, .default) :: (k + 1, .isEmpty false) :: rest) out

/-- A method does not answer: it panics, or it never returns. -/
inductive Silence where
  | panic
  | hang

/-- The result of a call without an answer. -/
def Silence.res {ε α : Type} : Silence → Res ε α
  | .panic => .panic
  | .hang => .timeout

/-- The method asked by this call gives no answer in state `w` (the answer that the call mentions does not matter). -/
def quits {σ : Type} (p : Silence) (c : DynColl σ) (w : σ) : Call → Prop
  | .fixed _ => c.fixed w = p.res
  | .hasZero _ => c.hasZero w = p.res
  | .zeroBased _ => c.zeroBased w = p.res
  | .len _ => c.len w = p.res
  | .isEmpty _ => c.isEmpty w = p.res
  | .digit i _ => c.digit i w = p.res
  | .default => c.default w = p.res

/-- The conversation breaks off: the calls take place up to some point, where the method asked gives no answer. -/
def breaksOff {σ : Type} (p : Silence) (d : DynSys σ) : σ → List (Nat × Call) → Prop
  | _, [] => False
  | w, (k, e) :: rest => quits p (d.level k) w e ∨ ∃ w', reply (d.level k) w e = some w' ∧ breaksOff p d w' rest

/-- The number written by rounds: a numeral whose base may change at every place. -/
def numeral : (first : Bool) → (base : Nat) → List Round → Nat
  | _, _, [] => 0
  | first, base, r :: rs => r.index + (if r.fromOne first then 1 else 0) + base * numeral false r.next rs

end Nominals.Spec
