import Verif.Model.Digital

/-!
# Positional numerals, column names, alphabets

All digit sequences are written most significant first, as indices into an alphabet.
-/

namespace Nominals.Spec

/-- The collection `c` consists of the characters `alphabet`, in order (`digit` beyond the end is unconstrained). -/
def HasDigits (c : Coll) (alphabet : List Char) : Prop :=
  c.len = alphabet.length ∧ ∀ i, i < alphabet.length → c.digit i = alphabet[i]?

/-- An ordinary (not `fixed`) digit collection over `alphabet`; its length is a `usize` value. -/
structure Plain (cfg : Cfg) (d : DigitSys) (alphabet : List Char) : Prop where
  fixed : (d.level 0).fixed = false
  digits : HasDigits (d.level 0) alphabet
  usize : alphabet.length < 2 ^ cfg.ptr.bits

/-- Write a sequence of digit indices (all below the alphabet's size) with the alphabet's characters. -/
def spell (alphabet : List Char) (ds : List Nat) : List Char := ds.map fun i => alphabet.getD i '?'

/-! ## Numerals with a zero digit -/

/-- The number denoted by base-`b` digits. -/
def value (b : Nat) (ds : List Nat) : Nat := ds.foldl (fun a d => a * b + d) 0

/-- `ds` is the standard base-`b` representation of `n`: digits below `b`, denoting `n`, not empty and without leading
zero unless it is the single digit 0. -/
structure IsNumeral (b n : Nat) (ds : List Nat) : Prop where
  digits : ∀ d ∈ ds, d < b
  value : value b ds = n
  lead : ds = [0] ∨ ∃ d rest, ds = d :: rest ∧ d ≠ 0

/-! ## Column names (no zero digit) -/

/-- Odometer step on symbols written least significant first: advance the first symbol; when it is the last of the `b`
symbols wrap it and carry; when every symbol wraps, one more symbol appears. -/
def bump (b : Nat) : List Nat → List Nat
  | [] => [0]
  | d :: ds => if d + 1 < b then (d + 1) :: ds else 0 :: bump b ds

/-- Odometer successor of a word (most significant first). -/
def next (b : Nat) (w : List Nat) : List Nat := (bump b w.reverse).reverse

/-- The `n`-th column name over `b` symbols, counting from 0: start at the first symbol and advance `n` times. -/
def column (b : Nat) : Nat → List Nat
  | 0 => [0]
  | n + 1 => next b (column b n)

/-- Position of a non-empty word in the counting order, counting from 1 (bijective base `b`). -/
def ordinal (b : Nat) (w : List Nat) : Nat := w.foldl (fun a d => a * b + (d + 1)) 0

/-- Shortlex order: shorter words first, words of equal length by their first difference. -/
def shortlexLt (v w : List Nat) : Prop := v.length < w.length ∨ v.length = w.length ∧ List.Lex (· < ·) v w

end Nominals.Spec

namespace Nominals.Spec

/-- Number of non-empty words of length at most `k` over `b` symbols: b + b² + … + bᵏ. -/
def wordsUpTo (b : Nat) : Nat → Nat
  | 0 => 0
  | k + 1 => wordsUpTo b k + b ^ (k + 1)

end Nominals.Spec
