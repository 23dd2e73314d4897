import Verif.Spec.Outcome

/-!
# Ethiopic numerals: the algorithm of CSS Counter Styles Level 3 (`ethiopic-numeric`), and a reader
-/

namespace Nominals.Spec

/-- U+137B ETHIOPIC NUMBER HUNDRED. -/
def ethHundred : Char := '፻'
/-- U+137C ETHIOPIC NUMBER TEN THOUSAND. -/
def ethMyriad : Char := '፼'

/-- CSS step 2: groups of two digits, least significant first. -/
def ethGroups (n : Nat) : List Nat := if h : n = 0 then [] else n % 100 :: ethGroups (n / 100)
termination_by n
decreasing_by omega

/-- The digits of a group: tens U+1372…, ones U+1369…; zeros are not written. -/
def ethDigits (g : Nat) : List Char :=
  (if g / 10 = 0 then [] else [Char.ofNat (0x1371 + g / 10)]) ++ (if g % 10 = 0 then [] else [Char.ofNat (0x1368 + g % 10)])

/-- CSS steps 4–7 for the group of value `g` with index `i`, `ms` telling whether it is the most significant one. -/
def ethGroupText (i g : Nat) (ms : Bool) : List Char :=
  (if g = 0 ∨ (ms = true ∧ g = 1) ∨ (i % 2 = 1 ∧ g = 1) then [] else ethDigits g) ++
  (if i % 2 = 1 then (if g = 0 then [] else [ethHundred]) else (if i = 0 then [] else [ethMyriad]))

/-- The CSS algorithm. -/
def ethiopicText (n : Nat) : List Char :=
  if n = 1 then ['፩']
  else ((ethGroups n).zipIdx.map fun (g, i) => ethGroupText i g (i + 1 == (ethGroups n).length)).reverse.flatten

/-- Value of a digit character. -/
def ethValue (c : Char) : Nat :=
  if 0x1369 ≤ c.toNat ∧ c.toNat ≤ 0x1371 then c.toNat - 0x1368
  else if 0x1372 ≤ c.toNat ∧ c.toNat ≤ 0x137a then 10 * (c.toNat - 0x1371)
  else 0

/-- Reader: what is complete so far (`high`), whether nothing is complete yet (`first`), hundreds and units of the current
stretch. -/
structure EthReader where
  high : Nat
  first : Bool
  hundreds : Nat
  units : Nat
deriving DecidableEq

/-- Reading one character. A bare hundred counts one hundred; a bare leading ten-thousand counts one. -/
def EthReader.step (r : EthReader) (c : Char) : EthReader :=
  if c = ethHundred then { r with hundreds := 100 * (if r.units = 0 then 1 else r.units), units := 0 }
  else if c = ethMyriad then
    { high := 10000 * (r.high + if r.first = true ∧ r.hundreds + r.units = 0 then 1 else r.hundreds + r.units),
      first := false, hundreds := 0, units := 0 }
  else { r with units := r.units + ethValue c }

/-- The number an Ethiopic text stands for. -/
def readEthiopic (t : List Char) : Nat :=
  let r := t.foldl EthReader.step ⟨0, true, 0, 0⟩
  r.high + r.hundreds + r.units

end Nominals.Spec
