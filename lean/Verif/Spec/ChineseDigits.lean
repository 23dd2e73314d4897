import Verif.Spec.Chinese

/-!
# Chinese numerals read off the decimal digits

A second description of the numerals, independent of the recursion in `Verif/Spec/Chinese.lean`: one pass over the decimal digits
(short scale) or over the groups of four digits (other scales), from the top.
-/

namespace Nominals.Spec

/-- What is written after a digit at place `p`. -/
def placeUnit (p : Nat) : List CTok :=
  match p with
  | 0 => []
  | 1 => [.ten]
  | 2 => [.hundred]
  | 3 => [.thousand]
  | p + 4 => [.large p]

/-- The digits of `n` at the places below `p`, from the top: every digit that is not zero with its unit, after 零 if the previous
digit written, at place `prev`, is not the neighbour. -/
def placesFrom (n : Nat) : Nat → Option Nat → List CTok
  | 0, _ => []
  | p + 1, prev =>
    let d := n / 10 ^ p % 10
    if d = 0 then placesFrom n p prev
    else (if prev = none ∨ prev = some (p + 1) then [] else [CTok.zero]) ++ .num d :: placeUnit p ++ placesFrom n p (some p)

/-- The groups of four digits of `n` at the positions below `j`, from the top: every group that is not zero, after 零 if it is not
the first one written (`started`) and has no thousands digit. After position `j > 0` comes the unit `unit j` if one of the groups
`j`, …, `j + span j - 1` is not zero. -/
def groupsFrom (unit span : Nat → Nat) (n : Nat) : Nat → Bool → List CTok
  | 0, _ => []
  | j + 1, started =>
    let g := n / 10000 ^ j % 10000
    (if g = 0 then [] else (if started ∧ g < 1000 then [CTok.zero] else []) ++ placesFrom g 4 none) ++
    (if j = 0 ∨ n / 10000 ^ j % 10000 ^ span j = 0 then [] else [CTok.large (unit j)]) ++
    groupsFrom unit span n j (started || g != 0)

/-- The largest `v` such that `2 ^ v` divides `j`, for `1 ≤ j < 16`. -/
def twos (j : Nat) : Nat := if j % 2 = 1 then 0 else if j % 4 = 2 then 1 else if j % 8 = 4 then 2 else 3

/-- The numeral of `n ≠ 0`, formal. Myriad: 萬, 億, 兆, … after the groups 1, 2, 3, … Mid: 萬 after odd groups, 億, 兆, … after the
groups 2, 4, … Long: after group `j` the unit whose number is the number of twos in `j`. -/
def flatTokens (scale : ChineseScale) (n : Nat) : List CTok :=
  match scale with
  | .short => placesFrom n 15 none
  | .myriad => groupsFrom (fun j => j - 1) (fun _ => 1) n 10 false
  | .mid => groupsFrom (fun j => if j % 2 = 1 then 0 else j / 2) (fun j => if j % 2 = 1 then 1 else 2) n 10 false
  | .long => groupsFrom twos (fun j => 2 ^ twos j) n 16 false

/-- The value of a digit character, of any of the character sets. -/
def chineseDigit (c : Char) : Option Nat :=
  match tokenOf c with
  | some (.num d) => some d
  | _ => none

end Nominals.Spec
