import Verif.Spec.Chinese

/-!
# The four-digit groups of a number
-/

namespace Nominals.Spec

/-- The groups of four decimal digits of `n < 10^(4k)` that are not zero, the highest one first. -/
def groups (k n : Nat) : List Nat := ((List.range k).reverse.map fun i => n / 10 ^ (4 * i) % 10 ^ 4).filter (· ≠ 0)

/-- The numbers below ten thousand that a Chinese numeral is put together from: for the short scale, which has a sign for every power of
ten from 10^4 on, the last group only; the others have all the groups. -/
def chunks (scale : ChineseScale) (n : Nat) : List Nat :=
  if scale = .short then groups 1 n else groups 10 n

end Nominals.Spec
