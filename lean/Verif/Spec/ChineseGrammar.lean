import Verif.Spec.ChineseDigits

/-!
# A grammar of Chinese numerals

The well-formed numerals as texts, without reference to the numbers they stand for.
-/

namespace Nominals.Spec

/-- The numerals of digits and the units of their places, with the first digit at place `p`. The next digit stands at the next lower
place, or at some lower place after 零. -/
inductive Lead : Nat → List CTok → Prop
  | bare (p d : Nat) : 1 ≤ d → d ≤ 9 → Lead p (.num d :: placeUnit p)
  | next (p d : Nat) (t : List CTok) : 1 ≤ d → d ≤ 9 → Lead p t → Lead (p + 1) (.num d :: (placeUnit (p + 1) ++ t))
  | gap (p q d : Nat) (t : List CTok) : 1 ≤ d → d ≤ 9 → q + 1 < p → Lead q t → Lead p (.num d :: (placeUnit p ++ .zero :: t))

/-- The numerals with large units below the `k`-th, where the `k`-th unit follows a numeral with large units below the `m k`-th. What
follows the unit comes after 零 unless it begins with a thousands digit; `b` tells whether the numeral does. -/
inductive Grouped (m : Nat → Nat) : Nat → Bool → List CTok → Prop
  | group (p : Nat) (t : List CTok) : p < 4 → Lead p t → Grouped m 0 (decide (p = 3)) t
  | small (k : Nat) (b : Bool) (t : List CTok) : Grouped m k b t → Grouped m (k + 1) b t
  | unit (k : Nat) (b : Bool) (t : List CTok) : Grouped m (m k) b t → Grouped m (k + 1) b (t ++ [.large k])
  | next (k : Nat) (b : Bool) (t u : List CTok) : Grouped m (m k) b t → Grouped m k true u → Grouped m (k + 1) b (t ++ .large k :: u)
  | gap (k : Nat) (b : Bool) (t u : List CTok) : Grouped m (m k) b t → Grouped m k false u →
      Grouped m (k + 1) b (t ++ .large k :: .zero :: u)

/-- What a large unit may follow: a group of four digits (myriad), two groups with 萬 between them except for 萬 itself (mid), everything
with smaller units (long). -/
def multiplier : ChineseScale → Nat → Nat
  | .mid, k => min k 1
  | .long, k => k
  | _, _ => 0

/-- The formal numerals of a scale below `10 ^ size`: with `size` places in the short scale, with large units below the `size`-th in the
others. -/
def WellFormed (scale : ChineseScale) (size : Nat) (ts : List CTok) : Prop :=
  match scale with
  | .short => ∃ p, p < size ∧ Lead p ts
  | _ => ∃ b, Grouped (multiplier scale) size b ts

/-- The first number with no numeral of that size. -/
def sizeBound : ChineseScale → Nat → Nat
  | .short, p => 10 ^ p
  | .myriad, k => 10 ^ (4 * (k + 1))
  | .mid, k => 10 ^ (if k = 0 then 4 else 8 * k)
  | .long, k => 10 ^ (4 * 2 ^ k)

end Nominals.Spec
