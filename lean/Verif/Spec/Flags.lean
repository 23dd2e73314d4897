import Verif.Spec.Results

/-!
# Specification of numbers printed with flags
-/

namespace Nominals.Spec

/-- The sign and prefix the flags ask for. -/
def lead (o : FmtOpts) : List Char :=
  match o.plus, o.alternate, o.hex with
  | true, true, some _ => ['+', '0', 'x']
  | true, _, _ => ['+']
  | false, true, some _ => ['0', 'x']
  | false, _, _ => []

/-- The digits of `n` in the base and the case the flags ask for. -/
def figures (o : FmtOpts) (n : Nat) : List Char :=
  match o.hex with
  | none => Nat.toDigits 10 n
  | some upper => if upper then (Nat.toDigits 16 n).map Char.toUpper else Nat.toDigits 16 n

/-- `out` is the number `n` as the flags ask for: sign, prefix and digits, with just enough zeros between prefix and digits or just
enough fill characters around the whole to reach the width; fill characters before it for right (and unspecified) alignment. -/
def NumberOut (o : FmtOpts) (n : Nat) (out : List Char) : Prop :=
  ∃ pre zeros post, out = pre ++ lead o ++ zeros ++ figures o n ++ post ∧
    (∀ c ∈ pre ++ post, c = o.fill) ∧ (∀ c ∈ zeros, c = '0') ∧
    out.length = max ((lead o).length + (figures o n).length) (o.width.getD 0) ∧
    if o.zeros then pre = [] ∧ post = [] else zeros = [] ∧
      match o.align with
      | none | some .right => post = []
      | some .left => pre = []
      | some .center => pre.length ≤ post.length ∧ post.length ≤ pre.length + 1

/-- A fill character that could be taken for a figure. -/
def FillIsFigure (o : FmtOpts) : Prop := o.zeros = false ∧ ∃ n, o.fill ∈ figures o n

end Nominals.Spec
