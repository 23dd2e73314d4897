import Verif.Model.Display

/-!
# Specification of `Display` and `Debug`
-/

namespace Nominals.Spec

/-- `out` is `t` laid out as a format string asks: the leading `precision` characters of `t`, surrounded by just enough fill
characters to reach `width` characters; all of them after the text for left (and unspecified) alignment, all before it for
right alignment, and for centring split evenly with the odd one after the text. -/
def LaidOut (o : FmtOpts) (t out : List Char) : Prop :=
  ∃ pre post body, out = pre ++ body ++ post ∧
    body <+: t ∧ body.length = min (o.precision.getD t.length) t.length ∧
    (∀ c ∈ pre ++ post, c = o.fill) ∧
    pre.length + body.length + post.length = max body.length (o.width.getD 0) ∧
    match o.align with
    | none | some .left => pre = []
    | some .right => post = []
    | some .center => pre.length ≤ post.length ∧ post.length ≤ pre.length + 1

/-- The one-line `Debug` form, `NominalString(Inline("…"))` or `NominalString(Heap("…"))`. -/
def debugLine (esc : Char → List Char) (heap : Bool) (t : List Char) : List Char :=
  ['N', 'o', 'm', 'i', 'n', 'a', 'l', 'S', 't', 'r', 'i', 'n', 'g', '('] ++
    (if heap then ['H', 'e', 'a', 'p', '(', '"'] else ['I', 'n', 'l', 'i', 'n', 'e', '(', '"']) ++
    t.flatMap esc ++ ['"', ')', ')']

/-- The `{:#?}` form: the same on five lines, with a comma after each field and four spaces per level. For texts whose
escapes contain no line break. -/
def debugBlock (esc : Char → List Char) (heap : Bool) (t : List Char) : List Char :=
  ['N', 'o', 'm', 'i', 'n', 'a', 'l', 'S', 't', 'r', 'i', 'n', 'g', '(', '\n'] ++
    (if heap then [' ', ' ', ' ', ' ', 'H', 'e', 'a', 'p', '(', '\n']
      else [' ', ' ', ' ', ' ', 'I', 'n', 'l', 'i', 'n', 'e', '(', '\n']) ++
    [' ', ' ', ' ', ' ', ' ', ' ', ' ', ' ', '"'] ++ t.flatMap esc ++ ['"', ',', '\n'] ++
    [' ', ' ', ' ', ' ', ')', ',', '\n', ')']

end Nominals.Spec
