import Verif.Spec.Additive

/-!
# Labels that are told apart
-/

namespace Nominals.Spec

/-- No two numbers of the integer type get the same text. -/
def Unique (cfg : Cfg) (T : IntTy) (f : Nat → Res Error NStr) : Prop :=
  ∀ n m t i j, T.Fits cfg n → T.Fits cfg m → view (f n) = .ok (t, i) → view (f m) = .ok (t, j) → n = m

/-- No symbol of the table is empty or the beginning of another one. -/
def PrefixFree (table : List (List Char × Nat)) : Prop :=
  ∀ p ∈ table, p.1 ≠ [] ∧ ∀ q ∈ table, p.1 <+: q.1 → p = q

end Nominals.Spec
