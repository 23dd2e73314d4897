import Verif.Model.Lib

/-!
# Additive tables whose symbols are ordered like their values
-/

namespace Nominals.Spec

/-- Every symbol has a text, and of two symbols the one of greater value begins with the greater character. -/
structure Rising (table : List (List Char × Nat)) : Prop where
  texts : ∀ p ∈ table, p.1 ≠ []
  order : ∀ p ∈ table, ∀ q ∈ table, p.2 < q.2 → ∀ c ∈ p.1.head?, ∀ d ∈ q.1.head?, c < d

/-- The named systems whose labels sort like their numbers. -/
def sortedSystems : List Named := [.armenianUpper, .armenianLower, .doubleCircledNumber]

end Nominals.Spec
