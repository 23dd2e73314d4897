import Verif.Spec.Outline

/-!
# Labels written one after another
-/

namespace Nominals.Spec

/-- `ts` are the labels `try_to_nominal` writes for `ns`, the first of them at depth `k`; depth `k` uses the system `style k`. -/
inductive OwnLabels (cfg : Cfg) (T : IntTy) (style : Nat → Named) : Nat → List Nat → List (List Char) → Prop
  | nil (k : Nat) : OwnLabels cfg T style k [] []
  | cons (k : Nat) {n : Nat} {ns : List Nat} {t : List Char} {ts : List (List Char)} {i : Bool} :
    T.Fits cfg n → view (tryToNominal cfg T n (style k).system) = .ok (t, i) → OwnLabels cfg T style (k + 1) ns ts →
    OwnLabels cfg T style k (n :: ns) (t :: ts)

end Nominals.Spec
