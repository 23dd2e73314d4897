import Verif.Model.Lib
import Verif.Spec.Outcome

/-!
# Labels put together: outline numbers

What a program does that numbers its sections 2.b.IV: one system per depth, the labels joined by a separator in one `NominalString`.
-/

namespace Nominals.Spec

/-- `ts` are the labels `to_nominal` writes for `ns`, the first of them at depth `k`; depth `k` uses the system `style k`. -/
inductive Labels (cfg : Cfg) (T : IntTy) (style : Nat → Named) : Nat → List Nat → List (List Char) → Prop
  | nil (k : Nat) : Labels cfg T style k [] []
  | cons (k : Nat) {n : Nat} {ns : List Nat} {t : List Char} {ts : List (List Char)} {i : Bool} :
    T.Fits cfg n → view (toNominal cfg T n (style k).system) = .ok (t, i) → Labels cfg T style (k + 1) ns ts →
    Labels cfg T style k (n :: ns) (t :: ts)

/-- A character that can stand between labels or beside them: ASCII, neither letter nor digit. -/
def Neutral (c : Char) : Prop := c.toNat < 0x80 ∧ c.isAlphanum = false

instance (c : Char) : Decidable (Neutral c) := inferInstanceAs (Decidable (_ ∧ _))

/-- The loop of a user's program: `if k > 0 { out.try_push(sep)? }; out.try_push_str(&n.to_nominal(&style[k]))?` for each number. -/
def outline (cfg : Cfg) (T : IntTy) (sep : Char) (style : Nat → Named) : Nat → NStr → List Nat → Res OutOfMemoryError NStr
  | _, out, [] => .ok out
  | k, out, n :: ns =>
    (if k = 0 then .ok out else out.push cfg sep).bind fun out =>
    match toNominal cfg T n (style k).system with
    | .ok label =>
      match label.asStr with
      | some t => (out.pushStr cfg t).bind fun out => outline cfg T sep style (k + 1) out ns
      | none => .ub
    | .panic => .panic
    | .ub => .ub
    | .timeout => .timeout

end Nominals.Spec
