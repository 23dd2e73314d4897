/-! # C105: looking for labels in labels -/

namespace Nominals.Spec

/-- Counting from 1, the label `v` over `b` symbols without a zero digit, with its last `k` symbols cut off; 0 when nothing is left. -/
def front (b : Nat) : (k : Nat) → (v : Nat) → Nat
  | 0, v => v
  | k + 1, v => front b k ((v - 1) / b)

end Nominals.Spec
