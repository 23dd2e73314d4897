import Verif.Spec.Digits

/-! # Which collections hand a number over to their fallback, and which never finish writing it -/

namespace Nominals.Spec

/-- A fixed collection `c` does not cover the number `n` of integer type `T` and hands it over to its fallback. (A collection
with more symbols than the type has values covers every number of the type.) -/
def HandsOver (cfg : Cfg) (T : IntTy) (c : Coll) (n : Nat) : Prop :=
  c.fixed = true ∧ c.len < 2 ^ T.bits cfg ∧ if c.zeroBased then c.len ≤ n else c.len < n

/-- Writing `n ≠ 0` with a single symbol that is a zero digit: every symbol leaves the same remainder, and with an allocator
there is always room for one more. -/
def NeverFinishes (cfg : Cfg) (c : Coll) (n : Nat) : Prop :=
  c.hasZero = true ∧ c.len = 1 ∧ (∃ ch, c.digit 0 = some ch) ∧ n ≠ 0 ∧ cfg.alloc = true

end Nominals.Spec
