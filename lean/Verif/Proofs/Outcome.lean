import Verif.Proofs.StringRefine
import Verif.Spec.Outcome

/-! # From `Del` to `view` -/

namespace Nominals

open Nominals.Spec

theorem Res.bind_ok {ε α β : Type} (a : α) (f : α → Res ε β) : (Res.ok a).bind f = f a := rfl

theorem Res.bind_assoc {ε α β γ : Type} (r : Res ε α) (f : α → Res ε β) (g : β → Res ε γ) :
    (r.bind f).bind g = r.bind fun a => (f a).bind g := by
  cases r <;> rfl

theorem Del.view {alloc : Bool} {n : Nat} {r : Res Error NStr} {t : List Char} (h : Del alloc (.outOfMemory n) r t) :
    view r = deliver alloc n t := by
  cases h with
  | ok s t h1 h2 =>
    simp only [Spec.view, Res.bind, h1.1.asStr, h1.2, deliver]
    by_cases hl : utf8Len t ≤ 62
    · simp [hl]
    · have : alloc = true := by simpa [hl] using h2
      simp [hl, this]
  | err t h1 h2 =>
    have hl : ¬ utf8Len t ≤ 62 := by omega
    simp [Spec.view, Res.bind, deliver, hl, h1]

theorem Del.withNominal {alloc : Bool} {n : Nat} {r : Res OutOfMemoryError NStr} {t : List Char}
    (h : Del alloc .mk r t) : Del alloc (Error.outOfMemory n) (r.withNominal n) t :=
  h.mapErr fun _ => Error.outOfMemory n

theorem deliver_ok {alloc : Bool} {n : Nat} {t u : List Char} {i : Bool} (h : deliver alloc n t = .ok (u, i)) : t = u := by
  unfold deliver at h
  repeat' split at h
  all_goals first | (injection h with h; injection h) | cases h

theorem deliver_alloc_gives (n : Nat) (t : List Char) : deliver true n t = .ok (t, decide (utf8Len t ≤ 62)) := by
  unfold deliver
  by_cases hl : utf8Len t ≤ 62 <;> simp [hl]

end Nominals
