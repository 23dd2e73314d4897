import Verif.Proofs.Ethiopic

/-!
# Properties C34–C35: Ethiopic numerals

Vocabulary: `Verif/Spec/Outcome.lean`, `Verif/Spec/Ethiopic.lean`.
-/

namespace Nominals.Props

open Nominals.Spec

/-- C34. The text is the one produced by the CSS `ethiopic-numeric` algorithm; zero has no symbol. The integer type does not
matter (nor is the value bounded by one). -/
theorem C34_css {cfg : Cfg} {T : IntTy} (n : Nat) :
    view (ethiopicTryFormat cfg T n) = if n = 0 then .err .noZeroSymbol else deliver cfg.alloc n (ethiopicText n) := by
  by_cases h : n = 0
  · subst h; rfl
  · rw [if_neg h]; exact (ethiopic_del h).view

/-- The three worked examples of the CSS specification (100, 78010092, 780100000092), and the separator after an empty
group. -/
example : ethiopicText 100 = ['፻'] ∧ ethiopicText 78010092 = ['፸', '፰', '፻', '፩', '፼', '፺', '፪'] ∧
    ethiopicText 780100000092 = ['፸', '፰', '፻', '፩', '፼', '፼', '፺', '፪'] ∧ ethiopicText 1000000 = ['፻', '፼'] := by
  decide +kernel

/-- C35. Every text is read back to its number. -/
theorem C35_read_back {cfg : Cfg} {T : IntTy} {n : Nat} {t : List Char} {b : Bool}
    (h : view (ethiopicTryFormat cfg T n) = .ok (t, b)) : readEthiopic t = n := by
  rw [C34_css] at h
  split at h
  · cases h
  · rw [← deliver_ok h]; exact read_ethiopicText n

example : view (ethiopicTryFormat ⟨true, .w64, true⟩ .u32 475) = .ok (['፬', '፻', '፸', '፭'], true) ∧ readEthiopic ['፬', '፻', '፸', '፭'] = 475 := by
  decide +kernel

/-- C35. No two numbers share a text. -/
theorem C35_distinct {cfg cfg' : Cfg} {T T' : IntTy} {n m : Nat} {t : List Char} {b b' : Bool}
    (h : view (ethiopicTryFormat cfg T n) = .ok (t, b)) (h' : view (ethiopicTryFormat cfg' T' m) = .ok (t, b')) : n = m := by
  rw [← C35_read_back h, C35_read_back h']

/-- The reader is not a left inverse by accident: it distinguishes texts differing in one separator. -/
example : readEthiopic ['፸', '፰', '፻', '፩', '፼', '፺', '፪'] = 78010092 ∧
    readEthiopic ['፸', '፰', '፻', '፩', '፼', '፼', '፺', '፪'] = 780100000092 ∧ readEthiopic ['፼'] = 10000 ∧
    readEthiopic ['፻', '፼'] = 1000000 := by decide

end Nominals.Props
