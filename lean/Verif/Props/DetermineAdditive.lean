import Verif.Props.AdditiveOrder
import Verif.Props.Extend

/-!
C107 for additive sets: how many numbers have to be compared.
-/

namespace Nominals

open Nominals.Spec

/-- From the greatest value on, a label is the top symbol followed by the label of the rest. -/
theorem greedyText_top {table : List (List Char × Nat)} {z : List Char} {v n : Nat} (hd : Descending ((z, v) :: table)) (h0 : v ≠ 0) (h : v ≤ n) :
    greedyText ((z, v) :: table) n = z ++ greedyText ((z, v) :: table) (n - v) := by
  have hmax : ∀ q ∈ (z, v) :: table, q.2 ≤ n → q.2 ≤ v := fun q hq _ => by
    rcases List.mem_cons.mp hq with rfl | hq
    · exact Nat.le_refl _
    · exact Nat.le_of_lt ((List.pairwise_cons.mp hd).1 q hq)
  rw [greedyText_eq hd (.take n (z, v) _ (by simp) h0 h hmax (picks_greedy hd _))]
  rfl

namespace Props

/-- C107, additive sets (with `alloc`): two sets with the same greatest value that agree on all numbers up to it agree on all numbers of the
type. -/
theorem C107_additive {ε : Type} {cfg : Cfg} {T : IntTy} {table table' : List (List Char × Nat)} {z z' : List Char} {v : Nat} {a a' : AdditiveSet}
    (hal : cfg.alloc = true) (ha : AdditiveSet.new (ε := ε) ((z, v) :: table) = .ok a)
    (ha' : AdditiveSet.new (ε := ε) ((z', v) :: table') = .ok a') (h0 : v ≠ 0)
    (h : ∀ n, T.Fits cfg n → n ≤ v → view (a.tryFormat cfg T n) = view (a'.tryFormat cfg T n)) :
    ∀ n, T.Fits cfg n → view (a.tryFormat cfg T n) = view (a'.tryFormat cfg T n) := by
  have hd := (new_ok ha).1
  have hd' := (new_ok ha').1
  have text : ∀ {table : List (List Char × Nat)} {a : AdditiveSet} {n : Nat}, AdditiveSet.new (ε := ε) table = .ok a → n ≠ 0 → T.Fits cfg n →
      view (a.tryFormat cfg T n) = .ok (greedyText table n, decide (utf8Len (greedyText table n) ≤ 62)) := by
    intro table a n ha h0 hn
    obtain ⟨ps, hg, hv, -⟩ := C22_lost_remainder ha h0 hn (cfg := cfg)
    rw [hv, hal, deliver_alloc_gives, greedyText_eq (new_ok ha).1 hg]
  have same : ∀ n, T.Fits cfg n → greedyText ((z, v) :: table) n = greedyText ((z', v) :: table') n := by
    intro n
    induction n using Nat.strongRecOn with
    | _ n ih =>
      intro hn
      by_cases hn0 : n = 0
      · rw [hn0, greedyText_zero hd, greedyText_zero hd']
      · by_cases hv : n ≤ v
        · have e := h n hn hv
          rw [text ha hn0 hn, text ha' hn0 hn] at e
          simp only [Res.ok.injEq, Prod.mk.injEq] at e
          exact e.1
        · have hz : z = z' := by
            have e := ih v (by omega) (Nat.lt_of_le_of_lt (show v ≤ n by omega) hn)
            rw [greedyText_symbol hd (p := (z, v)) (by simp) h0, greedyText_symbol hd' (p := (z', v)) (by simp) h0] at e
            exact e
          rw [greedyText_top hd h0 (by omega), greedyText_top hd' h0 (by omega),
            ih (n - v) (by omega) (Nat.lt_of_le_of_lt (Nat.sub_le _ _) hn), hz]
  intro n hn
  by_cases hn0 : n = 0
  · exact h n hn (by omega)
  · rw [text ha hn0 hn, text ha' hn0 hn, same n hn]

/-- A table with the superfluous symbol `II` for 2 writes every number like the one without. -/
example : ∃ a a', AdditiveSet.new (ε := Empty) [(['V'], 5), (['I'], 1)] = .ok a ∧
    AdditiveSet.new (ε := Empty) [(['V'], 5), (['I', 'I'], 2), (['I'], 1)] = .ok a' ∧
    ∀ n, IntTy.u64.Fits ⟨true, .w64, true⟩ n → view (a.tryFormat ⟨true, .w64, true⟩ .u64 n) = view (a'.tryFormat ⟨true, .w64, true⟩ .u64 n) := by
  refine ⟨⟨[(['V'], 5), (['I'], 1)], none⟩, ⟨[(['V'], 5), (['I', 'I'], 2), (['I'], 1)], none⟩, rfl, rfl,
    C107_additive (ε := Empty) (table := [(['I'], 1)]) (table' := [(['I', 'I'], 2), (['I'], 1)]) (z := ['V']) (z' := ['V']) (v := 5)
      rfl rfl rfl (by decide) fun n _ hn => ?_⟩
  have : ∀ n, n < 6 → view ((AdditiveSet.mk [(['V'], 5), (['I'], 1)] none).tryFormat ⟨true, .w64, true⟩ .u64 n) =
    view ((AdditiveSet.mk [(['V'], 5), (['I', 'I'], 2), (['I'], 1)] none).tryFormat ⟨true, .w64, true⟩ .u64 n) := by decide +kernel
  exact this n (by omega)

end Props
end Nominals
