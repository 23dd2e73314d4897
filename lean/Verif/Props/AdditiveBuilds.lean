import Verif.Props.AdditiveOrder
import Verif.Props.NoAlloc

/-!
C85, C100 and C101 for additive sets: the symbols decide in builds without `alloc` too, and sorting labels are told apart.
-/

namespace Nominals.Props

open Nominals.Spec

/-- A label of a build without `alloc` is the label of the build with `alloc`. -/
theorem additive_same_label {ε : Type} {p : PtrWidth} {chk al : Bool} {T : IntTy} {table : List (List Char × Nat)} {a : AdditiveSet} {n : Nat}
    (ha : AdditiveSet.new (ε := ε) table = .ok a) (hn : T.Fits ⟨true, p, chk⟩ n) {x : NStr} {t : List Char}
    (hx : a.tryFormat ⟨al, p, chk⟩ T n = .ok x) (tx : x.asStr = some t) :
    ∃ x', a.tryFormat ⟨true, p, chk⟩ T n = .ok x' ∧ x'.asStr = some t := by
  cases al with
  | true => exact ⟨x, hx, tx⟩
  | false =>
    have h := C86_additive ha hn
    rw [view_of_ok hx tx] at h
    cases hv : view (a.tryFormat ⟨true, p, chk⟩ T n) with
    | ok r =>
      obtain ⟨u, i⟩ := r
      rw [hv] at h
      simp only [burst, squeezed] at h
      have e : t = u := by
        repeat' split at h
        all_goals first | (simp only [Res.ok.injEq, Prod.mk.injEq] at h; exact h.1) | (cases h; done)
      subst e
      exact string_of_view hv
    | _ => rw [hv] at h; simp only [burst, squeezed, ite_self] at h; cases h

/-- The symbols of an additive set sort after the labels before them, as a build with `alloc` writes those. -/
def SymbolsSort (a : AdditiveSet) (p : PtrWidth) (chk : Bool) (T : IntTy) (table : List (List Char × Nat)) : Prop :=
  ∀ q ∈ table, q.2 ≠ 0 → T.Fits ⟨true, p, chk⟩ q.2 → ∀ x t, a.tryFormat ⟨true, p, chk⟩ T (q.2 - 1) = .ok x → x.asStr = some t → Before t q.1

theorem fits_alloc {p : PtrWidth} {chk al : Bool} {T : IntTy} {n : Nat} (h : T.Fits ⟨al, p, chk⟩ n) : T.Fits ⟨true, p, chk⟩ n := by
  cases T <;> exact h

/-- C100, additive sets, with or without `alloc`: where every symbol sorts after the label of the number before its value, the labels that
the build can store sort like their numbers. -/
theorem C100_additive_builds {ε : Type} {p : PtrWidth} {chk al : Bool} {T : IntTy} {table : List (List Char × Nat)} {a : AdditiveSet}
    (ha : AdditiveSet.new (ε := ε) table = .ok a) {one : List Char} (hu : (one, 1) ∈ table) (hne : one ≠ []) (h : SymbolsSort a p chk T table)
    {n m : Nat} {x y : NStr} (hn : T.Fits ⟨al, p, chk⟩ n) (hm : T.Fits ⟨al, p, chk⟩ m) (hx : a.tryFormat ⟨al, p, chk⟩ T n = .ok x)
    (hy : a.tryFormat ⟨al, p, chk⟩ T m = .ok y) : x.cmp y = some (compare n m) := by
  obtain ⟨t, ht, -⟩ := reachable_holds (C80_user_defined.2.2.1 a x hx)
  obtain ⟨u, hu', -⟩ := reachable_holds (C80_user_defined.2.2.1 a y hy)
  obtain ⟨x', hx', tx⟩ := additive_same_label ha (fits_alloc hn) hx ht.asStr
  obtain ⟨y', hy', ty⟩ := additive_same_label ha (fits_alloc hm) hy hu'.asStr
  have := (C100_additive_symbols (cfg := ⟨true, p, chk⟩) (T := T) rfl ha hu hne).mpr h n m x' y' (fits_alloc hn) (fits_alloc hm) hx' hy'
  rw [cmp_of_asStr tx ty] at this
  rw [cmp_of_asStr ht.asStr hu'.asStr, this]

/-- C85, additive sets: labels that sort are told apart, even where one symbol is the beginning of another. -/
theorem C85_additive_sorted {ε : Type} {p : PtrWidth} {chk al : Bool} {T : IntTy} {table : List (List Char × Nat)} {a : AdditiveSet}
    (ha : AdditiveSet.new (ε := ε) table = .ok a) {one : List Char} (hu : (one, 1) ∈ table) (hne : one ≠ []) (h : SymbolsSort a p chk T table) :
    Unique ⟨al, p, chk⟩ T (fun n => a.tryFormat ⟨al, p, chk⟩ T n) := by
  intro n m t i j hn hm hv hv'
  obtain ⟨x, hx, tx⟩ := string_of_view hv
  obtain ⟨y, hy, ty⟩ := string_of_view hv'
  have := C100_additive_builds ha hu hne h hn hm hx hy
  rw [cmp_of_asStr tx ty, compare_codes_self] at this
  exact Nat.compare_eq_eq.mp (Option.some.inj this).symm

/-- C101, additive sets, with or without `alloc`, in characters and in bytes: the condition on the symbols is enough in every build. -/
theorem C101_additive_builds {ε : Type} {p : PtrWidth} {chk al : Bool} {T : IntTy} {table : List (List Char × Nat)} {a : AdditiveSet}
    (ha : AdditiveSet.new (ε := ε) table = .ok a) {one : List Char} (hu : (one, 1) ∈ table) {n m : Nat} (hnm : n ≤ m)
    (hm : T.Fits ⟨al, p, chk⟩ m) {x y : NStr} {t u : List Char} (hx : a.tryFormat ⟨al, p, chk⟩ T n = .ok x)
    (hy : a.tryFormat ⟨al, p, chk⟩ T m = .ok y) (tx : x.asStr = some t) (ty : y.asStr = some u) :
    ((∀ q ∈ table, q.2 ≠ 0 → T.Fits ⟨true, p, chk⟩ q.2 → ∀ x t, a.tryFormat ⟨true, p, chk⟩ T (q.2 - 1) = .ok x → x.asStr = some t →
      t.length ≤ q.1.length) → t.length ≤ u.length) ∧
    ((∀ q ∈ table, q.2 ≠ 0 → T.Fits ⟨true, p, chk⟩ q.2 → ∀ x t, a.tryFormat ⟨true, p, chk⟩ T (q.2 - 1) = .ok x → x.asStr = some t →
      utf8Len t ≤ utf8Len q.1) → utf8Len t ≤ utf8Len u) := by
  have hn : T.Fits ⟨al, p, chk⟩ n := Nat.lt_of_le_of_lt hnm hm
  obtain ⟨x', hx', tx'⟩ := additive_same_label ha (fits_alloc hn) hx tx
  obtain ⟨y', hy', ty'⟩ := additive_same_label ha (fits_alloc hm) hy ty
  exact ⟨fun h => (C101_additive_exact (cfg := ⟨true, p, chk⟩) (T := T) rfl ha).mpr ⟨h, .inl ⟨one, hu⟩⟩ n m x' y' t u hnm (fits_alloc hm) hx' hy' tx' ty',
    fun h => (C101_additive_bytes_exact (cfg := ⟨true, p, chk⟩) (T := T) rfl ha).mpr ⟨h, .inl ⟨one, hu⟩⟩ n m x' y' t u hnm (fits_alloc hm) hx' hy' tx' ty'⟩

/-- `ab` for 5 and `a` for 1: `a` is the beginning of `ab`, yet `a`, `aa`, `aaa`, `aaaa`, `ab`, `aba`, … sort and are told apart. -/
example : ∃ a, AdditiveSet.new (ε := Empty) [(['a', 'b'], 5), (['a'], 1)] = .ok a ∧ ¬ PrefixFree [(['a', 'b'], 5), (['a'], 1)] ∧
    Unique ⟨false, .w64, true⟩ .u8 (fun n => a.tryFormat ⟨false, .w64, true⟩ .u8 n) ∧
    view (a.tryFormat ⟨false, .w64, true⟩ .u8 6) = .ok (['a', 'b', 'a'], true) := by
  refine ⟨⟨[(['a', 'b'], 5), (['a'], 1)], none⟩, rfl, fun h => ?_, C85_additive_sorted (ε := Empty) (table := [(['a', 'b'], 5), (['a'], 1)])
    rfl (one := ['a']) (by simp) (by simp) ?_, by decide +kernel⟩
  · have := (h (['a'], 1) (by simp)).2 (['a', 'b'], 5) (by simp) ⟨['b'], rfl⟩
    simp at this
  · intro q hq h0 hf x t hx tx
    simp only [List.mem_cons, List.not_mem_nil, or_false] at hq
    rcases hq with rfl | rfl
    · rw [additive_take (ε := Empty) (table := [(['a', 'b'], 5), (['a'], 1)]) rfl rfl (by decide) (by decide) hx tx]
      decide +kernel
    · cases hx

end Nominals.Props
