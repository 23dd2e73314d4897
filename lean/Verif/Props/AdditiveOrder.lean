import Verif.Props.SortExact
import Verif.Props.Widest
import Verif.Props.Unique
import Verif.Props.Utf16

/-!
C100 and C101 for additive sets of the user's own: from one number to the next, only the places where a new symbol comes in matter.
-/

namespace Nominals

open Nominals.Spec

/-- Texts in the order of their characters' code points. -/
def Before (t u : List Char) : Prop := compare (t.map (·.val.toNat)) (u.map (·.val.toNat)) = .lt

instance (t u : List Char) : Decidable (Before t u) := inferInstanceAs (Decidable (_ = _))

theorem before_trans {t u v : List Char} (h : Before t u) (h' : Before u v) : Before t v := Std.TransCmp.lt_trans h h'

theorem before_prefix (p : List Char) {t u : List Char} (h : Before t u) : Before (p ++ t) (p ++ u) := by
  induction p with
  | nil => exact h
  | cons c p ih =>
    show compare (c.val.toNat :: (p ++ t).map (·.val.toNat)) (c.val.toNat :: (p ++ u).map (·.val.toNat)) = .lt
    rw [compare_heads, Nat.compare_eq_eq.mpr rfl]
    exact ih

theorem before_nil {t : List Char} (h : t ≠ []) : Before [] t := by
  cases t with
  | nil => exact (h rfl).elim
  | cons c t => rfl

/-- What the greedy symbols of `n` spell. -/
def greedyText (table : List (List Char × Nat)) (n : Nat) : List Char := written (picks table n)

theorem greedyText_eq {table ps : List (List Char × Nat)} (hd : Descending table) {n : Nat} (h : Greedy table n ps) :
    greedyText table n = written ps := by
  rw [greedyText, greedy_unique hd (picks_greedy hd n) h]

theorem greedyText_zero {table : List (List Char × Nat)} (hd : Descending table) : greedyText table 0 = [] :=
  greedyText_eq hd (.stop 0 fun q _ h => by omega)

theorem greedyText_symbol {table : List (List Char × Nat)} (hd : Descending table) {p : List Char × Nat} (hp : p ∈ table) (h0 : p.2 ≠ 0) :
    greedyText table p.2 = p.1 := by
  rw [greedyText_eq hd (.take p.2 p [] hp h0 (Nat.le_refl _) (fun q _ h => h) (by rw [Nat.sub_self]; exact .stop 0 fun q _ h => by omega))]
  simp [written]

/-- A relation that holds wherever a new symbol comes in, and may be prefixed, holds between the texts of all successive numbers. -/
theorem greedy_step {table : List (List Char × Nat)} (hd : Descending table) {B : Nat} {R : List Char → List Char → Prop}
    (pre : ∀ p {t u}, R t u → R (p ++ t) (p ++ u)) (hn : (∃ s, (s, 1) ∈ table) ∨ R [] [])
    (hs : ∀ p ∈ table, p.2 ≠ 0 → p.2 < B → R (greedyText table (p.2 - 1)) p.1) :
    ∀ n, n + 1 < B → R (greedyText table n) (greedyText table (n + 1)) := by
  intro n
  induction n using Nat.strongRecOn with
  | _ n ih =>
    intro hB
    by_cases hq : ∃ q ∈ table, q.2 = n + 1
    · obtain ⟨q, hq, e⟩ := hq
      have h1 := greedyText_symbol hd hq (by omega)
      have h2 := hs q hq (by omega) (by omega)
      rw [e] at h1 h2
      rw [h1]
      exact h2
    · have hg := picks_greedy hd n
      rw [greedyText]
      generalize hp : picks table n = ps at hg
      cases hg with
      | stop _ hstop =>
        have : ∀ q ∈ table, q.2 ≠ 0 → n + 1 < q.2 := fun q hm h0 => by
          have := hstop q hm h0
          have : q.2 ≠ n + 1 := fun e => hq ⟨q, hm, e⟩
          omega
        rw [greedyText_eq hd (.stop (n + 1) this)]
        rcases hn with ⟨s, hu⟩ | h
        · have := this _ hu Nat.one_ne_zero
          simp only at this
          omega
        · exact h
      | take _ p ps hm h0 hle hmax hrest =>
        have hmax' : ∀ q ∈ table, q.2 ≤ n + 1 → q.2 ≤ p.2 := fun q hqm h => by
          have : q.2 ≠ n + 1 := fun e => hq ⟨q, hqm, e⟩
          exact hmax q hqm (by omega)
        have e1 : n + 1 - p.2 = n - p.2 + 1 := by omega
        have h2 : Greedy table (n + 1) (p :: picks table (n + 1 - p.2)) := .take _ _ _ hm h0 (by omega) hmax' (picks_greedy hd _)
        rw [greedyText_eq hd h2]
        have ih := ih (n - p.2) (by omega) (by omega)
        rw [greedyText_eq hd hrest] at ih
        show R (p.1 ++ written ps) (p.1 ++ greedyText table (n + 1 - p.2))
        rw [e1]
        exact pre p.1 ih

theorem greedy_chain {table : List (List Char × Nat)} (hd : Descending table) {B : Nat} {R : List Char → List Char → Prop}
    (pre : ∀ p {t u}, R t u → R (p ++ t) (p ++ u)) (trans : ∀ {t u v}, R t u → R u v → R t v) (hn : (∃ s, (s, 1) ∈ table) ∨ R [] [])
    (hs : ∀ p ∈ table, p.2 ≠ 0 → p.2 < B → R (greedyText table (p.2 - 1)) p.1) {n : Nat} :
    ∀ m, n < m → m < B → R (greedyText table n) (greedyText table m)
  | 0, h, _ => by omega
  | m + 1, h, hB => by
    have h1 := greedy_step hd pre hn hs m hB
    by_cases e : n = m
    · exact e ▸ h1
    · exact trans (greedy_chain hd pre trans hn hs m (by omega) (by omega)) h1

namespace Props

/-- With `alloc` every positive number has a label, the greedy text. -/
theorem additive_give {ε : Type} {cfg : Cfg} {T : IntTy} {table : List (List Char × Nat)} {a : AdditiveSet} (hal : cfg.alloc = true)
    (ha : AdditiveSet.new (ε := ε) table = .ok a) {n : Nat} (h0 : n ≠ 0) (hn : T.Fits cfg n) :
    ∃ x, a.tryFormat cfg T n = .ok x ∧ x.asStr = some (greedyText table n) := by
  obtain ⟨ps, hg, hv, -⟩ := C22_lost_remainder ha h0 hn (cfg := cfg)
  rw [hal, deliver_alloc_gives] at hv
  rw [greedyText_eq (new_ok ha).1 hg]
  exact string_of_view hv

theorem additive_take {ε : Type} {cfg : Cfg} {T : IntTy} {table : List (List Char × Nat)} {a : AdditiveSet} (hal : cfg.alloc = true)
    (ha : AdditiveSet.new (ε := ε) table = .ok a) {n : Nat} (h0 : n ≠ 0) (hn : T.Fits cfg n) {x : NStr} (hx : a.tryFormat cfg T n = .ok x)
    {t : List Char} (ht : x.asStr = some t) : t = greedyText table n := by
  obtain ⟨y, hy, ty⟩ := additive_give hal ha h0 hn
  rw [hy] at hx
  cases hx
  rw [ty] at ht
  exact (Option.some.inj ht).symm

/-- C100, additive sets, exactly: with a symbol for 1 that is not empty, the labels sort like their numbers if and only if every symbol
(as far as the integer type reaches) sorts after the label of the number before its value. -/
theorem C100_additive_symbols {ε : Type} {cfg : Cfg} {T : IntTy} {table : List (List Char × Nat)} {a : AdditiveSet} (hal : cfg.alloc = true)
    (ha : AdditiveSet.new (ε := ε) table = .ok a) {one : List Char} (hu : (one, 1) ∈ table) (hne : one ≠ []) :
    (∀ n m x y, T.Fits cfg n → T.Fits cfg m → a.tryFormat cfg T n = .ok x → a.tryFormat cfg T m = .ok y → x.cmp y = some (compare n m)) ↔
      ∀ p ∈ table, p.2 ≠ 0 → T.Fits cfg p.2 → ∀ x t, a.tryFormat cfg T (p.2 - 1) = .ok x → x.asStr = some t → Before t p.1 := by
  have hd := (new_ok ha).1
  have h256 := bits_ge cfg T
  constructor
  · intro h p hp h0 hf x t hx tx
    obtain ⟨y, hy, ty⟩ := additive_give hal ha h0 hf
    have hf' : T.Fits cfg (p.2 - 1) := Nat.lt_of_le_of_lt (Nat.sub_le _ _) hf
    have := h _ _ x y hf' hf hx hy
    rw [cmp_of_asStr tx ty, greedyText_symbol hd hp h0, Nat.compare_eq_lt.mpr (by omega)] at this
    exact Option.some.inj this
  · intro h
    have hs : ∀ p ∈ table, p.2 ≠ 0 → p.2 < 2 ^ T.bits cfg → Before (greedyText table (p.2 - 1)) p.1 := by
      intro p hp h0 hf
      by_cases h1 : p.2 - 1 = 0
      · rw [h1, greedyText_zero hd]
        have e : p.2 = 1 := by omega
        have hpone : p.1 = one := by
          have h2 := greedyText_symbol hd hp h0
          have h3 := greedyText_symbol hd hu Nat.one_ne_zero
          rw [e] at h2
          exact h2.symm.trans h3
        rw [hpone]
        exact before_nil hne
      · have hf' : T.Fits cfg (p.2 - 1) := Nat.lt_of_le_of_lt (Nat.sub_le _ _) hf
        obtain ⟨x, hx, tx⟩ := additive_give hal ha h1 hf'
        exact h p hp h0 hf x _ hx tx
    have chain : ∀ {n m : Nat}, n < m → m < 2 ^ T.bits cfg → Before (greedyText table n) (greedyText table m) := fun hnm hm =>
      greedy_chain (R := Before) hd (fun p _ _ h => before_prefix p h) (fun h h' => before_trans h h') (.inl ⟨_, hu⟩) hs _ hnm hm
    have lt : ∀ {n m x y t u}, n < m → T.Fits cfg m → a.tryFormat cfg T n = .ok x → a.tryFormat cfg T m = .ok y → x.asStr = some t →
        y.asStr = some u → Before t u := by
      intro n m x y t u hnm hm hx hy tx ty
      have hu' := additive_take hal ha (by omega) hm hy ty
      subst hu'
      by_cases h0 : n = 0
      · subst h0
        have h1 : Before t one := h _ hu Nat.one_ne_zero (show _ < _ by simp only; omega) x t hx tx
        have h2 := greedyText_symbol hd hu Nat.one_ne_zero
        by_cases hm1 : m = 1
        · subst hm1
          simp only at h2
          rw [h2]
          exact h1
        · refine before_trans h1 ?_
          have := chain (n := 1) (m := m) (by omega) hm
          simp only at h2
          rw [h2] at this
          exact this
      · rw [additive_take hal ha h0 (Nat.lt_trans hnm hm) hx tx]
        exact chain hnm hm
    intro n m x y hn hm hx hy
    obtain ⟨t, ht, -⟩ := reachable_holds (C80_user_defined.2.2.1 a x hx)
    obtain ⟨u, hu', -⟩ := reachable_holds (C80_user_defined.2.2.1 a y hy)
    rw [cmp_of_asStr ht.asStr hu'.asStr]
    congr 1
    rcases Nat.lt_trichotomy n m with hlt | heq | hlt
    · rw [Nat.compare_eq_lt.mpr hlt]
      exact lt hlt hm hx hy ht.asStr hu'.asStr
    · subst heq
      rw [hx] at hy
      cases hy
      have := ht.asStr.symm.trans hu'.asStr
      cases this
      rw [Nat.compare_eq_eq.mpr rfl, compare_codes_self]
    · rw [Nat.compare_eq_gt.mpr hlt]
      have := lt hlt hn hy hx hu'.asStr ht.asStr
      rw [Std.OrientedCmp.eq_swap (cmp := compare)]
      rw [show compare (u.map (·.val.toNat)) (t.map (·.val.toNat)) = .lt from this]
      rfl

/-- C101, additive sets, exactly, for any measure of texts that adds up (`hμ`; characters and UTF-8 bytes below): labels never get
shorter if and only if no symbol is shorter than the label of the number before its value, and, where there is no symbol for 1, the
symbol for 0 measures nothing. -/
theorem additive_measure {ε : Type} {cfg : Cfg} {T : IntTy} {table : List (List Char × Nat)} {a : AdditiveSet} (hal : cfg.alloc = true)
    (ha : AdditiveSet.new (ε := ε) table = .ok a) {μ : List Char → Nat} (hμ : ∀ t u, μ (t ++ u) = μ t + μ u) :
    (∀ n m x y t u, n ≤ m → T.Fits cfg m → a.tryFormat cfg T n = .ok x → a.tryFormat cfg T m = .ok y → x.asStr = some t →
        y.asStr = some u → μ t ≤ μ u) ↔
      (∀ p ∈ table, p.2 ≠ 0 → T.Fits cfg p.2 → ∀ x t, a.tryFormat cfg T (p.2 - 1) = .ok x → x.asStr = some t → μ t ≤ μ p.1) ∧
      ((∃ s, (s, 1) ∈ table) ∨ ∀ x t, a.tryFormat cfg T 0 = .ok x → x.asStr = some t → μ t = 0) := by
  have hd := (new_ok ha).1
  have h256 := bits_ge cfg T
  have μ0 : μ [] = 0 := by have := hμ [] []; simp at this; omega
  constructor
  · intro h
    refine ⟨fun p hp h0 hf x t hx tx => ?_, ?_⟩
    · obtain ⟨y, hy, ty⟩ := additive_give hal ha h0 hf
      rw [greedyText_symbol hd hp h0] at ty
      exact h _ _ x y _ _ (Nat.sub_le _ _) hf hx hy tx ty
    · by_cases hu : ∃ s, (s, 1) ∈ table
      · exact .inl hu
      · refine .inr fun x t hx tx => ?_
        have hf : T.Fits cfg 1 := show _ < _ by omega
        obtain ⟨y, hy, ty⟩ := additive_give hal ha Nat.one_ne_zero hf
        have e : greedyText table 1 = [] := greedyText_eq hd (.stop 1 fun q hq h0 => by
          have : q.2 ≠ 1 := fun e => hu ⟨q.1, by rw [← e]; exact hq⟩
          omega)
        have := h 0 1 x y _ _ (Nat.zero_le _) hf hx hy tx ty
        rw [e, μ0] at this
        omega
  · rintro ⟨h, hz⟩
    have hs : ∀ p ∈ table, p.2 ≠ 0 → p.2 < 2 ^ T.bits cfg → μ (greedyText table (p.2 - 1)) ≤ μ p.1 := by
      intro p hp h0 hf
      by_cases h1 : p.2 - 1 = 0
      · rw [h1, greedyText_zero hd, μ0]
        exact Nat.zero_le _
      · have hf' : T.Fits cfg (p.2 - 1) := Nat.lt_of_le_of_lt (Nat.sub_le _ _) hf
        obtain ⟨x, hx, tx⟩ := additive_give hal ha h1 hf'
        exact h p hp h0 hf x _ hx tx
    have chain : ∀ {n m : Nat}, n ≤ m → m < 2 ^ T.bits cfg → μ (greedyText table n) ≤ μ (greedyText table m) := by
      intro n m hnm hm
      by_cases e : n = m
      · rw [e]
        exact Nat.le_refl _
      · exact greedy_chain (R := fun t u => μ t ≤ μ u) hd (fun p t u h => by simp only [hμ]; omega) (fun h h' => Nat.le_trans h h')
          (.inr (Nat.le_refl _)) hs m (by omega) hm
    intro n m x y t u hnm hm hx hy tx ty
    by_cases hm0 : m = 0
    · have hn0 : n = 0 := by omega
      subst hm0 hn0
      rw [hx] at hy
      cases hy
      rw [tx] at ty
      cases ty
      exact Nat.le_refl _
    · have e := additive_take hal ha hm0 hm hy ty
      subst e
      by_cases h0 : n = 0
      · subst h0
        rcases hz with ⟨s, hu⟩ | hz
        · have h1 := h _ hu Nat.one_ne_zero (show _ < _ by simp only; omega) x t hx tx
          have h2 := greedyText_symbol hd hu Nat.one_ne_zero
          have h3 := chain (n := 1) (m := m) (by omega) hm
          simp only at h1 h2
          rw [h2] at h3
          omega
        · rw [hz x t hx tx]
          exact Nat.zero_le _
      · rw [additive_take hal ha h0 (Nat.lt_of_le_of_lt hnm hm) hx tx]
        exact chain hnm hm

/-- C101, additive sets, counted in characters. -/
theorem C101_additive_exact {ε : Type} {cfg : Cfg} {T : IntTy} {table : List (List Char × Nat)} {a : AdditiveSet} (hal : cfg.alloc = true)
    (ha : AdditiveSet.new (ε := ε) table = .ok a) :
    (∀ n m x y t u, n ≤ m → T.Fits cfg m → a.tryFormat cfg T n = .ok x → a.tryFormat cfg T m = .ok y → x.asStr = some t →
        y.asStr = some u → t.length ≤ u.length) ↔
      (∀ p ∈ table, p.2 ≠ 0 → T.Fits cfg p.2 → ∀ x t, a.tryFormat cfg T (p.2 - 1) = .ok x → x.asStr = some t → t.length ≤ p.1.length) ∧
      ((∃ s, (s, 1) ∈ table) ∨ ∀ x t, a.tryFormat cfg T 0 = .ok x → x.asStr = some t → t.length = 0) :=
  additive_measure hal ha fun _ _ => List.length_append

/-- C101, additive sets, counted in bytes of UTF-8. -/
theorem C101_additive_bytes_exact {ε : Type} {cfg : Cfg} {T : IntTy} {table : List (List Char × Nat)} {a : AdditiveSet}
    (hal : cfg.alloc = true) (ha : AdditiveSet.new (ε := ε) table = .ok a) :
    (∀ n m x y t u, n ≤ m → T.Fits cfg m → a.tryFormat cfg T n = .ok x → a.tryFormat cfg T m = .ok y → x.asStr = some t →
        y.asStr = some u → utf8Len t ≤ utf8Len u) ↔
      (∀ p ∈ table, p.2 ≠ 0 → T.Fits cfg p.2 → ∀ x t, a.tryFormat cfg T (p.2 - 1) = .ok x → x.asStr = some t → utf8Len t ≤ utf8Len p.1) ∧
      ((∃ s, (s, 1) ∈ table) ∨ ∀ x t, a.tryFormat cfg T 0 = .ok x → x.asStr = some t → utf8Len t = 0) :=
  additive_measure hal ha fun _ _ => by simp

/-- Symbols `b` for 3 and `a` for 1 sort (`a`, `aa`, `b`, `ba`, …) although `b` is shorter than `aa`. -/
example : ∃ a, AdditiveSet.new (ε := Empty) [(['b'], 3), (['a'], 1)] = .ok a ∧
    (∀ n m x y, IntTy.u8.Fits ⟨true, .w64, true⟩ n → IntTy.u8.Fits ⟨true, .w64, true⟩ m → a.tryFormat ⟨true, .w64, true⟩ .u8 n = .ok x →
      a.tryFormat ⟨true, .w64, true⟩ .u8 m = .ok y → x.cmp y = some (compare n m)) ∧
    ¬ ∀ n m x y t u, n ≤ m → IntTy.u8.Fits ⟨true, .w64, true⟩ m → a.tryFormat ⟨true, .w64, true⟩ .u8 n = .ok x →
      a.tryFormat ⟨true, .w64, true⟩ .u8 m = .ok y → x.asStr = some t → y.asStr = some u → t.length ≤ u.length := by
  refine ⟨⟨[(['b'], 3), (['a'], 1)], none⟩, rfl, ?_, fun h => ?_⟩
  · refine (C100_additive_symbols (ε := Empty) (cfg := ⟨true, .w64, true⟩) (T := .u8) (table := [(['b'], 3), (['a'], 1)])
      (a := ⟨[(['b'], 3), (['a'], 1)], none⟩) rfl rfl (one := ['a']) (by simp) (by simp)).mpr ?_
    intro p hp h0 hf x t hx tx
    simp only [List.mem_cons, List.not_mem_nil, or_false] at hp
    rcases hp with rfl | rfl
    · have := additive_take (ε := Empty) (table := [(['b'], 3), (['a'], 1)]) rfl rfl (by decide) (by decide) hx tx
      rw [this]
      decide +kernel
    · cases hx
  · obtain ⟨x, hx, tx⟩ := additive_give (ε := Empty) (cfg := ⟨true, .w64, true⟩) (T := .u8) (table := [(['b'], 3), (['a'], 1)]) rfl rfl
      (n := 2) (by decide) (by decide)
    obtain ⟨y, hy, ty⟩ := additive_give (ε := Empty) (cfg := ⟨true, .w64, true⟩) (T := .u8) (table := [(['b'], 3), (['a'], 1)]) rfl rfl
      (n := 3) (by decide) (by decide)
    have := h 2 3 x y _ _ (by decide) (by decide) hx hy tx ty
    revert this
    decide +kernel

/-- Labels made of `cc` for 3 and `a` for 1 never get shorter. -/
example : ∃ a, AdditiveSet.new (ε := Empty) [(['c', 'c'], 3), (['a'], 1)] = .ok a ∧
    ∀ n m x y t u, n ≤ m → IntTy.u8.Fits ⟨true, .w64, true⟩ m → a.tryFormat ⟨true, .w64, true⟩ .u8 n = .ok x →
      a.tryFormat ⟨true, .w64, true⟩ .u8 m = .ok y → x.asStr = some t → y.asStr = some u → t.length ≤ u.length := by
  refine ⟨⟨[(['c', 'c'], 3), (['a'], 1)], none⟩, rfl, (C101_additive_exact (ε := Empty) (cfg := ⟨true, .w64, true⟩) (T := .u8)
    (table := [(['c', 'c'], 3), (['a'], 1)]) rfl rfl).mpr ⟨?_, .inl ⟨['a'], by simp⟩⟩⟩
  intro p hp h0 hf x t hx tx
  simp only [List.mem_cons, List.not_mem_nil, or_false] at hp
  rcases hp with rfl | rfl
  · rw [additive_take (ε := Empty) (table := [(['c', 'c'], 3), (['a'], 1)]) rfl rfl (by decide) (by decide) hx tx]
    decide +kernel
  · cases hx

/-! ## Enumerated sets -/

/-- Any relation between the labels of a set and those of greater numbers is one between its symbols, as far as the integer type reaches and
the build can store them. -/
theorem enumerated_relation {cfg : Cfg} {T : IntTy} (e : EnumSet) (hl : e.symbols.length < 2 ^ cfg.ptr.bits) (R : List Char → List Char → Prop) :
    (∀ n m x y t u, n < m → T.Fits cfg m → e.tryFormat cfg T n = .ok x → e.tryFormat cfg T m = .ok y → x.asStr = some t →
        y.asStr = some u → R t u) ↔
      ((e.symbols.take (2 ^ T.bits cfg - if e.hasZero then 0 else 1)).filter fun t => cfg.alloc || decide (utf8Len t ≤ 62)).Pairwise R := by
  generalize ho : (if e.hasZero then 0 else 1) = off
  have give : ∀ k t, e.symbols[k]? = some t → (cfg.alloc || decide (utf8Len t ≤ 62)) = true →
      ∃ x, e.tryFormat cfg T (k + off) = .ok x ∧ x.asStr = some t := by
    intro k t hk hs
    have hv := C45_enumerated (T := T) (n := k + off) e hl
    have h1 : ¬ (e.hasZero = false ∧ k + off = 0) := by
      rintro ⟨hz, h0⟩
      rw [hz] at ho
      simp at ho
      omega
    have h2 : (if e.hasZero then k + off else k + off - 1) = k := by
      subst ho
      cases e.hasZero <;> simp
    rw [if_neg h1, h2, hk] at hv
    by_cases hle : utf8Len t ≤ 62
    · simp only [hle, ↓reduceIte] at hv
      exact string_of_view hv
    · have ha : cfg.alloc = true := by simpa [hle] using hs
      simp only [hle, ha, ↓reduceIte] at hv
      exact string_of_view hv
  have take : ∀ {n x}, e.tryFormat cfg T n = .ok x →
      off ≤ n ∧ ∃ t, e.symbols[n - off]? = some t ∧ x.asStr = some t ∧ (cfg.alloc || decide (utf8Len t ≤ 62)) = true := by
    intro n x hx
    have h := C45_enumerated (T := T) (n := n) e hl
    obtain ⟨t, ht, -⟩ := reachable_holds (C80_user_defined.2.2.2 e x hx)
    have ht := ht.asStr
    rw [view_of_ok hx ht] at h
    split at h
    · cases h
    · next hn =>
      have h2 : (if e.hasZero then n else n - 1) = n - off := by
        subst ho
        cases e.hasZero <;> simp
      rw [h2] at h
      have h3 : off ≤ n := by
        subst ho
        cases hz : e.hasZero
        · have : n ≠ 0 := fun h0 => hn ⟨hz, h0⟩
          simp
          omega
        · simp
      refine ⟨h3, t, ?_, ht, ?_⟩
      · split at h
        · next u hu =>
          rw [hu]
          repeat' split at h
          all_goals first | (simp only [Res.ok.injEq, Prod.mk.injEq] at h; rw [h.1]) | cases h
        · cases h
      · split at h
        · next u hu =>
          split at h
          · next hle =>
            simp only [Res.ok.injEq, Prod.mk.injEq] at h
            simp [h.1, hle]
          · split at h
            · next ha => simp [ha]
            · cases h
        · cases h
  rw [List.pairwise_filter, List.pairwise_iff_getElem]
  constructor
  · intro h i j hi hj hij hsi hsj
    rw [List.length_take] at hi hj
    rw [List.getElem_take] at hsi
    rw [List.getElem_take] at hsj
    rw [List.getElem_take, List.getElem_take]
    obtain ⟨x, hx, tx⟩ := give i _ (List.getElem?_eq_getElem (by omega)) hsi
    obtain ⟨y, hy, ty⟩ := give j _ (List.getElem?_eq_getElem (by omega)) hsj
    exact h (i + off) (j + off) x y _ _ (by omega) (show _ < _ by omega) hx hy tx ty
  · intro h n m x y t' u' hnm hm hx hy tx' ty'
    have hm' : m < 2 ^ T.bits cfg := hm
    obtain ⟨a1, t, a2, tx, a3⟩ := take hx
    obtain ⟨b1, u, b2, ty, b3⟩ := take hy
    obtain ⟨a4, a5⟩ := List.getElem?_eq_some_iff.1 a2
    obtain ⟨b4, b5⟩ := List.getElem?_eq_some_iff.1 b2
    have := h (n - off) (m - off) (by rw [List.length_take]; omega) (by rw [List.length_take]; omega) (by omega)
    rw [List.getElem_take, List.getElem_take, a5, b5] at this
    rw [tx] at tx'
    rw [ty] at ty'
    cases tx'
    cases ty'
    exact this a3 b3

/-- C101, enumerated sets, exactly, in characters and in bytes: no label is longer than that of a greater number if and only if the symbols
within reach that can be stored never get shorter along the list. -/
theorem C101_enumerated_exact {cfg : Cfg} {T : IntTy} (e : EnumSet) (hl : e.symbols.length < 2 ^ cfg.ptr.bits) :
    ((∀ n m x y t u, n < m → T.Fits cfg m → e.tryFormat cfg T n = .ok x → e.tryFormat cfg T m = .ok y → x.asStr = some t →
        y.asStr = some u → t.length ≤ u.length) ↔
      ((e.symbols.take (2 ^ T.bits cfg - if e.hasZero then 0 else 1)).filter fun t => cfg.alloc || decide (utf8Len t ≤ 62)).Pairwise
        fun t u => t.length ≤ u.length) ∧
    ((∀ n m x y t u, n < m → T.Fits cfg m → e.tryFormat cfg T n = .ok x → e.tryFormat cfg T m = .ok y → x.asStr = some t →
        y.asStr = some u → utf8Len t ≤ utf8Len u) ↔
      ((e.symbols.take (2 ^ T.bits cfg - if e.hasZero then 0 else 1)).filter fun t => cfg.alloc || decide (utf8Len t ≤ 62)).Pairwise
        fun t u => utf8Len t ≤ utf8Len u) :=
  ⟨enumerated_relation e hl _, enumerated_relation e hl _⟩

/-- `i`, `ii`, `iv` never gets shorter; `iii`, `iv` does. -/
example : (∀ n m x y t u, n < m → IntTy.u8.Fits ⟨false, .w16, true⟩ m →
      EnumSet.tryFormat ⟨false, [['i'], ['i', 'i'], ['i', 'v']]⟩ ⟨false, .w16, true⟩ .u8 n = .ok x →
      EnumSet.tryFormat ⟨false, [['i'], ['i', 'i'], ['i', 'v']]⟩ ⟨false, .w16, true⟩ .u8 m = .ok y → x.asStr = some t → y.asStr = some u →
      t.length ≤ u.length) ∧
    ¬ ∀ n m x y t u, n < m → IntTy.u8.Fits ⟨false, .w16, true⟩ m →
      EnumSet.tryFormat ⟨true, [['i', 'i', 'i'], ['i', 'v']]⟩ ⟨false, .w16, true⟩ .u8 n = .ok x →
      EnumSet.tryFormat ⟨true, [['i', 'i', 'i'], ['i', 'v']]⟩ ⟨false, .w16, true⟩ .u8 m = .ok y → x.asStr = some t → y.asStr = some u →
      t.length ≤ u.length :=
  ⟨(C101_enumerated_exact _ (by decide)).1.mpr (by decide +kernel), fun h => absurd ((C101_enumerated_exact _ (by decide)).1.mp h) (by decide +kernel)⟩

end Props
end Nominals
