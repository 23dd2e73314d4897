import Verif.Props.Inline
import Verif.Props.Sorting
import Verif.Props.Additive
import Verif.Props.Lib
import Verif.Props.OneBased
import Verif.Spec.LabelOrder

/-!
# Property C100: which labels sort like their numbers

Vocabulary: `Verif/Spec/LabelOrder.lean` (`Rising`, `sortedSystems`).
-/

namespace Nominals

open Nominals.Spec

/-- The text behind a string that was delivered. -/
theorem text_of_deliver {alloc : Bool} {n : Nat} {s : NStr} {t : List Char} (h : view (.ok s) = deliver alloc n t) : s.asStr = some t := by
  simp only [view, Res.bind_ok] at h
  cases hs : s.asStr with
  | none =>
    rw [hs] at h
    simp only [deliver] at h
    split at h
    · cases h
    · split at h <;> cases h
  | some u =>
    rw [hs] at h
    simp only at h
    rw [deliver_ok h.symm]

theorem codes_cons_lt {c d : Char} {t u : List Char} (h : c < d) :
    compare ((c :: t).map (·.val.toNat)) ((d :: u).map (·.val.toNat)) = .lt := by
  have : c.val.toNat < d.val.toNat := h
  simp only [List.map_cons, List.compare_eq_compareLex, List.compareLex_cons_cons, Nat.compare_eq_lt.mpr this]
  rfl

theorem compare_codes_self (t : List Nat) : compare t t = .eq := by
  induction t with
  | nil => rfl
  | cons c t ih =>
    simp only [List.compare_eq_compareLex, List.compareLex_cons_cons, Nat.compare_eq_eq.mpr rfl] at ih ⊢
    exact ih

theorem codes_append (p t u : List Char) :
    compare ((p ++ t).map (·.val.toNat)) ((p ++ u).map (·.val.toNat)) = compare (t.map (·.val.toNat)) (u.map (·.val.toNat)) := by
  induction p with
  | nil => rfl
  | cons c p ih =>
    simp only [List.cons_append, List.map_cons, List.compare_eq_compareLex, List.compareLex_cons_cons, Nat.compare_eq_eq.mpr rfl] at ih ⊢
    exact ih

/-- Over a rising table, the greedy expansions of growing numbers grow lexicographically. -/
theorem greedy_rising {table : List (List Char × Nat)} (hd : Descending table) (hr : Rising table) {n m : Nat}
    {ps qs : List (List Char × Nat)} (hp : Greedy table n ps) (hq : Greedy table m qs) (h : n ≤ m) :
    compare ((written ps).map (·.val.toNat)) ((written qs).map (·.val.toNat)) = .lt ∨ ps = qs := by
  induction hp generalizing m qs with
  | stop n hs =>
    cases hq with
    | stop => exact .inr rfl
    | take _ q qs hm _ _ _ _ =>
      obtain ⟨z, v⟩ := q
      cases z with
      | nil => exact absurd rfl (hr.texts _ hm)
      | cons c z => exact .inl (by simp [written])
  | take n p ps hpm hp0 hpn hpmax _ ih =>
    cases hq with
    | stop _ hs => have := hs p hpm hp0; omega
    | take _ q qs hqm hq0 hqm' hqmax hrest =>
      have hle : p.2 ≤ q.2 := hqmax p hpm (by omega)
      rcases Nat.lt_or_eq_of_le hle with hlt | heq
      · obtain ⟨y, v⟩ := p
        obtain ⟨z, w⟩ := q
        have h1 := hr.texts _ hpm
        have h2 := hr.texts _ hqm
        have h3 := hr.order _ hpm _ hqm hlt
        cases y with
        | nil => exact absurd rfl h1
        | cons c y =>
          cases z with
          | nil => exact absurd rfl h2
          | cons d z =>
            refine .inl ?_
            simp only [written, List.flatMap_cons, List.cons_append]
            exact codes_cons_lt (h3 c (by simp) d (by simp))
      · have hpq : p = q := descending_inj hd hpm hqm heq
        subst hpq
        rcases ih hrest (by omega) with h4 | h4
        · refine .inl ?_
          simp only [written, List.flatMap_cons] at h4 ⊢
          rw [codes_append]
          exact h4
        · exact .inr (by rw [h4])

end Nominals

namespace Nominals.Props

open Nominals.Spec

/-- The symbols behind a delivered label. -/
theorem label_symbols {ε : Type} {cfg : Cfg} {T : IntTy} {table : List (List Char × Nat)} {a : AdditiveSet} {n : Nat} {x : NStr}
    (ha : AdditiveSet.new (ε := ε) table = .ok a) (hn : T.Fits cfg n) (h : a.tryFormat cfg T n = .ok x) :
    ∃ ps, x.asStr = some (written ps) ∧ ((n ≠ 0 ∧ Greedy table n ps) ∨ (n = 0 ∧ ∃ z, ps = [(z, 0)] ∧ (z, 0) ∈ table)) := by
  by_cases h0 : n = 0
  · subst h0
    obtain ⟨h1, h2, h3⟩ := C23_zero (cfg := cfg) (T := T) ha
    by_cases he : ∃ p ∈ table, p.2 = 0
    · obtain ⟨z, hz⟩ := h3 he
      have hv := h1 z hz
      rw [h] at hv
      refine ⟨[(z, 0)], ?_, .inr ⟨rfl, z, rfl, List.mem_of_getLast? hz⟩⟩
      simp only [view, Res.bind_ok] at hv
      cases hs : x.asStr with
      | none =>
        rw [hs] at hv
        simp only at hv
        split at hv
        · cases hv
        · split at hv <;> cases hv
      | some u =>
        rw [hs] at hv
        simp only at hv
        have : u = z := by
          split at hv
          · simp only [Res.ok.injEq, Prod.mk.injEq] at hv; exact hv.1
          · split at hv
            · simp only [Res.ok.injEq, Prod.mk.injEq] at hv; exact hv.1
            · cases hv
        simp [written, this]
    · have := h2 fun p hp hp0 => he ⟨p, hp, hp0⟩
      rw [this] at h
      cases h
  · obtain ⟨ps, hg, hv, -, -⟩ := C22_lost_remainder (cfg := cfg) (T := T) ha h0 hn
    rw [h] at hv
    exact ⟨ps, text_of_deliver hv, .inl ⟨h0, hg⟩⟩

/-- C100, additive sets in general. If of two symbols the one of greater value begins with the greater character (the zero symbol
included), and there is a symbol for one, then labels compare like their numbers, whatever their lengths, integer types and builds. -/
theorem C100_additive {ε : Type} {cfg cfg' : Cfg} {T T' : IntTy} {table : List (List Char × Nat)} {a : AdditiveSet} {n m : Nat} {x y : NStr}
    (ha : AdditiveSet.new (ε := ε) table = .ok a) (hr : Rising table) (hu : ∃ s, (s, 1) ∈ table) (hn : T.Fits cfg n) (hm : T'.Fits cfg' m)
    (hx : a.tryFormat cfg T n = .ok x) (hy : a.tryFormat cfg' T' m = .ok y) : x.cmp y = some (compare n m) := by
  obtain ⟨hd, -, -⟩ := new_ok ha
  have key : ∀ {n m : Nat} {ps qs : List (List Char × Nat)},
      ((n ≠ 0 ∧ Greedy table n ps) ∨ (n = 0 ∧ ∃ z, ps = [(z, 0)] ∧ (z, 0) ∈ table)) →
      ((m ≠ 0 ∧ Greedy table m qs) ∨ (m = 0 ∧ ∃ z, qs = [(z, 0)] ∧ (z, 0) ∈ table)) → n < m →
      compare ((written ps).map (·.val.toNat)) ((written qs).map (·.val.toNat)) = .lt := by
    intro n m ps qs h1 h2 hlt
    rcases h2 with ⟨hm0, h2⟩ | ⟨hm0, -⟩
    · rcases h1 with ⟨hn0, h1⟩ | ⟨hn0, z, rfl, hz⟩
      · rcases greedy_rising hd hr h1 h2 (by omega) with h | h
        · exact h
        · have e1 := greedy_total hu h1
          have e2 := greedy_total hu h2
          rw [h] at e1
          omega
      · have e2 := greedy_total hu h2
        have := (greedy_le h2).2.2
        cases qs with
        | nil => simp [total] at e2; omega
        | cons q qs =>
          obtain ⟨hq, hq0, -⟩ := this q (by simp)
          have h3 := hr.order _ hz _ hq (by simp only; omega)
          have h4 := hr.texts _ hz
          have h5 := hr.texts _ hq
          obtain ⟨w, v⟩ := q
          cases z with
          | nil => exact absurd rfl h4
          | cons c z =>
            cases w with
            | nil => exact absurd rfl h5
            | cons d w =>
              simp only [written, List.flatMap_cons, List.cons_append]
              exact codes_cons_lt (h3 c (by simp) d (by simp))
    · omega
  obtain ⟨ps, e1, h1⟩ := label_symbols ha hn hx
  obtain ⟨qs, e2, h2⟩ := label_symbols ha hm hy
  rw [cmp_of_asStr e1 e2]
  congr 1
  rcases Nat.lt_trichotomy n m with h | h | h
  · rw [key h1 h2 h, Nat.compare_eq_lt.mpr h]
  · subst h
    have : ps = qs := by
      rcases h1 with ⟨h0, h1⟩ | ⟨h0, z, rfl, hz⟩ <;> rcases h2 with ⟨h0', h2⟩ | ⟨h0', w, rfl, hw⟩
      · exact greedy_unique hd h1 h2
      · omega
      · omega
      · rw [descending_inj hd hz hw rfl]
    rw [this, Nat.compare_eq_eq.mpr rfl, compare_codes_self]
  · rw [Nat.compare_eq_gt.mpr h, ← Std.OrientedCmp.gt_iff_lt.symm]
    exact key h2 h1 h

/-- The table of the example at the end of this file satisfies the hypotheses, and 14 is written with two of its symbols. -/
example : Rising [(['d'], 9), (['c', 'x'], 5), (['b'], 1), (['a'], 0)] ∧
    (match AdditiveSet.new (ε := Error) [(['d'], 9), (['c', 'x'], 5), (['b'], 1), (['a'], 0)] with
      | .ok a => (a.tryFormat ⟨true, .w64, true⟩ .u8 14).map NStr.asStr
      | _ => .timeout) = .ok (some ['d', 'c', 'x']) := ⟨⟨by decide, by decide +kernel⟩, by decide +kernel⟩

/-- C100, additive sets without a symbol for one: labels never run against their numbers, though different numbers may share a label. -/
theorem C100_additive_weak {ε : Type} {cfg cfg' : Cfg} {T T' : IntTy} {table : List (List Char × Nat)} {a : AdditiveSet} {n m : Nat}
    {x y : NStr} (ha : AdditiveSet.new (ε := ε) table = .ok a) (hr : Rising table) (h0 : n ≠ 0) (hnm : n ≤ m) (hn : T.Fits cfg n)
    (hm : T'.Fits cfg' m) (hx : a.tryFormat cfg T n = .ok x) (hy : a.tryFormat cfg' T' m = .ok y) :
    x.cmp y = some .lt ∨ x.cmp y = some .eq := by
  obtain ⟨hd, -, -⟩ := new_ok ha
  obtain ⟨ps, e1, h1⟩ := label_symbols ha hn hx
  obtain ⟨qs, e2, h2⟩ := label_symbols ha hm hy
  rw [cmp_of_asStr e1 e2]
  rcases h1 with ⟨-, h1⟩ | ⟨h, -⟩
  · rcases h2 with ⟨-, h2⟩ | ⟨h, -⟩
    · rcases greedy_rising hd hr h1 h2 hnm with h | h
      · exact .inl (by rw [h])
      · exact .inr (by rw [h, compare_codes_self])
    · omega
  · exact absurd h h0

/-- Without a symbol for one, 5 and 6 are written alike: the labels do not descend. -/
example : Rising [(['d'], 9), (['c'], 5)] ∧
    (match AdditiveSet.new (ε := Error) [(['d'], 9), (['c'], 5)] with
      | .ok a => (a.tryFormat ⟨true, .w64, true⟩ .u8 5).bind fun x => (a.tryFormat ⟨true, .w64, true⟩ .u8 6).map fun y => x.cmp y
      | _ => .timeout) = .ok (some .eq) := ⟨⟨by decide, by decide +kernel⟩, by decide +kernel⟩

/-- The label of a symbol's value is the symbol, if it fits inline. -/
theorem label_of_symbol {ε : Type} {cfg : Cfg} {T : IntTy} {table : List (List Char × Nat)} {a : AdditiveSet} {p : List Char × Nat}
    (ha : AdditiveSet.new (ε := ε) table = .ok a) (hp : p ∈ table) (hT : T.Fits cfg p.2) (hl : utf8Len p.1 ≤ 62) :
    ∃ x, a.tryFormat cfg T p.2 = .ok x ∧ x.asStr = some p.1 := by
  obtain ⟨hd, -, -⟩ := new_ok ha
  have hv : view (a.tryFormat cfg T p.2) = .ok (p.1, true) := by
    by_cases h0 : p.2 = 0
    · obtain ⟨h1, -, h3⟩ := C23_zero (cfg := cfg) (T := T) ha
      obtain ⟨z, hz⟩ := h3 ⟨p, hp, h0⟩
      have e : p = (z, 0) := descending_inj hd hp (List.mem_of_getLast? hz) h0
      subst e
      rw [h1 z hz, if_pos hl]
    · obtain ⟨ps, hg, hv, -, -⟩ := C22_lost_remainder (cfg := cfg) (T := T) ha h0 hT
      have hg' : Greedy table p.2 [p] := .take _ p [] hp h0 (Nat.le_refl _) (fun q _ h => h)
        (.stop _ fun q _ hq => by omega)
      rw [hv, greedy_unique hd hg hg']
      simp [deliver, written, hl]
  cases h : a.tryFormat cfg T p.2 with
  | ok x =>
    rw [h] at hv
    refine ⟨x, rfl, ?_⟩
    simp only [view, Res.bind_ok] at hv
    cases hs : x.asStr with
    | none => rw [hs] at hv; cases hv
    | some t => rw [hs] at hv; simp only [Res.ok.injEq, Prod.mk.injEq] at hv; rw [hv.1]
  | _ => rw [h] at hv; cases hv

/-- C100, exactly, for tables of one-character symbols with a symbol for one and values within the integer type: labels compare like
their numbers if and only if the characters are ordered like their values. -/
theorem C100_additive_exact {ε : Type} {cfg : Cfg} {T : IntTy} {table : List (List Char × Nat)} {a : AdditiveSet}
    (ha : AdditiveSet.new (ε := ε) table = .ok a) (h1 : ∀ p ∈ table, p.1.length = 1) (hT : ∀ p ∈ table, T.Fits cfg p.2)
    (hu : ∃ s, (s, 1) ∈ table) :
    Rising table ↔ ∀ n m x y, T.Fits cfg n → T.Fits cfg m → a.tryFormat cfg T n = .ok x → a.tryFormat cfg T m = .ok y →
      x.cmp y = some (compare n m) := by
  constructor
  · intro hr n m x y hn hm hx hy
    exact C100_additive ha hr hu hn hm hx hy
  · intro h
    refine ⟨fun p hp h0 => by have := h1 p hp; simp [h0] at this, fun p hp q hq hpq c hc d hd => ?_⟩
    have one : ∀ p ∈ table, ∀ c ∈ p.1.head?, p.1 = [c] := fun p hp c hc => by
      have h2 := h1 p hp
      match he : p.1 with
      | [] => rw [he] at h2; simp at h2
      | [e] => rw [he] at hc; simp at hc; rw [hc]
      | e :: f :: l => rw [he] at h2; simp at h2
    have ep := one p hp c hc
    have eq := one q hq d hd
    have short : ∀ c : Char, utf8Len [c] ≤ 62 := fun c => by
      have := c.utf8Size_le_four
      simp [utf8Len]; omega
    obtain ⟨x, hx, tx⟩ := label_of_symbol (cfg := cfg) (T := T) ha hp (hT p hp) (by rw [ep]; exact short c)
    obtain ⟨y, hy, ty⟩ := label_of_symbol (cfg := cfg) (T := T) ha hq (hT q hq) (by rw [eq]; exact short d)
    have := h _ _ x y (hT p hp) (hT q hq) hx hy
    rw [cmp_of_asStr tx ty, ep, eq, Nat.compare_eq_lt.mpr hpq] at this
    simp only [List.map_cons, List.map_nil, List.compare_eq_compareLex, List.compareLex_cons_cons, Option.some.injEq] at this
    show c.val.toNat < d.val.toNat
    generalize hc : compare c.val.toNat d.val.toNat = o at this
    cases o with
    | lt => exact Nat.compare_eq_lt.mp hc
    | eq => cases this
    | gt => cases this

/-- Roman signs do not rise: `L` is worth more than `X` but sorts before it. -/
example : ¬ Rising [(['L'], 50), (['X'], 10), (['V'], 5), (['I'], 1)] := by
  intro h
  exact absurd (h.2 (['X'], 10) (by simp) (['L'], 50) (by simp) (by decide) 'X' rfl 'L' rfl) (by decide)

/-! ## The named systems -/

/-- The text of a delivered label of a named system. -/
theorem named_text {cfg : Cfg} {T : IntTy} {n : Nat} {s : Named} {x : NStr} (hn : T.Fits cfg n) (h : tryToNominal cfg T n s.system = .ok x) :
    ∃ t, answer s n = .text t ∧ x.asStr = some t := by
  have hc := C51_catalogue s hn
  rw [h] at hc
  cases ha : answer s n with
  | text t => rw [ha] at hc; exact ⟨t, rfl, text_of_deliver hc⟩
  | noZero =>
    rw [ha] at hc
    simp only [view, Res.bind_ok, present] at hc
    split at hc <;> cases hc
  | outOfBounds =>
    rw [ha] at hc
    simp only [view, Res.bind_ok, present] at hc
    split at hc <;> cases hc

/-- A short text of the catalogue is delivered. -/
theorem named_label {cfg : Cfg} {T : IntTy} {n : Nat} {s : Named} {t : List Char} (hn : T.Fits cfg n) (ha : answer s n = .text t)
    (hl : utf8Len t ≤ 62) : (∃ x, tryToNominal cfg T n s.system = .ok x ∧ x.asStr = some t) ∧
      ∃ x, toNominal cfg T n s.system = .ok x ∧ x.asStr = some t := by
  have key : ∀ {ε : Type} {r : Res ε NStr}, view r = .ok (t, true) → ∃ x, r = .ok x ∧ x.asStr = some t := by
    intro ε r h
    cases r with
    | ok x =>
      refine ⟨x, rfl, ?_⟩
      simp only [view, Res.bind_ok] at h
      cases hs : x.asStr with
      | none => rw [hs] at h; cases h
      | some u => rw [hs] at h; simp only [Res.ok.injEq, Prod.mk.injEq] at h; rw [h.1]
    | _ => cases h
  have hc := C51_catalogue (cfg := cfg) (T := T) s hn
  rw [ha] at hc
  simp only [present, deliver, hl, if_true] at hc
  refine ⟨key hc, key ?_⟩
  rcases C41_always_succeeds (cfg := cfg) (T := T) s hn with ⟨x, a1, a2⟩ | ⟨e, a1, -⟩
  · rw [a1] at hc
    rw [a2]
    cases hc
    rfl
  · rw [a1] at hc; cases hc

/-- Two numbers below 256 whose labels do not ascend. -/
def outOfOrder : Named → Nat × Nat
  | .letterUpper | .letterLower => (1, 26)
  | .greekUpper | .greekLower => (1, 24)
  | .hiragana | .katakana => (1, 46)
  | .hiraganaIroha | .katakanaIroha | .cjkHeavenlyStem | .cjkEarthlyBranch | .hangeulFormal => (1, 2)
  | .hangeulJamo | .hangeulSyllable => (1, 14)
  | .hexUpper | .hexLower => (2, 16)
  | .circledNumber | .romanLower | .romanUpper | .japaneseFormal | .hanjaInformal | .hanjaFormal | .chinese _ _ => (0, 1)
  | .cjkDecimal | .japaneseInformal => (2, 3)
  | .georgian => (8, 9)
  | .hebrew => (1, 11)
  | .ethiopic => (3, 200)
  | _ => (2, 10)

/-- Whether the texts of a pair are short and do not ascend. -/
def descends (s : Named) (n m : Nat) : Bool :=
  match answer s n, answer s m with
  | .text t, .text u => decide (utf8Len t ≤ 62 ∧ utf8Len u ≤ 62 ∧ compare (t.map (·.val.toNat)) (u.map (·.val.toNat)) ≠ .lt)
  | _, _ => false

theorem outOfOrder_descends (s : Named) (hs : s ∉ sortedSystems) :
    (outOfOrder s).1 < (outOfOrder s).2 ∧ (outOfOrder s).2 < 256 ∧ descends s (outOfOrder s).1 (outOfOrder s).2 = true := by
  cases s with
  | chinese k o =>
    obtain ⟨u, a⟩ := o
    clear hs
    cases u <;> cases k <;> cases a <;> decide +kernel
  | armenianUpper => exact absurd (by simp [sortedSystems]) hs
  | armenianLower => exact absurd (by simp [sortedSystems]) hs
  | doubleCircledNumber => exact absurd (by simp [sortedSystems]) hs
  | _ => clear hs; decide +kernel

theorem armenian_rising : Rising armenianUpperTable ∧ Rising armenianLowerTable :=
  ⟨⟨by decide +kernel, by decide +kernel⟩, ⟨by decide +kernel, by decide +kernel⟩⟩

theorem armenian_sorted {cfg cfg' : Cfg} {T T' : IntTy} {s : Named} (hs : s = .armenianUpper ∨ s = .armenianLower) {n m : Nat} {x y : NStr}
    (hn : T.Fits cfg n) (hm : T'.Fits cfg' m) (hx : tryToNominal cfg T n s.system = .ok x) (hy : tryToNominal cfg' T' m s.system = .ok y) :
    x.cmp y = some (compare n m) := by
  have go : ∀ {table : List (List Char × Nat)}, strictlyDescending table = true → Rising table → (∃ z, (z, 1) ∈ table) →
      additiveTryFormat table cfg T n = .ok x → additiveTryFormat table cfg' T' m = .ok y → x.cmp y = some (compare n m) := by
    intro table hd hr hu hx hy
    obtain ⟨a, ha⟩ : ∃ a, AdditiveSet.new (ε := Error) table = .ok a := by unfold AdditiveSet.new; rw [if_pos hd]; exact ⟨_, rfl⟩
    unfold additiveTryFormat at hx hy
    rw [ha] at hx hy
    exact C100_additive ha hr hu hn hm hx hy
  rcases hs with rfl | rfl
  · exact go (table := armenianUpperTable) (by decide +kernel) armenian_rising.1 ⟨['Ա', ' '], by decide +kernel⟩ hx hy
  · exact go (table := armenianLowerTable) (by decide +kernel) armenian_rising.2 ⟨['ա'], by decide +kernel⟩ hx hy

/-- Code points of the circled numbers ascend from 1 to 50, and of the double circled numbers from 1 to 10. -/
theorem circled_ascend : (∀ n < 51, ∀ m < 51, n ≠ 0 → m ≠ 0 →
      compare [(Char.ofNat (circled n)).val.toNat] [(Char.ofNat (circled m)).val.toNat] = compare n m) ∧
    ∀ n < 11, ∀ m < 11, n ≠ 0 → m ≠ 0 →
      compare [(Char.ofNat (0x24f5 + (n - 1))).val.toNat] [(Char.ofNat (0x24f5 + (m - 1))).val.toNat] = compare n m := by
  constructor <;> decide +kernel

/-- C100, the circled numbers. From one on the labels of `CircledNumber` sort like their numbers. (Zero is out of place: `⓪` sorts
between `⑳` and `㉑`, see `C100_named`.) -/
theorem C100_circled {cfg cfg' : Cfg} {T T' : IntTy} {n m : Nat} {x y : NStr} (hn : T.Fits cfg n) (hm : T'.Fits cfg' m) (hn0 : n ≠ 0)
    (hm0 : m ≠ 0) (hx : tryToNominal cfg T n Named.circledNumber.system = .ok x)
    (hy : tryToNominal cfg' T' m Named.circledNumber.system = .ok y) : x.cmp y = some (compare n m) := by
  obtain ⟨t, e1, t1⟩ := named_text hn hx
  obtain ⟨u, e2, t2⟩ := named_text hm hy
  simp only [answer] at e1 e2
  split at e1
  · split at e2
    · next h1 h2 =>
      cases e1
      cases e2
      rw [cmp_of_asStr t1 t2]
      exact congrArg some (circled_ascend.1 n (by omega) m (by omega) hn0 hm0)
    · cases e2
  · cases e1

example : ((tryToNominal ⟨true, .w64, true⟩ .u8 20 Named.circledNumber.system).bind fun x =>
    (tryToNominal ⟨false, .w32, true⟩ .u16 21 Named.circledNumber.system).map fun y => (x.asStr, y.asStr, x.cmp y)) =
      .ok (some ['⑳'], some ['㉑'], some .lt) := by decide +kernel

/-- C100. The labels of a named system compare like their numbers if and only if it is one of `ArmenianUpper`, `ArmenianLower` and
`DoubleCircledNumber`. In every other system, even among the values of `u8`, some greater number has a smaller (or equal) label. -/
theorem C100_named {cfg : Cfg} {T : IntTy} (s : Named) :
    (∀ n m x y, T.Fits cfg n → T.Fits cfg m → tryToNominal cfg T n s.system = .ok x → tryToNominal cfg T m s.system = .ok y →
      x.cmp y = some (compare n m)) ↔ s ∈ sortedSystems := by
  constructor
  · intro h
    refine Classical.byContradiction fun hs => ?_
    obtain ⟨h1, h2, h3⟩ := outOfOrder_descends s hs
    generalize (outOfOrder s).1 = n at h1 h3
    generalize (outOfOrder s).2 = m at h1 h2 h3
    have hb := bits_ge cfg T
    have hn : T.Fits cfg n := by show n < 2 ^ T.bits cfg; omega
    have hm : T.Fits cfg m := by show m < 2 ^ T.bits cfg; omega
    unfold descends at h3
    split at h3
    · next t u e1 e2 =>
      obtain ⟨l1, l2, h4⟩ := of_decide_eq_true h3
      obtain ⟨x, hx, tx⟩ := (named_label hn e1 l1).1
      obtain ⟨y, hy, ty⟩ := (named_label hm e2 l2).1
      have := h n m x y hn hm hx hy
      rw [cmp_of_asStr tx ty, Nat.compare_eq_lt.mpr h1] at this
      exact h4 (Option.some.inj this)
    · cases h3
  · intro hs n m x y hn hm hx hy
    simp only [sortedSystems, List.mem_cons, List.not_mem_nil, or_false] at hs
    rcases hs with rfl | rfl | rfl
    · exact armenian_sorted (.inl rfl) hn hm hx hy
    · exact armenian_sorted (.inr rfl) hn hm hx hy
    · obtain ⟨t, e1, t1⟩ := named_text hn hx
      obtain ⟨u, e2, t2⟩ := named_text hm hy
      simp only [answer] at e1 e2
      split at e1
      · cases e1
      · split at e1
        · split at e2
          · cases e2
          · split at e2
            · cases e1
              cases e2
              rw [cmp_of_asStr t1 t2]
              exact congrArg some (circled_ascend.2 n (by omega) m (by omega) (by assumption) (by assumption))
            · cases e2
        · cases e1

/-- Decimal labels do not sort like their numbers, whatever the type and build. -/
example (cfg : Cfg) (T : IntTy) : ∃ n m x y, T.Fits cfg n ∧ T.Fits cfg m ∧ tryToNominal cfg T n Named.decimal.system = .ok x ∧
    tryToNominal cfg T m Named.decimal.system = .ok y ∧ x.cmp y ≠ some (compare n m) := by
  refine Classical.byContradiction fun h => ?_
  have := (C100_named (cfg := cfg) (T := T) .decimal).mp fun n m x y hn hm hx hy =>
    Classical.byContradiction fun hc => h ⟨n, m, x, y, hn, hm, hx, hy, hc⟩
  simp [sortedSystems] at this

/-- The text of a label with fallback: the catalogue's, or the decimal numeral. -/
theorem to_nominal_text {cfg : Cfg} {T : IntTy} {n : Nat} {s : Named} {x : NStr} (hn : T.Fits cfg n) (h : toNominal cfg T n s.system = .ok x) :
    (∃ y, tryToNominal cfg T n s.system = .ok y ∧ x.asStr = y.asStr) ∨
      (∃ e, view (tryToNominal cfg T n s.system) = .err e) ∧ x.asStr = some (Nat.toDigits 10 n) := by
  rcases C41_always_succeeds (cfg := cfg) (T := T) s hn with ⟨z, a1, a2⟩ | ⟨e, a1, a2⟩
  · left
    cases hy : tryToNominal cfg T n s.system with
    | ok y =>
      refine ⟨y, rfl, ?_⟩
      rw [hy] at a1
      rw [h] at a2
      simp only [view, Res.bind_ok] at a1 a2
      cases h1 : y.asStr with
      | none => rw [h1] at a1; cases a1
      | some t =>
        cases h2 : x.asStr with
        | none => rw [h2] at a2; cases a2
        | some u =>
          rw [h1] at a1
          rw [h2] at a2
          simp only [Res.ok.injEq] at a1 a2
          rw [← a2] at a1
          rw [(Prod.mk.inj a1).1]
    | _ => rw [hy] at a1; cases a1
  · right
    refine ⟨⟨e, a1⟩, ?_⟩
    rw [h] at a2
    simp only [view, Res.bind_ok] at a2
    cases h2 : x.asStr with
    | none => rw [h2] at a2; cases a2
    | some u =>
      rw [h2] at a2
      simp only [Res.ok.injEq, Prod.mk.injEq] at a2
      rw [a2.1]

/-- Armenian labels begin with a character above `0`. -/
theorem armenian_label {cfg : Cfg} {T : IntTy} {s : Named} (hs : s = .armenianUpper ∨ s = .armenianLower) {n : Nat} {x : NStr}
    (hn : T.Fits cfg n) (hx : tryToNominal cfg T n s.system = .ok x) : n ≠ 0 ∧ ∃ c t, x.asStr = some (c :: t) ∧ '0' < c := by
  have go : ∀ {table : List (List Char × Nat)}, strictlyDescending table = true → (∃ z, (z, 1) ∈ table) →
      (∀ p ∈ table, p.2 ≠ 0 ∧ p.1 ≠ [] ∧ ∀ c ∈ p.1.head?, '0' < c) →
      additiveTryFormat table cfg T n = .ok x → n ≠ 0 ∧ ∃ c t, x.asStr = some (c :: t) ∧ '0' < c := by
    intro table hd hu hall hx
    obtain ⟨a, ha⟩ : ∃ a, AdditiveSet.new (ε := Error) table = .ok a := by unfold AdditiveSet.new; rw [if_pos hd]; exact ⟨_, rfl⟩
    unfold additiveTryFormat at hx
    rw [ha] at hx
    obtain ⟨ps, e, h | ⟨-, z, -, hz⟩⟩ := label_symbols ha hn hx
    · refine ⟨h.1, ?_⟩
      have ht := greedy_total hu h.2
      have hl := (greedy_le h.2).2.2
      cases ps with
      | nil => exact absurd ht.symm h.1
      | cons p ps =>
        obtain ⟨-, h2, h3⟩ := hall p (hl p (by simp)).1
        obtain ⟨z, v⟩ := p
        cases z with
        | nil => exact absurd rfl h2
        | cons c z => exact ⟨c, z ++ written ps, e, h3 c (by simp)⟩
    · exact absurd rfl (hall _ hz).1
  rcases hs with rfl | rfl
  · exact go (table := armenianUpperTable) (by decide +kernel) ⟨['Ա', ' '], by decide +kernel⟩ (by decide +kernel) hx
  · exact go (table := armenianLowerTable) (by decide +kernel) ⟨['ա'], by decide +kernel⟩ (by decide +kernel) hx

/-- From an outcome to the string. -/
theorem string_of_view {ε : Type} {r : Res ε NStr} {t : List Char} {i : Bool} (h : view r = .ok (t, i)) : ∃ x, r = .ok x ∧ x.asStr = some t := by
  cases r with
  | ok x =>
    refine ⟨x, rfl, ?_⟩
    simp only [view, Res.bind_ok] at h
    cases hs : x.asStr with
    | none => rw [hs] at h; cases h
    | some u => rw [hs] at h; simp only [Res.ok.injEq, Prod.mk.injEq] at h; rw [h.1]
  | _ => cases h

/-- The Armenian letters for one. -/
def textOfOne : Named → List Char
  | .armenianUpper => ['Ա', ' ']
  | _ => ['ա']

theorem textOfOne_spec {s : Named} (h : s = .armenianUpper ∨ s = .armenianLower) :
    answer s 1 = .text (textOfOne s) ∧ utf8Len (textOfOne s) ≤ 62 := by
  rcases h with rfl | rfl <;> decide +kernel

theorem bits_gap {cfg : Cfg} {T : IntTy} (h : ¬T.bits cfg ≤ 16) : 32 ≤ T.bits cfg := by
  revert h
  cases T <;> simp [IntTy.bits]
  cases cfg.ptr <;> simp [PtrWidth.bits]

/-- C100, with fallback. The labels of `to_nominal` (including the decimal numerals it falls back to) compare like their numbers if and only
if the system is `ArmenianUpper` or `ArmenianLower`, and the build has `alloc` or the integers have at most 16 bits; without `alloc` labels of
more than 62 bytes are replaced by decimal numerals. -/
theorem C100_to_nominal {cfg : Cfg} {T : IntTy} (s : Named) :
    (∀ n m x y, T.Fits cfg n → T.Fits cfg m → toNominal cfg T n s.system = .ok x → toNominal cfg T m s.system = .ok y →
      x.cmp y = some (compare n m)) ↔ (s = .armenianUpper ∨ s = .armenianLower) ∧ (cfg.alloc = true ∨ T.bits cfg ≤ 16) := by
  have hb := bits_ge cfg T
  constructor
  · intro h
    by_cases hs : s ∈ sortedSystems
    · simp only [sortedSystems, List.mem_cons, List.not_mem_nil, or_false] at hs
      have wide : ∀ {k : Nat}, (s = .armenianUpper ∨ s = .armenianLower) → firstLong s = some k → k < 2 ^ 32 →
          compare ((textOfOne s).map (·.val.toNat)) ((Nat.toDigits 10 k).map (·.val.toNat)) = .gt → 1 < k →
          cfg.alloc = true ∨ T.bits cfg ≤ 16 := by
        intro k hA hk h32 hgt hk1
        refine Classical.byContradiction fun hno => ?_
        rw [not_or] at hno
        have hal : cfg.alloc = false := by simpa using hno.1
        have hbig : 2 ^ 32 ≤ 2 ^ T.bits cfg := Nat.pow_le_pow_right (by omega) (bits_gap hno.2)
        have h1 : T.Fits cfg 1 := by show 1 < 2 ^ T.bits cfg; omega
        have hf : T.Fits cfg k := by show k < 2 ^ T.bits cfg; omega
        obtain ⟨x, hx, tx⟩ := (named_label (s := s) h1 (textOfOne_spec hA).1 (textOfOne_spec hA).2).2
        obtain ⟨w, -, hw⟩ := (C57_first_long (cfg := cfg) (T := T) s hf).2 hk
        rw [hal] at hw
        rcases C41_always_succeeds (cfg := cfg) (T := T) s hf with ⟨z, a1, -⟩ | ⟨e, -, a2⟩
        · rw [a1] at hw; cases hw
        · obtain ⟨y, hy, ty⟩ := string_of_view a2
          have := h 1 k x y h1 hf hx hy
          rw [cmp_of_asStr tx ty, hgt, Nat.compare_eq_lt.mpr hk1] at this
          cases this
      rcases hs with rfl | rfl | rfl
      · exact ⟨.inl rfl, wide (.inl rfl) rfl (by decide) (by decide +kernel) (by decide)⟩
      · exact ⟨.inr rfl, wide (.inr rfl) rfl (by decide) (by decide +kernel) (by decide)⟩
      · exfalso
        have h1 : T.Fits cfg 1 := by show 1 < 2 ^ T.bits cfg; omega
        have h11 : T.Fits cfg 11 := by show 11 < 2 ^ T.bits cfg; omega
        obtain ⟨x, hx, tx⟩ := (named_label (s := .doubleCircledNumber) h1 rfl (by decide)).2
        have hv := C51_catalogue (cfg := cfg) (T := T) Named.doubleCircledNumber h11
        rcases C41_always_succeeds (cfg := cfg) (T := T) Named.doubleCircledNumber h11 with ⟨z, a1, -⟩ | ⟨e, a1, a2⟩
        · rw [a1] at hv; cases hv
        · cases hy : toNominal cfg T 11 Named.doubleCircledNumber.system with
          | ok y =>
            rcases to_nominal_text h11 hy with ⟨z, b1, -⟩ | ⟨-, b2⟩
            · rw [b1] at a1
              simp only [view, Res.bind_ok] at a1
              split at a1 <;> cases a1
            · have := h 1 11 x y h1 h11 hx hy
              rw [cmp_of_asStr tx b2] at this
              revert this
              decide +kernel
          | _ => rw [hy] at a2; cases a2
    · exfalso
      obtain ⟨h1, h2, h3⟩ := outOfOrder_descends s hs
      generalize (outOfOrder s).1 = n at h1 h3
      generalize (outOfOrder s).2 = m at h1 h2 h3
      have hn : T.Fits cfg n := by show n < 2 ^ T.bits cfg; omega
      have hm : T.Fits cfg m := by show m < 2 ^ T.bits cfg; omega
      unfold descends at h3
      split at h3
      · next t u e1 e2 =>
        obtain ⟨l1, l2, h4⟩ := of_decide_eq_true h3
        obtain ⟨x, hx, tx⟩ := (named_label hn e1 l1).2
        obtain ⟨y, hy, ty⟩ := (named_label hm e2 l2).2
        have := h n m x y hn hm hx hy
        rw [cmp_of_asStr tx ty, Nat.compare_eq_lt.mpr h1] at this
        exact h4 (Option.some.inj this)
      · cases h3
  · rintro ⟨hs, hroom⟩ n m x y hn hm hx hy
    have zero : ∀ {k : Nat}, T.Fits cfg k → (∃ e, view (tryToNominal cfg T k s.system) = .err e) → k = 0 := by
      intro k hk ⟨e, he⟩
      refine Classical.byContradiction fun h0 => ?_
      have hc := C51_catalogue (cfg := cfg) (T := T) s hk
      obtain ⟨t, ht⟩ : ∃ t, answer s k = .text t := by
        rcases hs with rfl | rfl <;> simp only [answer, additiveAnswer, h0, if_false] <;> exact ⟨_, rfl⟩
      rcases hroom with halloc | hsmall
      · rw [he, ht] at hc
        simp only [present, deliver, halloc, if_true] at hc
        split at hc <;> cases hc
      · have hk' : k < 2 ^ 16 := Nat.lt_of_lt_of_le hk (Nat.pow_le_pow_right (by omega) hsmall)
        have := ((C57_first_long (cfg := cfg) (T := T) s hk).1 fun j hj => by
          rcases hs with rfl | rfl <;> cases hj <;> omega).1
        rw [hc, ht, present, deliver] at this
        rw [he, ht, present, deliver] at hc
        split at hc
        · cases hc
        · split at hc
          · cases hc
          · next h1 h2 => rw [if_neg h1, if_neg h2] at this; exact this rfl
    rcases to_nominal_text hn hx with ⟨x', hx', ex⟩ | ⟨he, ex⟩ <;> rcases to_nominal_text hm hy with ⟨y', hy', ey⟩ | ⟨he', ey⟩
    · have := armenian_sorted hs hn hm hx' hy'
      obtain ⟨t, -, t1⟩ := named_text hn hx'
      obtain ⟨u, -, t2⟩ := named_text hm hy'
      rw [cmp_of_asStr t1 t2] at this
      rw [cmp_of_asStr (ex.trans t1) (ey.trans t2), this]
    · have h0 := zero hm he'
      subst h0
      obtain ⟨hn0, c, t, e, hc⟩ := armenian_label hs hn hx'
      rw [cmp_of_asStr (ex.trans e) ey, Nat.compare_eq_gt.mpr (by omega)]
      congr 1
      have hc' : 48 < c.val.toNat := hc
      show compare ((c :: t).map (·.val.toNat)) (['0'].map (·.val.toNat)) = .gt
      simp only [List.map_cons, List.compare_eq_compareLex, List.compareLex_cons_cons]
      rw [Nat.compare_eq_gt.mpr (show '0'.val.toNat < c.val.toNat from hc')]
      rfl
    · have h0 := zero hn he
      subst h0
      obtain ⟨hm0, c, t, e, hc⟩ := armenian_label hs hm hy'
      rw [cmp_of_asStr ex (ey.trans e), Nat.compare_eq_lt.mpr (by omega)]
      congr 1
      exact codes_cons_lt (c := '0') (t := []) hc
    · have h0 := zero hn he
      have h0' := zero hm he'
      subst h0
      subst h0'
      rw [cmp_of_asStr ex ey]
      rfl

/-- Armenian labels of `u32` numbers sort like the numbers with `alloc`, and do not without. -/
example : (∀ n m x y, IntTy.u32.Fits ⟨true, .w64, true⟩ n → IntTy.u32.Fits ⟨true, .w64, true⟩ m →
      toNominal ⟨true, .w64, true⟩ .u32 n Named.armenianLower.system = .ok x →
      toNominal ⟨true, .w64, true⟩ .u32 m Named.armenianLower.system = .ok y → x.cmp y = some (compare n m)) ∧
    ¬ (∀ n m x y, IntTy.u32.Fits ⟨false, .w64, true⟩ n → IntTy.u32.Fits ⟨false, .w64, true⟩ m →
      toNominal ⟨false, .w64, true⟩ .u32 n Named.armenianLower.system = .ok x →
      toNominal ⟨false, .w64, true⟩ .u32 m Named.armenianLower.system = .ok y → x.cmp y = some (compare n m)) := by
  rw [C100_to_nominal, C100_to_nominal]
  exact ⟨⟨.inr rfl, .inl rfl⟩, fun h => absurd h.2 (by decide)⟩

/-! ## Digit collections -/

theorem column_tally (n : Nat) : column 1 n = List.replicate (n + 1) 0 := by
  have h : ∀ k a, (List.replicate k 0).foldl (fun a d => a * 1 + (d + 1)) a = a + k := by
    intro k
    induction k with
    | zero => intro a; rfl
    | succ k ih => intro a; rw [List.replicate_succ, List.foldl_cons, ih]; omega
  have := column_ordinal (b := 1) (Nat.le_refl 1) (List.replicate (n + 1) 0) (by simp) (fun d hd => by
    have := List.eq_of_mem_replicate hd; omega)
  rw [show ordinal 1 (List.replicate (n + 1) 0) = n + 1 by unfold ordinal; rw [h]; omega, Nat.add_sub_cancel] at this
  exact this

theorem compare_tally (x : Nat) (n m : Nat) : compare (List.replicate n x) (List.replicate m x) = compare n m := by
  induction n generalizing m with
  | zero =>
    cases m with
    | zero => rfl
    | succ m => simp [List.replicate_succ, Nat.compare_eq_lt.mpr (Nat.succ_pos m)]
  | succ n ih =>
    cases m with
    | zero => simp [List.replicate_succ, Nat.compare_eq_gt.mpr (Nat.succ_pos n)]
    | succ m =>
      have := ih m
      simp only [List.replicate_succ, List.compare_eq_compareLex, List.compareLex_cons_cons, Nat.compare_eq_eq.mpr rfl] at this ⊢
      simp only [Ordering.then, this]
      rcases Nat.lt_trichotomy n m with h | h | h
      · rw [Nat.compare_eq_lt.mpr h, Nat.compare_eq_lt.mpr (by omega)]
      · rw [Nat.compare_eq_eq.mpr h, Nat.compare_eq_eq.mpr (by omega)]
      · rw [Nat.compare_eq_gt.mpr h, Nat.compare_eq_gt.mpr (by omega)]

theorem spell_tally {al : List Char} (h : al.length = 1) (n : Nat) :
    (spell al (column al.length n)).map (·.val.toNat) = List.replicate (n + 1) (al.getD 0 '?').val.toNat := by
  rw [h, column_tally]
  simp [spell]

/-- A word of at most three symbols is delivered inline. -/
theorem deliver_word {alloc : Bool} {n : Nat} {al : List Char} {w : List Nat} (hw : w.length ≤ 3) :
    deliver alloc n (spell al w) = .ok (spell al w, true) := by
  unfold deliver
  rw [if_pos]
  have : ∀ w : List Nat, utf8Len (spell al w) ≤ 4 * w.length := by
    intro w
    induction w with
    | nil => simp [spell]
    | cons i w ih =>
      have h4 := Char.utf8Size_le_four (al.getD i '?')
      simp only [spell, List.map_cons, utf8Len_cons, List.length_cons] at ih ⊢
      omega
  have := this w
  omega

/-- C100, digit collections with a zero digit: their labels never sort like their numbers, if the square of the number of digits is a
value of the integer type. -/
theorem C100_positional {cfg : Cfg} {T : IntTy} {d : DigitSys} {al : List Char} (hp : Plain cfg d al) (hz : (d.level 0).hasZero = true)
    (hb : 2 ≤ al.length) (hT : T.Fits cfg (al.length * al.length)) :
    ∃ n m x y, n < m ∧ m ≤ al.length * al.length ∧ d.tryFormat cfg T n = .ok x ∧ d.tryFormat cfg T m = .ok y ∧ x.cmp y ≠ some .lt := by
  have hT' : al.length * al.length < 2 ^ T.bits cfg := hT
  have hsq : 2 * al.length ≤ al.length * al.length := Nat.mul_le_mul_right _ hb
  have label : ∀ {n : Nat} {w : List Nat}, n ≤ al.length * al.length → IsNumeral al.length n w → w.length ≤ 3 →
      ∃ x, d.tryFormat cfg T n = .ok x ∧ x.asStr = some (spell al w) := by
    intro n w hn hw hl
    have hf : T.Fits cfg n := by show n < 2 ^ T.bits cfg; omega
    obtain ⟨ds, hds, hv⟩ := positional hp hz hb hf
    rw [numeral_unique hb hds hw, deliver_word hl] at hv
    exact string_of_view hv
  by_cases h01 : (al.getD 0 '?').val.toNat < (al.getD 1 '?').val.toNat
  · obtain ⟨x, hx, tx⟩ := label (n := al.length + 1) (w := [1, 1]) (by omega)
      ⟨by simp; omega, by simp [value], .inr ⟨1, [1], rfl, by omega⟩⟩ (by simp)
    obtain ⟨y, hy, ty⟩ := label (n := al.length * al.length) (w := [1, 0, 0]) (by omega)
      ⟨by simp; omega, by simp [value], .inr ⟨1, [0, 0], rfl, by omega⟩⟩ (by simp)
    refine ⟨al.length + 1, al.length * al.length, x, y, by omega, by omega, hx, hy, ?_⟩
    rw [cmp_of_asStr tx ty]
    simp only [spell, List.map_cons, List.map_nil, List.compare_eq_compareLex, List.compareLex_cons_cons, Nat.compare_eq_eq.mpr rfl,
      Nat.compare_eq_gt.mpr h01]
    intro h
    cases h
  · obtain ⟨x, hx, tx⟩ := label (n := 0) (w := [0]) (by omega) ⟨by simp; omega, by simp [value], .inl rfl⟩ (by simp)
    obtain ⟨y, hy, ty⟩ := label (n := 1) (w := [1]) (by omega)
      ⟨by simp; omega, by simp [value], .inr ⟨1, [], rfl, by omega⟩⟩ (by simp)
    refine ⟨0, 1, x, y, by omega, by omega, hx, hy, ?_⟩
    rw [cmp_of_asStr tx ty]
    simp only [spell, List.map_cons, List.map_nil, List.compare_eq_compareLex, List.compareLex_cons_cons]
    rcases Nat.lt_or_eq_of_le (Nat.le_of_not_lt h01) with h | h
    · rw [Nat.compare_eq_gt.mpr h]; intro h; cases h
    · rw [Nat.compare_eq_eq.mpr h.symm]; intro h; cases h

/-- The binary digits as `u8`, in the wrong order: 0 already sorts after 1. -/
example : ∃ n m x y, n < m ∧ m ≤ 4 ∧ (DigitSys.digitSetNew ['b', 'a']).tryFormat ⟨true, .w64, true⟩ .u8 n = .ok x ∧
    (DigitSys.digitSetNew ['b', 'a']).tryFormat ⟨true, .w64, true⟩ .u8 m = .ok y ∧ x.cmp y ≠ some .lt :=
  C100_positional (al := ['b', 'a']) ⟨rfl, digitSetNew_hasDigits _, by decide⟩ rfl (by decide) (by decide)

/-- The words of the first numbers over at least two symbols. -/
theorem column_first {b : Nat} (hb : 2 ≤ b) : column b b = [0, 0] := by
  have := column_ordinal (b := b) (by omega) [0, 0] (by simp) (by simp; omega)
  rw [show ordinal b [0, 0] = b + 1 by simp [ordinal], Nat.add_sub_cancel] at this
  exact this

/-- C100, digit collections without zero digit, counting from `k` (0, or 1 after `one_based`): their labels sort like their numbers if and
only if there is only one symbol (a tally), provided that the number of symbols and one more is a value of the integer type. -/
theorem C100_columns {cfg : Cfg} {T : IntTy} {d : DigitSys} {al : List Char} (hp : Plain cfg d al) (hz : (d.level 0).hasZero = false)
    (hb : 1 ≤ al.length) (hT : T.Fits cfg (al.length + 1)) :
    (∀ n m x y, T.Fits cfg n → T.Fits cfg m → d.tryFormat cfg T n = .ok x → d.tryFormat cfg T m = .ok y → x.cmp y = some (compare n m)) ↔
      al.length = 1 := by
  have hT' : al.length + 1 < 2 ^ T.bits cfg := hT
  -- the first number with a label
  obtain ⟨k, hk1, hlab, hword⟩ : ∃ k, k ≤ 1 ∧
      (∀ {n : Nat}, T.Fits cfg (n + k) → view (d.tryFormat cfg T (n + k)) = deliver cfg.alloc (n + k) (spell al (column al.length n))) ∧
      (∀ {n : Nat} {x : NStr}, T.Fits cfg n → d.tryFormat cfg T n = .ok x →
        ∃ p, n = p + k ∧ x.asStr = some (spell al (column al.length p))) := by
    cases h0 : (d.level 0).zeroBased with
    | true =>
      refine ⟨0, by omega, fun {n} hn => C10_columns hp hz h0 hb hn, fun {n x} hn hx => ⟨n, rfl, ?_⟩⟩
      have := C10_columns hp hz h0 hb hn
      rw [hx] at this
      exact text_of_deliver this
    | false =>
      refine ⟨1, by omega, fun {n} hn => ?_, fun {n x} hn hx => ?_⟩
      · have := (format_one (T := T) (n := n + 1) (n + 1 + 64) 7 hp hz h0 hb (by omega) (by omega) (by omega)).view
        rw [Nat.add_sub_cancel] at this
        exact this
      · cases n with
        | zero =>
          have : d.tryFormat cfg T 0 = .err .noZeroSymbol := format_one_zero (0 + 64) 7 hp hz h0 (by omega) (by omega)
          rw [this] at hx
          cases hx
        | succ n =>
          refine ⟨n, rfl, ?_⟩
          have := (format_one (T := T) (n := n + 1) (n + 1 + 64) 7 hp hz h0 hb (by omega) (by omega) (by omega)).view
          rw [Nat.add_sub_cancel, show digitTryFormat cfg T (n + 1 + 64) (7 + 1) d (n + 1) = d.tryFormat cfg T (n + 1) from rfl, hx] at this
          exact text_of_deliver this
  constructor
  · intro h
    refine Classical.byContradiction fun h1 => ?_
    have hb2 : 2 ≤ al.length := by omega
    have fits : ∀ {n : Nat}, n ≤ al.length → T.Fits cfg (n + k) := fun {n} hn => by show n + k < 2 ^ T.bits cfg; omega
    have label : ∀ {n : Nat} {w : List Nat}, n ≤ al.length → column al.length n = w → w.length ≤ 3 →
        ∃ x, d.tryFormat cfg T (n + k) = .ok x ∧ x.asStr = some (spell al w) := by
      intro n w hn hw hl
      have hv := hlab (fits hn)
      rw [hw, deliver_word hl] at hv
      exact string_of_view hv
    obtain ⟨x, hx, tx⟩ := label (n := 0) (by omega) (column_of_lt (by omega)) (by simp)
    obtain ⟨y, hy, ty⟩ := label (n := 1) (by omega) (column_of_lt (by omega)) (by simp)
    obtain ⟨z, hz', tz⟩ := label (n := al.length) (by omega) (column_first hb2) (by simp)
    have e1 := h _ _ x y (fits (by omega)) (fits (by omega)) hx hy
    have e2 := h _ _ y z (fits (by omega)) (fits (by omega)) hy hz'
    rw [cmp_of_asStr tx ty, Nat.compare_eq_lt.mpr (by omega)] at e1
    rw [cmp_of_asStr ty tz, Nat.compare_eq_lt.mpr (by omega)] at e2
    simp only [spell, List.map_cons, List.map_nil, List.compare_eq_compareLex, List.compareLex_cons_cons] at e1 e2
    rcases Nat.lt_trichotomy (al.getD 0 '?').val.toNat (al.getD 1 '?').val.toNat with h | h | h
    · rw [Nat.compare_eq_gt.mpr h] at e2; cases e2
    · rw [Nat.compare_eq_eq.mpr h] at e1; cases e1
    · rw [Nat.compare_eq_gt.mpr h] at e1; cases e1
  · intro h1 n m x y hn hm hx hy
    obtain ⟨p, rfl, tx⟩ := hword hn hx
    obtain ⟨q, rfl, ty⟩ := hword hm hy
    rw [cmp_of_asStr tx ty, spell_tally h1, spell_tally h1, compare_tally]
    congr 1
    rcases Nat.lt_trichotomy p q with h | h | h
    · rw [Nat.compare_eq_lt.mpr (show p + 1 < q + 1 by omega), Nat.compare_eq_lt.mpr (by omega)]
    · rw [Nat.compare_eq_eq.mpr (show p + 1 = q + 1 by omega), Nat.compare_eq_eq.mpr (by omega)]
    · rw [Nat.compare_eq_gt.mpr (show q + 1 < p + 1 by omega), Nat.compare_eq_gt.mpr (by omega)]

/-! ## Concrete cases -/

/-- 9999 is `ՔՋՂԹ` and 10,000 is `ՔՌ`: shorter, but later in the order. -/
example : ∃ x y, tryToNominal ⟨false, .w64, true⟩ .u16 9999 Named.armenianUpper.system = .ok x ∧
    tryToNominal ⟨false, .w64, true⟩ .u16 10000 Named.armenianUpper.system = .ok y ∧ x.asStr = some ['Ք', 'Ջ', 'Ղ', 'Թ'] ∧
    y.asStr = some ['Ք', 'Ռ'] ∧ x.cmp y = some .lt := by
  obtain ⟨x, hx, tx⟩ := (named_label (cfg := ⟨false, .w64, true⟩) (T := .u16) (n := 9999) (s := .armenianUpper) (by decide)
    (show _ = Answer.text ['Ք', 'Ջ', 'Ղ', 'Թ'] by decide +kernel) (by decide)).1
  obtain ⟨y, hy, ty⟩ := (named_label (cfg := ⟨false, .w64, true⟩) (T := .u16) (n := 10000) (s := .armenianUpper) (by decide)
    (show _ = Answer.text ['Ք', 'Ռ'] by decide +kernel) (by decide)).1
  exact ⟨x, y, hx, hy, tx, ty, (C100_named (cfg := ⟨false, .w64, true⟩) (T := .u16) .armenianUpper).mpr (by simp [sortedSystems]) 9999 10000 x y
    (by decide) (by decide) hx hy⟩

/-- A table with a zero symbol and rising characters. -/
example : Rising [(['d'], 9), (['c', 'x'], 5), (['b'], 1), (['a'], 0)] ∧
    (∃ a, AdditiveSet.new (ε := Error) [(['d'], 9), (['c', 'x'], 5), (['b'], 1), (['a'], 0)] = .ok a) :=
  ⟨⟨by decide, by decide +kernel⟩, _, rfl⟩

/-- Decimal numerals as `u8`: 11 sorts after 100. -/
example : ∃ n m x y, n < m ∧ m ≤ 100 ∧ decimal.tryFormat ⟨true, .w64, true⟩ .u8 n = .ok x ∧ decimal.tryFormat ⟨true, .w64, true⟩ .u8 m = .ok y ∧
    x.cmp y ≠ some .lt :=
  C100_positional (decimal_plain _) rfl (by decide) (by decide)

/-- A tally counting from one: `||` before `|||||`. -/
example : ∀ n m x y, IntTy.u8.Fits ⟨true, .w64, true⟩ n → IntTy.u8.Fits ⟨true, .w64, true⟩ m →
    (DigitSys.digitSetZeroless ['|']).oneBased.tryFormat ⟨true, .w64, true⟩ .u8 n = .ok x →
    (DigitSys.digitSetZeroless ['|']).oneBased.tryFormat ⟨true, .w64, true⟩ .u8 m = .ok y → x.cmp y = some (compare n m) :=
  (C100_columns (al := ['|']) (oneBased_plain ⟨rfl, digitSetZeroless_hasDigits _, by decide⟩) rfl (by decide) (by decide)).mpr rfl

example : (do
      let x ← (DigitSys.digitSetZeroless ['|']).oneBased.tryFormat ⟨true, .w64, true⟩ .u8 2
      let y ← (DigitSys.digitSetZeroless ['|']).oneBased.tryFormat ⟨true, .w64, true⟩ .u8 5
      return (x.asStr, y.asStr, x.cmp y)) =
    (Res.ok (some ['|', '|'], some ['|', '|', '|', '|', '|'], some .lt) : Res Error _) := by decide +kernel

end Nominals.Props
