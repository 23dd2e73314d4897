import Verif.Proofs.AdditiveDigits

/-!
# Properties C21–C30: additive sets, Roman, Armenian, Georgian, Japanese and Korean numerals

Vocabulary: `Verif/Spec/Outcome.lean` and `Verif/Spec/Additive.lean`.
-/

namespace Nominals.Props

open Nominals.Spec

/-! ## C24 -/

/-- C24. `AdditiveSet::new` panics exactly when the values are not strictly descending (and otherwise keeps the table). -/
theorem C24_new {ε : Type} (table : List (List Char × Nat)) :
    (AdditiveSet.new (ε := ε) table = .panic ↔ ¬ Descending table) ∧
    (Descending table → ∃ a, AdditiveSet.new (ε := ε) table = .ok a ∧ a.symbols = table) := by
  unfold AdditiveSet.new
  by_cases h : strictlyDescending table = true
  · rw [if_pos h]
    have := (strictlyDescending_iff table).mp h
    exact ⟨⟨nofun, fun hn => absurd this hn⟩, fun _ => ⟨_, rfl, rfl⟩⟩
  · rw [if_neg h]
    have : ¬ Descending table := fun hd => h ((strictlyDescending_iff table).mpr hd)
    exact ⟨⟨fun _ => this, fun _ => rfl⟩, fun hd => absurd hd this⟩

/-- Equal neighbours are refused, a gap-free table with zero is accepted. -/
example : ¬ Descending [(['a'], 2), (['b'], 2)] ∧ Descending [(['a'], 2), (['b'], 1), (['c'], 0)] := by
  unfold Descending; decide

/-! ## C21 -/

/-- The table of a set returned by `AdditiveSet::new`. -/
theorem new_ok {ε : Type} {table : List (List Char × Nat)} {a : AdditiveSet} (h : AdditiveSet.new (ε := ε) table = .ok a) :
    Descending table ∧ a.symbols = table ∧ a.zero = (match table.getLast? with
                | some (z, 0) => some z
                | _ => none) := by
  unfold AdditiveSet.new at h
  split at h
  · next hd => cases h; exact ⟨(strictlyDescending_iff table).mp hd, rfl, rfl⟩
  · cases h

/-- C21. With a unit symbol, `n ≥ 1` is written greedily: at each step the largest symbol that fits, in descending order,
never the zero symbol, and the values add up to `n`. -/
theorem C21_greedy_sum {ε : Type} {cfg : Cfg} {T : IntTy} {table : List (List Char × Nat)} {a : AdditiveSet} {n : Nat}
    (ha : AdditiveSet.new (ε := ε) table = .ok a) (hu : ∃ s, (s, 1) ∈ table) (h0 : n ≠ 0) (hn : T.Fits cfg n) :
    ∃ ps, (∀ qs, Greedy table n qs ↔ qs = ps) ∧ total ps = n ∧ ps.Pairwise (fun a b => a.2 ≥ b.2) ∧ (∀ p ∈ ps, p ∈ table ∧ p.2 ≠ 0) ∧
      view (a.tryFormat cfg T n) = deliver cfg.alloc n (written ps) := by
  obtain ⟨hd, hs, _⟩ := new_ok ha
  have hg := picks_greedy hd n
  refine ⟨picks table n, fun qs => ⟨fun h => greedy_unique hd h hg, fun h => h ▸ hg⟩, greedy_total hu hg, greedy_descending hg,
    fun p hp => ⟨((greedy_le hg).2.2 p hp).1, ((greedy_le hg).2.2 p hp).2.1⟩, ?_⟩
  rw [← hs]
  exact (additive_del hn h0).view

/-- The Roman table has a unit symbol. -/
example : ∃ a, AdditiveSet.new (ε := Empty) romanUpperTable = .ok a ∧ (['I'], 1) ∈ romanUpperTable ∧
    view (a.tryFormat ⟨true, .w64, true⟩ .u8 14) = .ok (['X', 'I', 'V'], true) := by
  refine ⟨_, rfl, ?_, ?_⟩ <;> decide +kernel

/-- 7 with symbols for 5 and 1: v, i, i. -/
example : ∃ a, AdditiveSet.new (ε := Empty) [(['v'], 5), (['i'], 1)] = .ok a ∧
    Greedy [(['v'], 5), (['i'], 1)] 7 [(['v'], 5), (['i'], 1), (['i'], 1)] := by
  refine ⟨_, rfl, ?_⟩
  refine .take _ _ _ (by decide) (by decide) (by decide) (by decide) ?_
  refine .take _ _ _ (by decide) (by decide) (by decide) (by decide) ?_
  refine .take _ _ _ (by decide) (by decide) (by decide) (by decide) ?_
  exact .stop _ (by decide)

/-! ## C22 -/

/-- C22, an example of a loss: with symbols for 5 and 2 only, 8 is written "vz" (7), without an error. -/
example : ∃ a, AdditiveSet.new (ε := Empty) [(['v'], 5), (['z'], 2)] = .ok a ∧
    view (a.tryFormat ⟨true, .w64, true⟩ .u32 8) = .ok (['v', 'z'], true) ∧
    view (a.tryFormat ⟨true, .w64, true⟩ .u32 7) = .ok (['v', 'z'], true) := by
  refine ⟨_, rfl, ?_, ?_⟩ <;> decide +kernel

/-- C22. For every table, the written symbols never exceed `n`, and what is lost is smaller than every symbol of
non-zero value. -/
theorem C22_lost_remainder {ε : Type} {cfg : Cfg} {T : IntTy} {table : List (List Char × Nat)} {a : AdditiveSet}
    {n : Nat} (ha : AdditiveSet.new (ε := ε) table = .ok a) (h0 : n ≠ 0) (hn : T.Fits cfg n) :
    ∃ ps, Greedy table n ps ∧ view (a.tryFormat cfg T n) = deliver cfg.alloc n (written ps) ∧
      total ps ≤ n ∧ ∀ q ∈ table, q.2 ≠ 0 → n - total ps < q.2 := by
  obtain ⟨hd, hs, _⟩ := new_ok ha
  have hg := picks_greedy hd n
  have hl := greedy_le hg
  refine ⟨picks table n, hg, ?_, hl.1, fun q hq h => ?_⟩
  · rw [← hs]
    exact (additive_del hn h0).view
  · have := hl.2.1 q hq h
    omega

/-- With symbols for 12 and 5, 28 is written as 24: the 4 left over is smaller than both symbols. -/
example : ∃ a, AdditiveSet.new (ε := Empty) [(['d'], 12), (['v'], 5)] = .ok a ∧
    view (a.tryFormat ⟨true, .w64, true⟩ .u8 28) = .ok (['d', 'd'], true) := by
  refine ⟨_, rfl, ?_⟩; decide +kernel

theorem exact_iff_unit {table : List (List Char × Nat)} :
    (∀ n ps, Greedy table n ps → total ps = n) ↔ ∃ s, (s, 1) ∈ table := by
  constructor
  · intro h
    apply Classical.byContradiction
    intro hn
    have h1 : Greedy table 1 [] := .stop 1 fun q hq h0 => by
      have : q.2 ≠ 1 := fun e => hn ⟨q.1, by rw [← e]; exact hq⟩
      omega
    exact absurd (h 1 [] h1) (by simp [total])
  · exact fun hu n ps hg => greedy_total hu hg

/-- C22. Consequently a table writes every positive number of a type as symbols that add up to it if and only if it has a symbol of
value 1. (One type is enough: without a unit symbol 1 is already lost.) -/
theorem C22_exact_iff_unit {ε : Type} {cfg : Cfg} {T : IntTy} {table : List (List Char × Nat)} {a : AdditiveSet}
    (ha : AdditiveSet.new (ε := ε) table = .ok a) :
    (∀ n, n ≠ 0 → T.Fits cfg n → ∃ ps, (∀ p ∈ ps, p ∈ table) ∧ total ps = n ∧
      view (a.tryFormat cfg T n) = deliver cfg.alloc n (written ps)) ↔ ∃ s, (s, 1) ∈ table := by
  constructor
  · intro h
    have h1 : T.Fits cfg 1 := Nat.lt_of_lt_of_le (by decide : 1 < 2 ^ 1) (Nat.pow_le_pow_right (by omega) (by
      cases T <;> simp only [IntTy.bits] <;> first | omega | (cases cfg.ptr <;> simp only [PtrWidth.bits] <;> omega)))
    obtain ⟨ps, hm, ht, hv⟩ := h 1 (by omega) h1
    clear h hv
    induction ps with
    | nil => simp [total] at ht
    | cons p ps ih =>
      by_cases hp : p.2 = 1
      · exact ⟨p.1, hp ▸ hm p (List.mem_cons_self ..)⟩
      · refine ih (fun q hq => hm q (List.mem_cons_of_mem _ hq)) ?_
        simp only [total, List.map_cons, List.sum_cons] at ht ⊢
        omega
  · intro hu n h0 hn
    obtain ⟨ps, _, h1, _, h2, h3⟩ := C21_greedy_sum ha hu h0 hn
    exact ⟨ps, fun p hp => (h2 p hp).1, h1, h3⟩

/-- One table of each kind: 6 is written exactly with symbols for 5 and 1, and as 5 with symbols for 5 and 2. -/
example : Greedy [(['v'], 5), (['i'], 1)] 6 [(['v'], 5), (['i'], 1)] ∧ Greedy [(['v'], 5), (['z'], 2)] 6 [(['v'], 5)] :=
  ⟨.take _ _ _ (by decide) (by decide) (by decide) (by decide)
      (.take _ _ _ (by decide) (by decide) (by decide) (by decide) (.stop _ (by decide))),
    .take _ _ _ (by decide) (by decide) (by decide) (by decide) (.stop _ (by decide))⟩

/-! ## C23 -/

/-- C23. 0 is the last symbol if its value is 0 and an error otherwise. (A zero symbol of more than 62 bytes panics in a
no-`alloc` build.) For `n ≠ 0` see C22 (`Greedy` takes no symbol of value 0): no symbol of value 0 is ever written. -/
theorem C23_zero {ε : Type} {cfg : Cfg} {T : IntTy} {table : List (List Char × Nat)} {a : AdditiveSet}
    (ha : AdditiveSet.new (ε := ε) table = .ok a) :
    (∀ z, table.getLast? = some (z, 0) → view (a.tryFormat cfg T 0) =
      if utf8Len z ≤ 62 then .ok (z, true) else if cfg.alloc then .ok (z, false) else .panic) ∧
    ((∀ p ∈ table, p.2 ≠ 0) → a.tryFormat cfg T 0 = .err .noZeroSymbol) ∧
    ((∃ p ∈ table, p.2 = 0) → ∃ z, table.getLast? = some (z, 0)) := by
  obtain ⟨hd, hs, hz⟩ := new_ok ha
  unfold AdditiveSet.tryFormat
  refine ⟨fun z h => ?_, fun h => ?_, fun ⟨p, hp, h0⟩ => ?_⟩
  · rw [hz, h, if_pos rfl]
    by_cases hl : cfg.alloc = true ∨ utf8Len z ≤ 62
    · obtain ⟨s, e, h1, h2⟩ := ofStr_is (ε := Error) cfg z hl
      simp only [e, view, Res.bind, h1.asStr, h2]
      by_cases h3 : utf8Len z ≤ 62
      · simp [h3]
      · have : cfg.alloc = true := by simpa [h3] using hl
        simp [h3, this]
    · have h3 : ¬ utf8Len z ≤ 62 := fun h => hl (.inr h)
      have h4 : cfg.alloc = false := by
        cases e : cfg.alloc
        · rfl
        · exact absurd (.inl e) hl
      simp [NStr.ofStr, INLINE_CAPACITY, h3, h4, view, Res.bind]
  · have : a.zero = none := by
      rw [hz]
      split
      · next z e => exact absurd rfl (h _ (List.mem_of_getLast? e))
      · rfl
    rw [this, if_pos rfl]
  · clear ha hs hz
    unfold Descending at hd
    induction hd with
    | nil => cases hp
    | @cons b l h1 _ ih =>
      rcases List.mem_cons.mp hp with rfl | hp'
      · cases l with
        | nil => exact ⟨p.1, by rw [← h0]; rfl⟩
        | cons c l => have := h1 c (by simp); omega
      · obtain ⟨z, e⟩ := ih ⟨p, hp', h0⟩ hp'
        cases l with
        | nil => cases hp'
        | cons c l => exact ⟨z, by simpa using e⟩

example : (romanUpperTable.getLast?, armenianLowerTable.getLast?) = (some (['N'], 0), some (['ա'], 1)) := by decide +kernel

/-! ## C25 -/

/-- C25. Roman numerals of `n ≥ 1` are built place by place; 0 is N. -/
theorem C25_roman {cfg : Cfg} {T : IntTy} {n : Nat} (hn : T.Fits cfg n) :
    view (romanUpperTryFormat cfg T n) = deliver cfg.alloc n (if n = 0 then ['N'] else romanText n) ∧
    view (romanLowerTryFormat cfg T n) = deliver cfg.alloc n (if n = 0 then ['n'] else (romanText n).map Char.toLower) := by
  by_cases h0 : n = 0
  · subst h0
    exact ⟨(named_zero (c := 'N') (by decide) (by decide)).view, (named_zero (c := 'n') (by decide) (by decide)).view⟩
  · rw [if_neg h0, if_neg h0]
    have h1 := named_del (table := romanUpperTable) (by decide) hn h0
    have h2 := named_del (table := romanLowerTable) (by decide) hn h0
    rw [roman_written] at h1
    rw [romanLower_written] at h2
    exact ⟨h1.view, h2.view⟩

/-- 3,994 is MMMCMXCIV; 4,321,900 is M̅M̅M̅M̅C̅C̅C̅X̅X̅MCM. -/
example : romanText 3994 = ['M', 'M', 'M', 'C', 'M', 'X', 'C', 'I', 'V'] ∧
    romanText 4321900 = bar 'M' ++ bar 'M' ++ bar 'M' ++ bar 'M' ++ bar 'C' ++ bar 'C' ++ bar 'C' ++ bar 'X' ++ bar 'X' ++ ['M', 'C', 'M'] := by
  decide +kernel

/-! ## C26 -/

theorem toLower_inj_roman : ∀ p ∈ romanUpperTable, ∀ c ∈ p.1, (c.toLower).toUpper = c := by decide +kernel

/-- C26. Equal Roman texts (any types, any builds) come from equal numbers. -/
theorem C26_roman_distinct {cfg cfg' : Cfg} {T T' : IntTy} {n m : Nat} (hn : T.Fits cfg n) (hm : T'.Fits cfg' m)
    {t : List Char} {i j : Bool} :
    (view (romanUpperTryFormat cfg T n) = .ok (t, i) → view (romanUpperTryFormat cfg' T' m) = .ok (t, j) → n = m) ∧
    (view (romanLowerTryFormat cfg T n) = .ok (t, i) → view (romanLowerTryFormat cfg' T' m) = .ok (t, j) → n = m) := by
  have up : ∀ n, (if n = 0 then ['n'] else (romanText n).map Char.toLower).map Char.toUpper =
      if n = 0 then ['N'] else romanText n := by
    intro n
    split
    · decide
    · rw [List.map_map, ← roman_written]
      have : ∀ c ∈ written (picks romanUpperTable n), (Char.toUpper ∘ Char.toLower) c = c := by
        intro c hc
        obtain ⟨p, hp, hc⟩ := List.mem_flatMap.mp hc
        exact toLower_inj_roman p ((romanPicks_props n).1 p hp).1 c hc
      calc _ = (written (picks romanUpperTable n)).map id := List.map_congr_left this
        _ = _ := List.map_id _
  have inj : ∀ n m, (if n = 0 then ['N'] else romanText n) = (if m = 0 then ['N'] else romanText m) → n = m := by
    have rd : ∀ n, readSymbols (letters (if n = 0 then ['N'] else romanText n)) = n := by
      intro n
      split
      · next h => subst h; decide +kernel
      · exact romanText_read n
    intro n m h
    have := congrArg (fun t => readSymbols (letters t)) h
    simpa only [rd] using this
  have h1 := C25_roman hn
  have h2 := C25_roman hm
  constructor
  · intro e1 e2
    rw [h1.1] at e1
    rw [h2.1] at e2
    exact inj n m (by rw [deliver_ok e1, deliver_ok e2])
  · intro e1 e2
    rw [h1.2] at e1
    rw [h2.2] at e2
    exact inj n m (by rw [← up, ← up, deliver_ok e1, deliver_ok e2])

/-- The same number as `u8` in one build and as `u128` in another has the same text. -/
example : view (romanLowerTryFormat ⟨true, .w64, true⟩ .u8 49) = .ok (['x', 'l', 'i', 'x'], true) ∧
    view (romanLowerTryFormat ⟨false, .w16, true⟩ .u128 49) = .ok (['x', 'l', 'i', 'x'], true) := by decide +kernel

/-! ## C27 -/

/-- C27, Roman. The lower-case text is the lower-casing of the upper-case text. -/
theorem C27_roman_case {cfg : Cfg} {T : IntTy} {n : Nat} (hn : T.Fits cfg n) :
    ∃ t, view (romanUpperTryFormat cfg T n) = deliver cfg.alloc n t ∧
      view (romanLowerTryFormat cfg T n) = deliver cfg.alloc n (t.map Char.toLower) := by
  refine ⟨_, (C25_roman hn).1, (C25_roman hn).2.trans ?_⟩
  congr 1
  split
  · decide
  · rfl

example : view (romanUpperTryFormat ⟨true, .w64, true⟩ .u16 444) = .ok (['C', 'D', 'X', 'L', 'I', 'V'], true) ∧
    view (romanLowerTryFormat ⟨true, .w64, true⟩ .u16 444) = .ok (['c', 'd', 'x', 'l', 'i', 'v'], true) := by decide +kernel

/-- C27, the trailing space: 1 is "Ա " in upper case and "ա" in lower case. -/
example :
    view (armenianUpperTryFormat ⟨true, .w64, true⟩ .u32 1) = .ok (['Ա', ' '], true) ∧
    view (armenianLowerTryFormat ⟨true, .w64, true⟩ .u32 1) = .ok (['ա'], true) := by
  decide +kernel

theorem armenian_filter (n : Nat) :
    written (picks armenianLowerTable n) = ((written (picks armenianUpperTable n)).filter (· ≠ ' ')).map armenianSmall := by
  have h : armenianLowerTable = armenianUpperTable.map fun p => ((p.1.filter (· ≠ ' ')).map armenianSmall, p.2) := by decide +kernel
  rw [h, picks_map fun l => (l.filter (· ≠ ' ')).map armenianSmall]
  simp [written, List.flatMap_map, List.filter_flatMap, List.map_flatMap]

/-- C27, Armenian. The lower-case text is the lower-casing of the upper-case text without its spaces. -/
theorem C27_armenian_case {cfg : Cfg} {T : IntTy} {n : Nat} (hn : T.Fits cfg n) (h0 : n ≠ 0) :
    ∃ t, view (armenianUpperTryFormat cfg T n) = deliver cfg.alloc n t ∧
      view (armenianLowerTryFormat cfg T n) = deliver cfg.alloc n ((t.filter (· ≠ ' ')).map armenianSmall) := by
  have h1 := named_del (table := armenianUpperTable) (by decide) hn h0
  have h2 := named_del (table := armenianLowerTable) (by decide) hn h0
  rw [armenian_filter] at h2
  exact ⟨_, h1.view, h2.view⟩

/-- 1,991, whose upper-case text has a space. -/
example : view (armenianUpperTryFormat ⟨true, .w64, true⟩ .u16 1991) = .ok (['Ռ', 'Ջ', 'Ղ', 'Ա', ' '], true) ∧
    view (armenianLowerTryFormat ⟨true, .w64, true⟩ .u16 1991) = .ok (['ռ', 'ջ', 'ղ', 'ա'], true) := by decide +kernel

theorem armenian_space (n : Nat) : ' ' ∈ written (picks armenianUpperTable n) ↔ n % 9000 % 10 = 1 := by
  rw [armenianUpperTable_eq, nineThousand_written _ _ (.inl rfl)]
  have hs : ∀ k, k < 4 → ∀ d, d < 10 → (' ' ∈ (if d = 0 then [] else armenianUpperSym k d) ↔ k = 0 ∧ d = 1) := by decide +kernel
  have ht : ¬ ' ' ∈ armenianUpperSym 3 9 := by decide
  have hr : ∀ k, ¬ ' ' ∈ (List.replicate k (armenianUpperSym 3 9)).flatten := by
    intro k h
    obtain ⟨l, hl, h⟩ := List.mem_flatten.mp h
    rw [List.eq_of_mem_replicate hl] at h
    exact ht h
  unfold repeatedTop digitwise
  simp only [List.mem_append, hr, hs 3 (by omega) _ (show n % 9000 / 1000 % 10 < 10 by omega),
    hs 2 (by omega) _ (show n % 9000 / 100 % 10 < 10 by omega), hs 1 (by omega) _ (show n % 9000 / 10 % 10 < 10 by omega),
    hs 0 (by omega) _ (show n % 9000 % 10 < 10 by omega)]
  simp

/-- C27, Armenian, exactly: plain lower-casing works if and only if the units digit written is not 1. -/
theorem C27_armenian_exact {cfg : Cfg} {T : IntTy} {n : Nat} (hn : T.Fits cfg n) (h0 : n ≠ 0) :
    ∃ t u, view (armenianUpperTryFormat cfg T n) = deliver cfg.alloc n t ∧
      view (armenianLowerTryFormat cfg T n) = deliver cfg.alloc n u ∧
      (u = t.map armenianSmall ↔ n % 9000 % 10 ≠ 1) := by
  refine ⟨_, _, (named_del (table := armenianUpperTable) (by decide) hn h0).view,
    (named_del (table := armenianLowerTable) (by decide) hn h0).view, ?_⟩
  rw [armenian_filter]
  constructor
  · intro h hc
    have hm := (armenian_space n).mpr hc
    have hl := congrArg List.length h
    simp only [List.length_map] at hl
    have := List.length_filter_lt_length_iff_exists (p := (· ≠ ' ')) (l := written (picks armenianUpperTable n))
    have h3 := this.mpr ⟨' ', hm, by simp⟩
    omega
  · intro hc
    have hm := fun h => hc ((armenian_space n).mp h)
    rw [List.filter_eq_self.mpr]
    intro c hcm
    have : c ≠ ' ' := fun e => hm (by rw [← e]; exact hcm)
    simpa using this

/-- Both cases: the units digit of 9,011 - 9,000 is 1, that of 9,012 - 9,000 is not. -/
example : 9011 % 9000 % 10 = 1 ∧ 9012 % 9000 % 10 ≠ 1 ∧
    view (armenianUpperTryFormat ⟨true, .w64, true⟩ .u16 9012) = .ok (['Ք', 'Ժ', 'Բ'], true) := by decide +kernel

/-! ## C28 -/

/-- The eight systems: formatter, value and text of the largest symbol, symbols per place and digit. -/
def placeSystems : List ((Cfg → IntTy → Nat → Res Error NStr) × Nat × List Char × (Nat → Nat → List Char)) :=
  [(armenianUpperTryFormat, 9000, ['Ք'], armenianUpperSym),
   (armenianLowerTryFormat, 9000, ['ք'], armenianLowerSym),
   (georgianTryFormat, 10000, ['ჵ'], georgianSym),
   (japaneseFormalTryFormat, 9000, ['九', '阡'], japaneseFormalScript.sym),
   (japaneseInformalTryFormat, 9000, ['九', '千'], japaneseInformalScript.sym),
   (hangeulFormalTryFormat, 9000, ['구', '천'], hangeulFormalScript.sym),
   (hanjaInformalTryFormat, 9000, ['九', '千'], hanjaInformalScript.sym),
   (hanjaFormalTryFormat, 9000, ['九', '仟'], hanjaFormalScript.sym)]

theorem place_aux (n : Nat) :
    written (picks armenianUpperTable n) = repeatedTop 9000 ['Ք'] armenianUpperSym n ∧
    written (picks armenianLowerTable n) = repeatedTop 9000 ['ք'] armenianLowerSym n ∧
    written (picks georgianTable n) = repeatedTop 10000 ['ჵ'] georgianSym n ∧
    written (picks japaneseFormalTable n) = repeatedTop 9000 ['九', '阡'] japaneseFormalScript.sym n ∧
    written (picks japaneseInformalTable n) = repeatedTop 9000 ['九', '千'] japaneseInformalScript.sym n ∧
    written (picks hangeulFormalTable n) = repeatedTop 9000 ['구', '천'] hangeulFormalScript.sym n ∧
    written (picks hanjaInformalTable n) = repeatedTop 9000 ['九', '千'] hanjaInformalScript.sym n ∧
    written (picks hanjaFormalTable n) = repeatedTop 9000 ['九', '仟'] hanjaFormalScript.sym n := by
  refine ⟨?_, ?_, ?_, ?_, ?_, ?_, ?_, ?_⟩
  · rw [armenianUpperTable_eq, nineThousand_written _ _ (.inl rfl)]; rfl
  · rw [armenianLowerTable_eq, nineThousand_written _ _ (.inl rfl)]; rfl
  · rw [georgianTable_eq, tenThousand_written]
  · rw [japaneseFormalTable_eq, nineThousand_written _ _ (.inr ⟨_, rfl⟩)]; rfl
  · rw [japaneseInformalTable_eq, nineThousand_written _ _ (.inr ⟨_, rfl⟩)]; rfl
  · rw [hangeulFormalTable_eq, nineThousand_written _ _ (.inr ⟨_, rfl⟩)]; rfl
  · rw [hanjaInformalTable_eq, nineThousand_written _ _ (.inr ⟨_, rfl⟩)]; rfl
  · rw [hanjaFormalTable_eq, nineThousand_written _ _ (.inr ⟨_, rfl⟩)]; rfl

/-- C28. In general: as many of the largest symbol as fit, then the remaining digits. -/
theorem C28_repeated_top {cfg : Cfg} {T : IntTy} {n : Nat} (hn : T.Fits cfg n) (h0 : n ≠ 0) : ∀ p ∈ placeSystems,
    view (p.1 cfg T n) = deliver cfg.alloc n (repeatedTop p.2.1 p.2.2.1 p.2.2.2 n) := by
  obtain ⟨e1, e2, e3, e4, e5, e6, e7, e8⟩ := place_aux n
  intro p hp
  simp only [placeSystems, List.mem_cons, List.not_mem_nil, or_false] at hp
  rcases hp with h | h | h | h | h | h | h | h <;> subst h
  · rw [← e1]; exact (named_del (table := armenianUpperTable) (by decide) hn h0).view
  · rw [← e2]; exact (named_del (table := armenianLowerTable) (by decide) hn h0).view
  · rw [← e3]; exact (named_del (table := georgianTable) (by decide) hn h0).view
  · rw [← e4]; exact (named_del (table := japaneseFormalTable) (by decide) hn h0).view
  · rw [← e5]; exact (named_del (table := japaneseInformalTable) (by decide) hn h0).view
  · rw [← e6]; exact (named_del (table := hangeulFormalTable) (by decide) hn h0).view
  · rw [← e7]; exact (named_del (table := hanjaInformalTable) (by decide) hn h0).view
  · rw [← e8]; exact (named_del (table := hanjaFormalTable) (by decide) hn h0).view

/-- 27,040 has three symbols for 9,000 (Armenian) or two for 10,000 (Georgian). -/
example : repeatedTop 9000 ['ք'] armenianLowerSym 27040 = ['ք', 'ք', 'ք', 'խ'] ∧
    repeatedTop 10000 ['ჵ'] georgianSym 27040 = ['ჵ', 'ჵ', 'ჴ', 'მ'] ∧
    view (georgianTryFormat ⟨true, .w64, true⟩ .u16 27040) = .ok (['ჵ', 'ჵ', 'ჴ', 'მ'], true) := by decide +kernel

theorem repeatedTop_small {top : Nat} {z : List Char} {sym : Nat → Nat → List Char} {n : Nat}
    (ht : top = 10000 ∨ (top = 9000 ∧ z = sym 3 9)) (hn : n < 10000) : repeatedTop top z sym n = digitwise sym n := by
  unfold repeatedTop
  rcases ht with rfl | ⟨rfl, rfl⟩
  · rw [Nat.div_eq_of_lt hn, Nat.mod_eq_of_lt hn]; rfl
  · by_cases h : n < 9000
    · rw [Nat.div_eq_of_lt h, Nat.mod_eq_of_lt h]; rfl
    · have a : n / 9000 = 1 := by omega
      have a1 : n % 9000 / 1000 % 10 = 0 := by omega
      have a2 : n % 9000 / 100 % 10 = n / 100 % 10 := by omega
      have a3 : n % 9000 / 10 % 10 = n / 10 % 10 := by omega
      have a4 : n % 9000 % 10 = n % 10 := by omega
      have a5 : n / 1000 % 10 = 9 := by omega
      unfold digitwise
      simp only [a, a1, a2, a3, a4, a5]
      simp

/-- C28. Up to 9999, digit by digit. -/
theorem C28_digitwise {cfg : Cfg} {T : IntTy} {n : Nat} (hn : T.Fits cfg n) (h0 : 1 ≤ n) (h1 : n ≤ 9999) : ∀ p ∈ placeSystems,
    view (p.1 cfg T n) = deliver cfg.alloc n (digitwise p.2.2.2 n) := by
  intro p hp
  rw [C28_repeated_top hn (by omega) p hp, repeatedTop_small ?_ (by omega)]
  simp only [placeSystems, List.mem_cons, List.not_mem_nil, or_false] at hp
  rcases hp with h | h | h | h | h | h | h | h <;> subst h
  · exact .inr ⟨rfl, rfl⟩
  · exact .inr ⟨rfl, rfl⟩
  · exact .inl rfl
  · exact .inr ⟨rfl, rfl⟩
  · exact .inr ⟨rfl, rfl⟩
  · exact .inr ⟨rfl, rfl⟩
  · exact .inr ⟨rfl, rfl⟩
  · exact .inr ⟨rfl, rfl⟩

/-- 2,034 in three systems. -/
example : digitwise armenianLowerSym 2034 = ['ս', 'լ', 'դ'] ∧ digitwise georgianSym 2034 = ['ც', 'ლ', 'დ'] ∧
    digitwise japaneseInformalScript.sym 2034 = ['二', '千', '三', '十', '四'] := by decide +kernel

/-! ## C29 -/

/-- The systems of C29 with the way their texts are read. -/
def readableSystems : List ((Cfg → IntTy → Nat → Res Error NStr) × (List Char → Nat)) :=
  [(armenianUpperTryFormat, letterSum armenianValue), (armenianLowerTryFormat, letterSum armenianValue),
   (georgianTryFormat, letterSum georgianValue),
   (japaneseFormalTryFormat, japaneseFormalScript.read), (japaneseInformalTryFormat, japaneseInformalScript.read),
   (hangeulFormalTryFormat, hangeulFormalScript.read), (hanjaInformalTryFormat, hanjaInformalScript.read),
   (hanjaFormalTryFormat, hanjaFormalScript.read)]

theorem read_letters {table : List (List Char × Nat)} {val : Char → Nat} (hd : strictlyDescending table = true)
    (hu : ∃ s, (s, 1) ∈ table) (h : ∀ p ∈ table, letterSum val p.1 = p.2) (hz : ∀ p ∈ table, p.2 ≠ 0)
    {cfg : Cfg} {T : IntTy} {n : Nat} (hn : T.Fits cfg n) {t : List Char} {i : Bool}
    (hv : view (additiveTryFormat table cfg T n) = .ok (t, i)) : letterSum val t = n := by
  by_cases h0 : n = 0
  · subst h0
    rw [named_no_zero hd fun z e => hz _ (List.mem_of_getLast? e) rfl] at hv
    cases hv
  · rw [(named_del hd hn h0).view] at hv
    rw [← deliver_ok hv]
    exact letterSum_picks val hd hu h n

theorem read_script {table : List (List Char × Nat)} {s : DigitPlace} {z : Char} (hd : strictlyDescending table = true)
    (hu : ∃ s, (s, 1) ∈ table) (h : ∀ p ∈ table, p.2 ≠ 0 → symShape s p = true) (hl : table.getLast? = some ([z], 0))
    (hz : s.read [z] = 0) {cfg : Cfg} {T : IntTy} {n : Nat} (hn : T.Fits cfg n) {t : List Char} {i : Bool}
    (hv : view (additiveTryFormat table cfg T n) = .ok (t, i)) : s.read t = n := by
  by_cases h0 : n = 0
  · subst h0
    rw [(named_zero hd hl).view] at hv
    rw [← deliver_ok hv, hz]
  · rw [(named_del hd hn h0).view] at hv
    rw [← deliver_ok hv]
    exact read_picks s hd hu h n

/-- C29. Reading the text gives the number back. -/
theorem C29_read_back {cfg : Cfg} {T : IntTy} {n : Nat} (hn : T.Fits cfg n) : ∀ p ∈ readableSystems, ∀ t i,
    view (p.1 cfg T n) = .ok (t, i) → p.2 t = n := by
  intro p hp t i
  simp only [readableSystems, List.mem_cons, List.not_mem_nil, or_false] at hp
  rcases hp with h | h | h | h | h | h | h | h <;> subst h <;> intro hv
  · exact read_letters (table := armenianUpperTable) (by decide) ⟨['Ա', ' '], by decide⟩ (by decide +kernel) (by decide) hn hv
  · exact read_letters (table := armenianLowerTable) (by decide) ⟨['ա'], by decide⟩ (by decide +kernel) (by decide) hn hv
  · exact read_letters (table := georgianTable) (by decide) ⟨['ა'], by decide⟩ (by decide +kernel) (by decide) hn hv
  · exact read_script (table := japaneseFormalTable) (z := '零') (by decide) ⟨['壱'], by decide⟩ (by decide +kernel) (by decide) (by decide) hn hv
  · exact read_script (table := japaneseInformalTable) (z := '〇') (by decide) ⟨['一'], by decide⟩ (by decide +kernel) (by decide) (by decide) hn hv
  · exact read_script (table := hangeulFormalTable) (z := '영') (by decide) ⟨['일'], by decide⟩ (by decide +kernel) (by decide) (by decide) hn hv
  · exact read_script (table := hanjaInformalTable) (z := '零') (by decide) ⟨['一'], by decide⟩ (by decide +kernel) (by decide) (by decide) hn hv
  · exact read_script (table := hanjaFormalTable) (z := '零') (by decide) ⟨['壹'], by decide⟩ (by decide +kernel) (by decide) (by decide) hn hv

example : (hanjaFormalTryFormat, hanjaFormalScript.read) ∈ readableSystems ∧
    view (hanjaFormalTryFormat ⟨true, .w64, true⟩ .u16 10508) = .ok (['九', '仟', '壹', '仟', '五', '百', '八'], true) ∧
    hanjaFormalScript.read ['九', '仟', '壹', '仟', '五', '百', '八'] = 10508 := by
  refine ⟨by simp [readableSystems], ?_, ?_⟩ <;> decide +kernel

/-- C29. Distinct numbers have distinct texts (any types, any builds). -/
theorem C29_distinct {cfg cfg' : Cfg} {T T' : IntTy} {n m : Nat} (hn : T.Fits cfg n) (hm : T'.Fits cfg' m) :
    ∀ p ∈ readableSystems, ∀ t i j, view (p.1 cfg T n) = .ok (t, i) → view (p.1 cfg' T' m) = .ok (t, j) → n = m := by
  intro p hp t i j h1 h2
  rw [← C29_read_back hn p hp t i h1, ← C29_read_back hm p hp t j h2]

example : japaneseInformalScript.read ['二', '千', '三', '十', '四'] = 2034 ∧ letterSum georgianValue ['ჵ', 'ჵ', 'ც', 'დ'] = 22004 := by
  decide +kernel

/-! ## C30 -/

/-- C30, the two wrong readings: 90,000 is written L̅C̅, which reads 50,000; 900,000 is D̅M̅, which reads 500,000. -/
example :
    view (romanUpperTryFormat ⟨true, .w64, true⟩ .u32 90000) = .ok (bar 'L' ++ bar 'C', true) ∧ readRoman (bar 'L' ++ bar 'C') = 50000 ∧
    view (romanUpperTryFormat ⟨true, .w64, true⟩ .u32 900000) = .ok (bar 'D' ++ bar 'M', true) ∧ readRoman (bar 'D' ++ bar 'M') = 500000 := by
  have h1 := (C25_roman (cfg := ⟨true, .w64, true⟩) (T := .u32) (n := 90000) (by decide)).1
  have h2 := (C25_roman (cfg := ⟨true, .w64, true⟩) (T := .u32) (n := 900000) (by decide)).1
  exact ⟨h1.trans (by decide +kernel), by decide, h2.trans (by decide +kernel), by decide⟩

/-- C30, exactly. The standard reading loses 400,000 when the 10^5 digit is 9 and 40,000 when the 10^4 digit is 9. -/
theorem C30_exact {cfg : Cfg} {T : IntTy} {n : Nat} (hn : T.Fits cfg n) (h0 : n ≠ 0) {t : List Char} {i : Bool}
    (h : view (romanUpperTryFormat cfg T n) = .ok (t, i)) :
    readRoman t = n - (if n / 10 ^ 5 % 10 = 9 then 400000 else 0) - (if n / 10 ^ 4 % 10 = 9 then 40000 else 0) := by
  rw [(C25_roman hn).1, if_neg h0] at h
  rw [← deliver_ok h, readRoman_romanText]

/-- 1,990,123 loses 440,000. -/
example : readRoman (romanText 1990123) = 1550123 ∧ 1990123 / 10 ^ 5 % 10 = 9 ∧ 1990123 / 10 ^ 4 % 10 = 9 := by decide +kernel

/-- C30. The standard reading is right if and only if neither the 10^4 nor the 10^5 digit is 9. -/
theorem C30_standard_reading_iff {cfg : Cfg} {T : IntTy} {n : Nat} (hn : T.Fits cfg n) (h0 : n ≠ 0) {t : List Char} {i : Bool}
    (h : view (romanUpperTryFormat cfg T n) = .ok (t, i)) :
    readRoman t = n ↔ n / 10 ^ 4 % 10 ≠ 9 ∧ n / 10 ^ 5 % 10 ≠ 9 := by
  rw [C30_exact hn h0 h]
  split <;> split <;> omega

example : readRoman ['M', 'M', 'M', 'C', 'M', 'X', 'C', 'I', 'V'] = 3994 := by decide

end Nominals.Props
