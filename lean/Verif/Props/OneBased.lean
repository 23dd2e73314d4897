import Verif.Props.ChainTypes
import Verif.Props.Sorting

/-!
# Properties C13, C14, C48, C58 and C59 for collections counting from one and for chains of collections
-/

namespace Nominals.Props

open Nominals.Spec

/-- The word behind the text of a collection without zero digit that counts from one. -/
theorem one_based_word {cfg : Cfg} {T : IntTy} {d : DigitSys} {al : List Char} {n : Nat} (hp : Plain cfg d al)
    (hz : (d.level 0).hasZero = false) (h0 : (d.level 0).zeroBased = false) (hb : 1 ≤ al.length) (hn : T.Fits cfg n)
    {t : List Char} {i : Bool} (h : view (d.tryFormat cfg T n) = .ok (t, i)) :
    ∃ m, t = spell al (column al.length m) ∧ (2 ^ T.bits cfg ≤ al.length → m = n ∧ n < al.length) ∧
      (al.length < 2 ^ T.bits cfg → n = m + 1) := by
  have hn' : n < 2 ^ T.bits cfg := hn
  by_cases hT : al.length < 2 ^ T.bits cfg
  · by_cases h1 : n = 0
    · subst h1
      have : d.tryFormat cfg T 0 = .err .noZeroSymbol := format_one_zero (0 + 64) 7 hp hz h0 hT (by omega)
      rw [this] at h
      cases h
    · have := (format_one (n := n) (n + 64) 7 hp hz h0 hb hT (by omega) (by omega)).view
      rw [show digitTryFormat cfg T (n + 64) (7 + 1) d n = d.tryFormat cfg T n from rfl] at this
      rw [this] at h
      exact ⟨n - 1, (deliver_ok h).symm, fun h => by omega, fun _ => by omega⟩
  · have := (format_wide (n := n) (d := d) (n + 64) 7 rfl hp.digits hp.usize (by omega) hn).view
    rw [show digitTryFormat cfg T (n + 64) (7 + 1) d n = d.tryFormat cfg T n from rfl] at this
    rw [this] at h
    exact ⟨n, by rw [column_single (by omega)]; exact (deliver_ok h).symm, fun _ => ⟨rfl, by omega⟩, fun h => absurd h hT⟩

/-! ## C13 and C14 -/

/-- C13, every collection without zero digit that counts from one. The integer types and builds may differ, but the symbols must outnumber
the values of both types or of neither. -/
theorem C13_distinct_one_based_any {cfg cfg' : Cfg} {T T' : IntTy} {d : DigitSys} {al : List Char} {n m : Nat}
    (hp : Plain cfg d al) (hp' : Plain cfg' d al) (hz : (d.level 0).hasZero = false) (h0 : (d.level 0).zeroBased = false)
    (hb : 1 ≤ al.length) (hT : al.length < 2 ^ T.bits cfg ↔ al.length < 2 ^ T'.bits cfg') (hd : al.Nodup)
    (hn : T.Fits cfg n) (hm : T'.Fits cfg' m) {t : List Char} {i j : Bool}
    (h1 : view (d.tryFormat cfg T n) = .ok (t, i)) (h2 : view (d.tryFormat cfg' T' m) = .ok (t, j)) : n = m := by
  obtain ⟨p, hp1, w1, s1⟩ := one_based_word hp hz h0 hb hn h1
  obtain ⟨q, hq1, w2, s2⟩ := one_based_word hp' hz h0 hb hm h2
  have hxy := spell_inj hd (column_lt hb p) (column_lt hb q) (by rw [← hp1, ← hq1])
  have e1 := ordinal_column hb p
  have e2 := ordinal_column hb q
  rw [hxy] at e1
  by_cases h : al.length < 2 ^ T.bits cfg
  · have := s1 h
    have := s2 (hT.1 h)
    omega
  · have h' : ¬ al.length < 2 ^ T'.bits cfg' := fun hc => h (hT.2 hc)
    have := (w1 (by omega)).1
    have := (w2 (by omega)).1
    omega

/-- The condition on the types is needed: the 300 symbols of C61 give 7 in `u8` and 8 in `u16` the same label. -/
example : view ((DigitSys.oneBased ⟨fun _ => ⟨false, false, true, 300, (threeHundred.level 0).digit⟩⟩).tryFormat ⟨true, .w64, true⟩ .u8 7) =
    view ((DigitSys.oneBased ⟨fun _ => ⟨false, false, true, 300, (threeHundred.level 0).digit⟩⟩).tryFormat ⟨true, .w64, true⟩ .u16 8) := by
  decide +kernel
example : letterUpperDigits.Nodup ∧ (letterUpperDigits.length < 2 ^ IntTy.u8.bits ⟨true, .w64, true⟩ ↔
    letterUpperDigits.length < 2 ^ IntTy.u128.bits ⟨false, .w16, true⟩) := by decide +kernel

/-- C14, no zero digit, counting from one. Every non-empty word over the alphabet is the text of its `ordinal`, in every integer type that
can hold that number and has more values than there are symbols. -/
theorem C14_every_word_one_based {cfg : Cfg} {T : IntTy} {d : DigitSys} {al : List Char} (hp : Plain cfg d al)
    (hz : (d.level 0).hasZero = false) (h0 : (d.level 0).zeroBased = false) (hT : al.length < 2 ^ T.bits cfg) (w : List Nat) (hw : w ≠ [])
    (hd : ∀ i ∈ w, i < al.length) :
    view (d.tryFormat cfg T (ordinal al.length w)) = deliver cfg.alloc (ordinal al.length w) (spell al w) := by
  have hb : 1 ≤ al.length := by
    cases w with
    | nil => exact absurd rfl hw
    | cons i w => have := hd i (by simp); omega
  have h := (format_one (n := ordinal al.length w) (ordinal al.length w + 64) 7 hp hz h0 hb hT (ordinal_pos hw) (by omega)).view
  rwa [column_ordinal hb w hw hd] at h

/-- The word CAB as a column name counted from one. -/
example : ordinal letterUpperDigits.length [2, 0, 1] = 2056 ∧
    view (letterUpper.oneBased.tryFormat ⟨true, .w64, true⟩ .u16 2056) = .ok (['C', 'A', 'B'], true) := by decide +kernel

/-! ## C48 -/

/-- C48, no zero digit, counting from one. The number of symbols is the least `k ≥ 1` with `n ≤ N + N² + … + Nᵏ`, and at most the bit width
of the type when N ≥ 2. -/
theorem C48_length_one_based {cfg : Cfg} {T : IntTy} {d : DigitSys} {al : List Char} {n : Nat} (hp : Plain cfg d al)
    (hz : (d.level 0).hasZero = false) (h0 : (d.level 0).zeroBased = false) (hb : 1 ≤ al.length) (hn : T.Fits cfg n)
    {t : List Char} {i : Bool} (h : view (d.tryFormat cfg T n) = .ok (t, i)) :
    1 ≤ t.length ∧ n ≤ wordsUpTo al.length t.length ∧ (∀ k, 1 ≤ k → n ≤ wordsUpTo al.length k → t.length ≤ k) ∧
    (2 ≤ al.length → t.length ≤ T.bits cfg) := by
  obtain ⟨m, ht, hw, hs⟩ := one_based_word hp hz h0 hb hn h
  have hlen : t.length = (column al.length m).length := by rw [ht]; simp [spell]
  have hl := column_length hb m
  have hn' : n < 2 ^ T.bits cfg := hn
  have h8 := bits_ge cfg T
  rw [hlen]
  by_cases hT : al.length < 2 ^ T.bits cfg
  · have := hs hT
    refine ⟨hl.1, by omega, fun k _ hk => hl.2.2 k (by omega), fun h2 => hl.2.2 _ ?_⟩
    have hw := wordsUpTo_two (k := T.bits cfg) h2
    rw [Nat.pow_succ] at hw
    omega
  · obtain ⟨rfl, hlt⟩ := hw (by omega)
    refine ⟨hl.1, by omega, fun k hk _ => ?_, fun _ => ?_⟩
    · rw [column_single hlt]; exact hk
    · rw [column_single hlt]
      cases hbits : T.bits cfg with
      | zero => rw [hbits] at h8; omega
      | succ k => simp

/-- Counting from one, 702 is the last label of two letters. -/
example : view ((letterUpper.oneBased).tryFormat ⟨true, .w64, true⟩ .u16 702) = .ok (['Z', 'Z'], true) ∧
    view ((letterUpper.oneBased).tryFormat ⟨true, .w64, true⟩ .u16 703) = .ok (['A', 'A', 'A'], true) ∧ wordsUpTo 26 2 = 702 := by decide +kernel

theorem writes_pos {alloc hz zb : Bool} {b : Nat} {al : List Char} {n : Nat} {t : List Char} {i : Bool} {r : Res Error (List Char × Bool)}
    (h : Writes alloc b hz zb al n r) (hr : r = .ok (t, i)) : 1 ≤ t.length := by
  cases h with
  | symbol c _ _ => rw [← deliver_ok hr]; simp
  | numeral ds _ _ _ hds => rw [← deliver_ok hr]; simpa [spell] using (numeral_length hds).1
  | lone c _ _ _ => rw [← deliver_ok hr]; simp
  | full => cases hr
  | column _ _ _ ha =>
    rw [← deliver_ok hr]
    simpa [spell] using (column_length (b := al.length) (List.length_pos_iff.mpr ha) n).1
  | shifted m _ _ _ ha _ =>
    rw [← deliver_ok hr]
    simpa [spell] using (column_length (b := al.length) (List.length_pos_iff.mpr ha) m).1
  | noZero => cases hr
  | empty => cases hr

/-- A number in the range of a fixed collection is written with one symbol. -/
theorem writes_one {alloc hz zb : Bool} {b : Nat} {al : List Char} {n : Nat} {t : List Char} {i : Bool} {r : Res Error (List Char × Bool)}
    (h : Writes alloc b hz zb al n r) (hr : r = .ok (t, i)) (hs : hz = true → zb = true) (hn : if zb then n < al.length else n ≤ al.length) :
    t.length = 1 := by
  cases h with
  | symbol c _ _ => rw [← deliver_ok hr]; rfl
  | numeral ds _ h1 h2 hds =>
    rw [hs h1, if_pos rfl] at hn
    rw [← deliver_ok hr, numeral_unique h2 hds (numeral_single hn)]
    rfl
  | lone c _ _ _ => rw [← deliver_ok hr]; rfl
  | full => cases hr
  | column _ _ h0 _ =>
    rw [h0, if_pos rfl] at hn
    rw [← deliver_ok hr, column_single hn]
    rfl
  | shifted m _ _ h0 _ h1 =>
    rw [h0] at hn
    simp at hn
    rw [← deliver_ok hr, column_single (by omega)]
    rfl
  | noZero => cases hr
  | empty => cases hr

/-- One collection: the length grows with the number. -/
theorem writes_mono {alloc hz zb : Bool} {b : Nat} {al : List Char} {n m : Nat} {t u : List Char} {i j : Bool}
    {r s : Res Error (List Char × Bool)} (hnm : n ≤ m) (h : Writes alloc b hz zb al n r) (hr : r = .ok (t, i))
    (h' : Writes alloc b hz zb al m s) (hs : s = .ok (u, j)) : t.length ≤ u.length := by
  have hu := writes_pos h' hs
  cases h with
  | symbol c _ _ => rw [← deliver_ok hr]; exact hu
  | lone c _ _ _ => rw [← deliver_ok hr]; exact hu
  | full => cases hr
  | noZero => cases hr
  | empty => cases hr
  | numeral ds hl hz h2 hds =>
    cases h' with
    | numeral es _ _ _ hes =>
      rw [← deliver_ok hr, ← deliver_ok hs]
      have h3 := numeral_length hes
      simpa [spell] using (numeral_length hds).2.2 _ h3.1 (by omega)
    | symbol => omega
    | lone c _ h _ => rw [h] at h2; simp at h2
    | full => cases hs
    | column _ h _ _ => rw [hz] at h; cases h
    | shifted _ _ h _ _ _ => rw [hz] at h; cases h
    | noZero => cases hs
    | empty => cases hs
  | column hl hz h0 ha =>
    cases h' with
    | column =>
      have hb := List.length_pos_iff.mpr ha
      rw [← deliver_ok hr, ← deliver_ok hs]
      have h3 := column_length hb m
      simpa [spell] using (column_length hb n).2.2 _ (Nat.lt_of_le_of_lt hnm h3.2.1)
    | symbol => omega
    | numeral _ _ h _ _ => rw [hz] at h; cases h
    | lone _ h _ _ => rw [hz] at h; cases h
    | full => cases hs
    | shifted _ _ _ h _ _ => rw [h0] at h; cases h
    | noZero => cases hs
    | empty => cases hs
  | shifted p hl hz h0 ha hp =>
    cases h' with
    | shifted q _ _ _ _ hq =>
      have hb := List.length_pos_iff.mpr ha
      rw [← deliver_ok hr, ← deliver_ok hs]
      have h3 := column_length hb q
      simpa [spell] using (column_length hb p).2.2 _ (by omega)
    | symbol => omega
    | numeral _ _ h _ _ => rw [hz] at h; cases h
    | lone _ h _ _ => rw [hz] at h; cases h
    | full => cases hs
    | column _ _ h _ => rw [h0] at h; cases h
    | noZero => cases hs
    | empty => cases hs

/-- C48. A larger number never has a shorter label, in any digit collection, fixed or not, with any chain of fallbacks; provided no fixed
collection of the chain has a zero digit and yet claims to count from one. -/
theorem C48_monotone_chains {cfg : Cfg} {T : IntTy} {d : DigitSys} {al : Nat → List Char} {n m : Nat} (hd : Lawful cfg d al)
    (hs : ∀ k, (d.level k).fixed = true → (d.level k).hasZero = true → (d.level k).zeroBased = true) (hm : T.Fits cfg m) (hnm : n ≤ m)
    {t u : List Char} {i j : Bool} (h1 : Ends cfg T d n (.ok (t, i))) (h2 : Ends cfg T d m (.ok (u, j))) : t.length ≤ u.length := by
  have hn : T.Fits cfg n := Nat.lt_of_le_of_lt hnm hm
  rw [C73_outcome hd hn] at h1
  rw [C73_outcome hd hm] at h2
  obtain ⟨k, hk, ⟨-, -, h⟩ | ⟨hk', hw⟩⟩ := h1
  · cases h
  obtain ⟨l, hl, ⟨-, -, h⟩ | ⟨hl', hw'⟩⟩ := h2
  · cases h
  have up : ∀ i, HandsOver cfg T (d.level i) n → HandsOver cfg T (d.level i) m := by
    rintro i ⟨h1, h2, h3⟩
    refine ⟨h1, h2, ?_⟩
    cases hz : (d.level i).zeroBased <;> simp [hz] at h3 ⊢ <;> omega
  rcases Nat.lt_trichotomy k l with h | h | h
  · obtain ⟨hf, hT, hr⟩ := (hl k h).1
    have hlen := (hd.digits k).1
    have : t.length = 1 := by
      refine writes_one hw rfl (hs k hf) ?_
      have hno : ¬ if (d.level k).zeroBased = true then (d.level k).len ≤ n else (d.level k).len < n := fun h => hk' ⟨hf, hT, h⟩
      cases hz : (d.level k).zeroBased <;> simp [hz] at hno ⊢ <;> omega
    have := writes_pos hw' rfl
    omega
  · subst h
    exact writes_mono hnm hw rfl hw' rfl
  · exact absurd (up l (hk l h).1) hl'

/-- CjkEarthlyBranch, fixed with a fallback, meets the hypotheses; a fixed collection with a zero digit that counts from one does not, and
its labels get shorter: 2 is written 10, 3 goes to the fallback. -/
example : (∀ k, k < 3 → (cjkEarthlyBranch.level k).fixed = true → (cjkEarthlyBranch.level k).hasZero = true → (cjkEarthlyBranch.level k).zeroBased = true) ∧
    view (cjkEarthlyBranch.tryFormat ⟨true, .w64, true⟩ .u8 12) = .ok (['亥'], true) ∧
    view (cjkEarthlyBranch.tryFormat ⟨true, .w64, true⟩ .u8 13) = .ok (['一', '三'], true) := by decide +kernel
example : let d : DigitSys := .withFallback ⟨true, true, false, 2, fun i => ['0', '1'][i]?⟩ (.digitSetNew ['p', 'q', 'r', 's'])
    view (digitTryFormat ⟨true, .w64, true⟩ .u8 9 2 d 2) = .ok (['1', '0'], true) ∧
    view (digitTryFormat ⟨true, .w64, true⟩ .u8 9 2 d 3) = .ok (['s'], true) := by decide +kernel

/-! ## C58 -/

/-- C58, collections without zero digit that count from one. The integer types may differ, but the symbols must outnumber the values of both
or of neither. -/
theorem C58_one_based {cfg cfg' : Cfg} {T T' : IntTy} {d : DigitSys} {al : List Char} {n m : Nat}
    (hp : Plain cfg d al) (hp' : Plain cfg' d al) (hz : (d.level 0).hasZero = false) (h0 : (d.level 0).zeroBased = false)
    (hb : 1 ≤ al.length) (hT : al.length < 2 ^ T.bits cfg ↔ al.length < 2 ^ T'.bits cfg')
    (hs : al.Pairwise fun a b => a.val.toNat < b.val.toNat) (hn : T.Fits cfg n) (hm : T'.Fits cfg' m)
    {a b : NStr} {t u : List Char} (ha : d.tryFormat cfg T n = .ok a) (hb' : d.tryFormat cfg' T' m = .ok b)
    (hat : a.asStr = some t) (hbt : b.asStr = some u) :
    ∃ o, a.cmp b = some o ∧ (compare t.length u.length).then o = compare n m := by
  obtain ⟨p, ht, w1, s1⟩ := one_based_word hp hz h0 hb hn (view_of_ok ha hat)
  obtain ⟨q, hu, w2, s2⟩ := one_based_word hp' hz h0 hb hm (view_of_ok hb' hbt)
  refine ⟨_, cmp_of_asStr hat hbt, ?_⟩
  have hcmp : compare n m = compare p q := by
    by_cases h : al.length < 2 ^ T.bits cfg
    · rw [s1 h, s2 (hT.1 h)]
      rcases Nat.lt_trichotomy p q with h | h | h
      · rw [Nat.compare_eq_lt.mpr h, Nat.compare_eq_lt.mpr (by omega)]
      · rw [h]; simp
      · rw [Nat.compare_eq_gt.mpr h, Nat.compare_eq_gt.mpr (by omega)]
    · have h' : ¬ al.length < 2 ^ T'.bits cfg' := fun hc => h (hT.2 hc)
      rw [(w1 (by omega)).1, (w2 (by omega)).1]
  have key : ∀ {p q : Nat}, p < q → (compare (spell al (column al.length p)).length (spell al (column al.length q)).length).then
        (compare ((spell al (column al.length p)).map (·.val.toNat)) ((spell al (column al.length q)).map (·.val.toNat))) = .lt := by
    intro p q hlt
    have e : ∀ x, (spell al x).length = x.length := fun x => by simp [spell]
    rw [e, e]
    rcases column_shortlex hb hlt with h | ⟨h1, h2⟩
    · rw [Nat.compare_eq_lt.mpr h]; rfl
    · rw [Nat.compare_eq_eq.mpr h1, spell_lex hs (column_lt hb p) (column_lt hb q) h2]; rfl
  subst ht hu
  rw [hcmp]
  rcases Nat.lt_trichotomy p q with h | h | h
  · rw [key h, Nat.compare_eq_lt.mpr h]
  · subst h
    rw [Nat.compare_eq_eq.mpr rfl, Nat.compare_eq_eq.mpr rfl, Std.ReflCmp.compare_self (cmp := compare)]
    rfl
  · rw [Nat.compare_eq_gt.mpr h]
    rw [Std.OrientedCmp.eq_swap (cmp := compare) (a := (spell al (column al.length p)).length),
      Std.OrientedCmp.eq_swap (cmp := compare) (a := (spell al (column al.length p)).map (·.val.toNat)), ← Ordering.swap_then, key h]
    rfl

/-- Z, number 26, before AA, number 27; BA, number 53, after AZ, number 52. -/
example : (do
      let z ← (letterUpper.oneBased).tryFormat ⟨true, .w64, true⟩ .u8 52
      let w ← (letterUpper.oneBased).tryFormat ⟨false, .w16, true⟩ .u128 53
      return (z.asStr, w.asStr, z.cmp w)) = (Res.ok (some ['A', 'Z'], some ['B', 'A'], some .lt) : Res Error _) := by decide +kernel

/-- C58, exactly, counting from one: texts with the same number of symbols compare like their numbers for all numbers if and only if the
symbols are in code-point order. -/
theorem C58_exact_one_based {cfg : Cfg} {d : DigitSys} {al : List Char} (hp : Plain cfg d al) (hz : (d.level 0).hasZero = false)
    (h0 : (d.level 0).zeroBased = false) (hb : 1 ≤ al.length) :
    (al.Pairwise fun a b => a.val.toNat < b.val.toNat) ↔
      ∀ n m a b t u, IntTy.u128.Fits cfg n → IntTy.u128.Fits cfg m → d.tryFormat cfg .u128 n = .ok a → d.tryFormat cfg .u128 m = .ok b →
        a.asStr = some t → b.asStr = some u → t.length = u.length → a.cmp b = some (compare n m) := by
  have h2 : 2 ^ cfg.ptr.bits ≤ 2 ^ 128 := Nat.pow_le_pow_right (by omega) (by cases cfg.ptr <;> simp [PtrWidth.bits])
  have hu := hp.usize
  have hT : al.length < 2 ^ IntTy.u128.bits cfg := by show al.length < 2 ^ 128; omega
  constructor
  · intro hs n m a b t u hn hm ha hb' hat hbt hl
    obtain ⟨o, h1, h2⟩ := C58_one_based hp hp hz h0 hb Iff.rfl hs hn hm ha hb' hat hbt
    rw [Nat.compare_eq_eq.mpr hl] at h2
    rw [h1, ← h2]
    rfl
  · intro h
    rw [List.pairwise_iff_getElem]
    intro i j hi hj hij
    have hfit : ∀ k, k < al.length → IntTy.u128.Fits cfg (k + 1) := by
      intro k hk
      show k + 1 < 2 ^ 128
      omega
    have hone : ∀ k (hkl : k < al.length), ∃ s, d.tryFormat cfg .u128 (k + 1) = .ok s ∧ s.asStr = some [al[k]] := by
      intro k hkl
      have hv := (format_one (T := .u128) (n := k + 1) (k + 1 + 64) 7 hp hz h0 hb hT (by omega) (by omega)).view
      rw [show digitTryFormat cfg .u128 (k + 1 + 64) (7 + 1) d (k + 1) = d.tryFormat cfg .u128 (k + 1) from rfl, Nat.add_sub_cancel,
        column_single hkl] at hv
      have hsp : spell al [k] = [al[k]] := by
        simp [spell, List.getElem?_eq_getElem hkl]
      rw [hsp, deliver_small] at hv
      cases hr : d.tryFormat cfg .u128 (k + 1) with
      | ok s =>
        rw [hr] at hv
        refine ⟨s, rfl, ?_⟩
        simp only [view, Res.bind] at hv
        split at hv
        · next t ht => injection hv with hv; injection hv with hv; rw [ht, hv]
        · cases hv
      | _ => rw [hr] at hv; cases hv
    obtain ⟨a, ha, hat⟩ := hone i hi
    obtain ⟨b, hb, hbt⟩ := hone j hj
    have := h (i + 1) (j + 1) a b _ _ (hfit i hi) (hfit j hj) ha hb hat hbt rfl
    rw [cmp_of_asStr hat hbt, Nat.compare_eq_lt.mpr (show i + 1 < j + 1 by omega)] at this
    simp only [List.map_cons, List.map_nil, List.compare_eq_compareLex, List.compareLex_cons_cons, Option.some.injEq] at this
    generalize hc : compare (al[i]'hi).val.toNat (al[j]'hj).val.toNat = o at this
    cases o with
    | lt => exact Nat.compare_eq_lt.mp hc
    | eq => cases this
    | gt => cases this

/-- The letters in the order of the Iroha poem, counting from one: the second and third compare the wrong way round. -/
example : (do
      let x ← (hiraganaIroha.oneBased).tryFormat ⟨true, .w64, true⟩ .u128 2
      let y ← (hiraganaIroha.oneBased).tryFormat ⟨true, .w64, true⟩ .u128 3
      return (x.asStr.map List.length, y.asStr.map List.length, x.cmp y)) = (Res.ok (some 1, some 1, some .gt) : Res Error _) := by decide +kernel

/-! ## C59 -/

/-- C59, no zero digit, counting from one. The last symbol of `n > N` is the symbol number `(n - 1) % N` (from 0), and what stands before it
is the text of `(n - 1) / N`. -/
theorem C59_last_one_based {cfg : Cfg} {T : IntTy} {d : DigitSys} {al : List Char} {n : Nat} (hp : Plain cfg d al)
    (hz : (d.level 0).hasZero = false) (h0 : (d.level 0).zeroBased = false) (hb : 1 ≤ al.length) (hn : T.Fits cfg n) (hl : al.length < n) :
    ∃ t, view (d.tryFormat cfg T ((n - 1) / al.length)) = deliver cfg.alloc ((n - 1) / al.length) t ∧
      view (d.tryFormat cfg T n) = deliver cfg.alloc n (t ++ [al.getD ((n - 1) % al.length) '?']) := by
  have hn' : n < 2 ^ T.bits cfg := hn
  have hT : al.length < 2 ^ T.bits cfg := by omega
  have hpos : 0 < (n - 1) / al.length := Nat.div_pos (by omega) (by omega)
  have e : ∀ n, 1 ≤ n → view (d.tryFormat cfg T n) = deliver cfg.alloc n (spell al (column al.length (n - 1))) := fun n h1 =>
    (format_one (n := n) (n + 64) 7 hp hz h0 hb hT h1 (by omega)).view
  refine ⟨_, e _ hpos, ?_⟩
  rw [e n (by omega), column_eq hb, column_eq hb, show n - 1 + 1 = n by omega, bij_pos (by omega) hb,
    show (n - 1) / al.length - 1 + 1 = (n - 1) / al.length by omega, List.reverse_cons, spell_append]
  rfl

/-- AAA, number 703: 702 / 26 = 27 is AA, and 702 % 26 = 0 is A. -/
example : view ((letterUpper.oneBased).tryFormat ⟨true, .w64, true⟩ .u16 703) = .ok (['A', 'A', 'A'], true) ∧
    view ((letterUpper.oneBased).tryFormat ⟨true, .w64, true⟩ .u16 (702 / 26)) = .ok (['A', 'A'], true) ∧ 702 % 26 = 0 := by decide +kernel

/-- C59, the numbers with one symbol: below N it is the symbol number `n`, for a collection with a zero digit or counting from zero; up to N
the symbol number `n - 1`, for one without zero digit that counts from one (in a type with more values than there are symbols). -/
theorem C59_one_symbol {cfg : Cfg} {T : IntTy} {d : DigitSys} {al : List Char} {n : Nat} (hp : Plain cfg d al) (hn : T.Fits cfg n) :
    (((d.level 0).hasZero = true ∧ 2 ≤ al.length) ∨ ((d.level 0).hasZero = false ∧ (d.level 0).zeroBased = true) → n < al.length →
      view (d.tryFormat cfg T n) = .ok ([al.getD n '?'], true)) ∧
    ((d.level 0).hasZero = false → (d.level 0).zeroBased = false → al.length < 2 ^ T.bits cfg → 1 ≤ n → n ≤ al.length →
      view (d.tryFormat cfg T n) = .ok ([al.getD (n - 1) '?'], true)) := by
  refine ⟨fun hm h => single_symbol hp hm hn h, fun hz h0 hT h1 hle => ?_⟩
  have := (format_one (n := n) (n + 64) 7 hp hz h0 (by omega) hT h1 (by omega)).view
  rw [show digitTryFormat cfg T (n + 64) (7 + 1) d n = d.tryFormat cfg T n from rfl] at this
  rw [this, column_single (by omega)]
  exact deliver_small

example : view (letterUpper.tryFormat ⟨true, .w64, true⟩ .u8 25) = .ok (['Z'], true) ∧
    view ((letterUpper.oneBased).tryFormat ⟨true, .w64, true⟩ .u8 26) = .ok (['Z'], true) := by decide +kernel

end Nominals.Props
