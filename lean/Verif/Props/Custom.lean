import Verif.Props.Catalogue

/-!
# Properties C60–C62: what holds for every user-defined system

C60: additive sets, numbers above the largest value and empty texts. C61: independence of the integer type for user-defined
systems. C62: the adapters of digit collections obey the expected laws.

Vocabulary: `Verif/Spec/Outcome.lean`, `Verif/Spec/Digits.lean`, `Verif/Spec/Additive.lean`.
-/

namespace Nominals.Props

open Nominals.Spec

/-! ## C60 -/

/-- C60. Adding `k` times the largest value of an additive set puts `k` copies of its symbol in front of the text. -/
theorem C60_add_top {ε : Type} {cfg : Cfg} {T : IntTy} {table rest : List (List Char × Nat)} {a : AdditiveSet} {z : List Char}
    {top n k : Nat} (ha : AdditiveSet.new (ε := ε) table = .ok a) (ht : table = (z, top) :: rest) (h0 : top ≠ 0) (hn : n ≠ 0)
    (hf : T.Fits cfg (n + k * top)) :
    ∃ t, view (a.tryFormat cfg T n) = deliver cfg.alloc n t ∧
      view (a.tryFormat cfg T (n + k * top)) = deliver cfg.alloc (n + k * top) ((List.replicate k z).flatten ++ t) := by
  obtain ⟨-, hs, -⟩ := new_ok ha
  have hf' : T.Fits cfg n := Nat.lt_of_le_of_lt (Nat.le_add_right _ _) hf
  refine ⟨_, (additive_del hf' hn).view, ?_⟩
  rw [(additive_del hf (by omega)).view, hs, ht, picks_top z top rest h0 (n + k * top), picks_top z top rest h0 n,
    Nat.add_mul_div_right _ _ (Nat.pos_of_ne_zero h0), Nat.add_mul_mod_self_right, written_append, written_append, written_replicate,
    written_replicate, Nat.add_comm (n / top) k, ← List.replicate_append_replicate, List.flatten_append, List.append_assoc]

/-- Roman numerals: 2,001,005 is two overlined M in front of 1005. -/
example : romanUpperTable.head? = some (bar 'M', 1000000) ∧ 2001005 = 1005 + 2 * 1001000 - 2000 ∧
    romanText 2001005 = bar 'M' ++ bar 'M' ++ romanText 1005 := by decide +kernel

/-- C60. A text without any symbol is returned exactly for the numbers smaller than every value of the table: such a number is
silently written as the empty string. -/
theorem C60_empty_text {ε : Type} {cfg : Cfg} {T : IntTy} {table : List (List Char × Nat)} {a : AdditiveSet} {n : Nat}
    (ha : AdditiveSet.new (ε := ε) table = .ok a) (hs : ∀ p ∈ table, p.1 ≠ []) (h0 : n ≠ 0) (hf : T.Fits cfg n) :
    view (a.tryFormat cfg T n) = .ok ([], true) ↔ ∀ q ∈ table, q.2 ≠ 0 → n < q.2 := by
  obtain ⟨ps, hg, hv, -, -⟩ := C22_lost_remainder (cfg := cfg) (T := T) ha h0 hf
  rw [hv]
  constructor
  · intro h
    have he := deliver_ok h
    cases hg with
    | stop _ h' => exact h'
    | take _ p ps hp h1 h2 h3 h4 =>
      exfalso
      have : p.1 = [] := by
        simp only [written, List.flatMap_cons, List.append_eq_nil_iff] at he
        exact he.1
      exact hs p hp this
  · intro h
    cases hg with
    | stop _ _ => rfl
    | take _ p ps hp h1 h2 h3 h4 =>
      have := h p hp h1
      omega

/-- With the symbols 5 and 3 only, 2 is written as nothing, 3 is not. -/
example : ∃ a, AdditiveSet.new (ε := Empty) [(['v'], 5), (['t'], 3)] = .ok a ∧
    view (a.tryFormat ⟨true, .w64, true⟩ .u8 2) = .ok ([], true) ∧ view (a.tryFormat ⟨true, .w64, true⟩ .u8 4) = .ok (['t'], true) := by
  refine ⟨_, rfl, ?_, ?_⟩ <;> decide +kernel

/-! ## C61 -/

/-- C61, additive sets: the result does not depend on the integer type or the pointer width, for any table. -/
theorem C61_additive {ε : Type} {cfg cfg' : Cfg} {T T' : IntTy} {table : List (List Char × Nat)} {a : AdditiveSet} {n : Nat}
    (ha : AdditiveSet.new (ε := ε) table = .ok a) (hc : cfg.alloc = cfg'.alloc) (hn : T.Fits cfg n) (hn' : T'.Fits cfg' n) :
    view (a.tryFormat cfg T n) = view (a.tryFormat cfg' T' n) := by
  by_cases h0 : n = 0
  · subst h0
    have hz := C23_zero (cfg := cfg) (T := T) ha
    have hz' := C23_zero (cfg := cfg') (T := T') ha
    by_cases h : ∀ p ∈ table, p.2 ≠ 0
    · rw [hz.2.1 h, hz'.2.1 h]
    · have : ∃ p ∈ table, p.2 = 0 := by
        apply Classical.byContradiction
        intro hne
        exact h fun p hp h0 => hne ⟨p, hp, h0⟩
      obtain ⟨z, e⟩ := hz.2.2 this
      rw [hz.1 z e, hz'.1 z e, hc]
  · rw [(additive_del hn h0).view, (additive_del hn' h0).view, hc]

example : ∃ a, AdditiveSet.new (ε := Empty) [(['v'], 5), (['i'], 1)] = .ok a ∧
    view (a.tryFormat ⟨true, .w64, true⟩ .u8 7) = .ok (['v', 'i', 'i'], true) ∧
    view (a.tryFormat ⟨true, .w16, true⟩ .u128 7) = .ok (['v', 'i', 'i'], true) := by
  refine ⟨_, rfl, ?_, ?_⟩ <;> decide +kernel

/-- C61, enumerated sets. -/
theorem C61_enumerated {cfg cfg' : Cfg} {T T' : IntTy} {n : Nat} (e : EnumSet) (hl : e.symbols.length < 2 ^ cfg.ptr.bits)
    (hl' : e.symbols.length < 2 ^ cfg'.ptr.bits) (hc : cfg.alloc = cfg'.alloc) :
    view (e.tryFormat cfg T n) = view (e.tryFormat cfg' T' n) := by
  rw [C45_enumerated e hl, C45_enumerated e hl', hc]

/-- A nominal beyond `usize` on a 16-bit target: out of range there as elsewhere. -/
example : (EnumSet.mk true [['x']]).tryFormat ⟨true, .w16, true⟩ .u32 70000 = .err (.outOfBounds 70000) ∧
    (EnumSet.mk true [['x']]).tryFormat ⟨true, .w64, true⟩ .u128 70000 = .err (.outOfBounds 70000) := by decide +kernel

/-- C61, digit collections. The result does not depend on the integer type, provided the collection has a zero digit, or counts
from zero, or has more symbols than the integer type has values in both cases or in neither. -/
theorem C61_digits {cfg cfg' : Cfg} {T T' : IntTy} {d : DigitSys} {al : List Char} {n : Nat} (hp : Plain cfg d al) (hp' : Plain cfg' d al)
    (hc : cfg.alloc = cfg'.alloc) (hb : 2 ≤ al.length ∨ (1 ≤ al.length ∧ (d.level 0).hasZero = false))
    (hn : T.Fits cfg n) (hn' : T'.Fits cfg' n)
    (hw : (d.level 0).hasZero = true ∨ (d.level 0).zeroBased = true ∨ (al.length < 2 ^ T.bits cfg ↔ al.length < 2 ^ T'.bits cfg')) :
    view (d.tryFormat cfg T n) = view (d.tryFormat cfg' T' n) := by
  cases hz : (d.level 0).hasZero with
  | true =>
    have hb : 2 ≤ al.length := by
      rcases hb with h | h
      · exact h
      · rw [hz] at h; cases h.2
    obtain ⟨x, hx, ex⟩ := positional hp hz hb hn
    obtain ⟨y, hy, ey⟩ := positional hp' hz hb hn'
    rw [ex, ey, numeral_unique hb hx hy, hc]
  | false =>
    have hb : 1 ≤ al.length := by omega
    cases h0 : (d.level 0).zeroBased with
    | true => rw [C10_columns hp hz h0 hb hn, C10_columns hp' hz h0 hb hn', hc]
    | false =>
      have hw : al.length < 2 ^ T.bits cfg ↔ al.length < 2 ^ T'.bits cfg' := by
        rcases hw with h | h | h
        · rw [hz] at h; cases h
        · rw [h0] at h; cases h
        · exact h
      by_cases hT : al.length < 2 ^ T.bits cfg
      · have hT' := hw.mp hT
        by_cases hn0 : n = 0
        · subst hn0
          have e1 : d.tryFormat cfg T 0 = .err .noZeroSymbol := format_one_zero (0 + 64) 7 hp hz h0 hT (by omega)
          have e2 : d.tryFormat cfg' T' 0 = .err .noZeroSymbol := format_one_zero (0 + 64) 7 hp' hz h0 hT' (by omega)
          rw [e1, e2]
        · have e1 := (format_one (n := n) (n + 64) 7 hp hz h0 hb hT (by omega) (by omega)).view
          have e2 := (format_one (n := n) (n + 64) 7 hp' hz h0 hb hT' (by omega) (by omega)).view
          exact e1.trans (by rw [hc]; exact e2.symm)
      · have hT' : ¬ al.length < 2 ^ T'.bits cfg' := fun h => hT (hw.mpr h)
        have e1 := (format_wide (n + 64) 7 rfl hp.digits hp.usize (Nat.le_of_not_lt hT) hn).view
        have e2 := (format_wide (n + 64) 7 rfl hp'.digits hp'.usize (Nat.le_of_not_lt hT') hn').view
        exact e1.trans (by rw [hc]; exact e2.symm)

example : view ((decimal.restrict 3).tryFormat ⟨true, .w64, true⟩ .u8 16) = .ok (['1', '2', '1'], true) ∧
    view ((decimal.restrict 3).tryFormat ⟨true, .w16, true⟩ .u128 16) = .ok (['1', '2', '1'], true) := by decide +kernel

/-- C61, the remaining case. A one-based collection without zero digit whose symbols outnumber the values of the narrow type `T`
but not of the wide type `T'`: the same number gets the next symbol in the narrow type, and 0 has one. -/
theorem C61_narrow_type_shifts {cfg cfg' : Cfg} {T T' : IntTy} {d : DigitSys} {al : List Char} {n : Nat} (hp : Plain cfg d al)
    (hp' : Plain cfg' d al) (hz : (d.level 0).hasZero = false) (h0 : (d.level 0).zeroBased = false) (hT : 2 ^ T.bits cfg ≤ al.length)
    (hT' : al.length < 2 ^ T'.bits cfg') (hn : T.Fits cfg n) :
    view (d.tryFormat cfg T n) = .ok ([al.getD n '?'], true) ∧
    view (d.tryFormat cfg' T' n) = if n = 0 then .err .noZeroSymbol else .ok ([al.getD (n - 1) '?'], true) := by
  have hlen : ∀ c : Char, utf8Len [c] ≤ 62 := fun c => by
    have := utf8Size_le c
    simp [utf8Len]
    omega
  have hn1 : n < 2 ^ T.bits cfg := hn
  constructor
  · have e1 := (format_wide (n + 64) 7 rfl hp.digits hp.usize hT hn).view
    exact e1.trans (by rw [spell, List.map_singleton, deliver, if_pos (hlen _)])
  · split
    · next h =>
      subst h
      have e2 : d.tryFormat cfg' T' 0 = .err .noZeroSymbol := format_one_zero (0 + 64) 7 hp' hz h0 hT' (by omega)
      rw [e2]
      rfl
    · have e2 := (format_one (n := n) (n + 64) 7 hp' hz h0 (by omega) hT' (by omega) (by omega)).view
      exact e2.trans (by rw [column_of_lt (by omega), spell, List.map_singleton, deliver, if_pos (hlen _)])

/-- 300 symbols counted from one, as `u8` and as `u16`. -/
example : Plain ⟨true, .w64, true⟩ (DigitSys.digitSetZeroless (List.replicate 300 'x')).oneBased (List.replicate 300 'x') ∧
    2 ^ IntTy.u8.bits ⟨true, .w64, true⟩ ≤ (List.replicate 300 'x').length ∧ (List.replicate 300 'x').length < 2 ^ IntTy.u16.bits ⟨true, .w64, true⟩ :=
  ⟨oneBased_plain ⟨rfl, digitSetZeroless_hasDigits _, by rw [List.length_replicate]; decide⟩, by rw [List.length_replicate]; decide,
    by rw [List.length_replicate]; decide⟩

/-! ## C62 -/

/-- Two systems that no caller can tell apart, however much time formatting is given. -/
def Same (d e : DigitSys) : Prop := ∀ cfg T fuel depth n, digitTryFormat cfg T fuel depth d n = digitTryFormat cfg T fuel depth e n

theorem same_of_level {d e : DigitSys} (h : d.level = e.level) : Same d e := by
  cases d; cases e; cases h; exact fun _ _ _ _ _ => rfl

/-- Collections that are not `fixed` never look at their fallback. -/
theorem same_of_first {d e : DigitSys} (hd : (d.level 0).fixed = false) (h : d.level 0 = e.level 0) : Same d e := by
  intro cfg T fuel depth n
  cases depth with
  | zero => rfl
  | succ depth => simp only [digitTryFormat, ← h, hd, Bool.false_and, Bool.false_eq_true, ↓reduceIte]

theorem chainColl_assoc (a b c : Coll) : DigitSys.chainColl (DigitSys.chainColl a b) c = DigitSys.chainColl a (DigitSys.chainColl b c) := by
  have hdig : (DigitSys.chainColl (DigitSys.chainColl a b) c).digit = (DigitSys.chainColl a (DigitSys.chainColl b c)).digit := by
    funext i
    show (if a.len + b.len ≤ i then c.digit (i - (a.len + b.len)) else if a.len ≤ i then b.digit (i - a.len) else a.digit i) =
      (if a.len ≤ i then if b.len ≤ i - a.len then c.digit (i - a.len - b.len) else b.digit (i - a.len) else a.digit i)
    by_cases h1 : a.len ≤ i
    · by_cases h2 : a.len + b.len ≤ i
      · rw [if_pos h2, if_pos h1, if_pos (by omega), Nat.sub_sub]
      · rw [if_neg h2, if_pos h1, if_pos h1, if_neg (by omega)]
    · rw [if_neg (by omega), if_neg h1, if_neg h1]
  have hlen : (DigitSys.chainColl (DigitSys.chainColl a b) c).len = (DigitSys.chainColl a (DigitSys.chainColl b c)).len := Nat.add_assoc _ _ _
  unfold DigitSys.chainColl at hdig hlen ⊢
  simp only [Coll.mk.injEq, true_and]
  exact ⟨hlen, hdig⟩

/-- C62. Laws of the adapters, for all collections, all numbers, types and builds: `and` is associative; the last `restrict` counts;
`one_based` is idempotent, commutes with `restrict`, moves through `and` to the first operand and is without effect on the second. -/
theorem C62_laws (a b c : DigitSys) (i j : Nat) :
    Same ((a.chain b).chain c) (a.chain (b.chain c)) ∧
    Same ((a.restrict i).restrict j) (a.restrict j) ∧
    Same a.oneBased.oneBased a.oneBased ∧
    Same (a.restrict i).oneBased (a.oneBased.restrict i) ∧
    Same (a.chain b).oneBased (a.oneBased.chain b) ∧
    Same (a.chain b.oneBased) (a.chain b) := by
  refine ⟨?_, ?_, ?_, ?_, ?_, ?_⟩
  · exact same_of_first rfl (chainColl_assoc _ _ _)
  · exact same_of_first rfl rfl
  · exact same_of_first rfl rfl
  · exact same_of_first rfl rfl
  · exact same_of_first rfl rfl
  · exact same_of_first rfl rfl

/-- Three different collections: the third of five symbols is the first of the middle one, wherever the brackets are. -/
example : let a := DigitSys.digitSetZeroless ['a', 'b']; let b := DigitSys.digitSetZeroless ['c']; let c := DigitSys.digitSetZeroless ['d', 'e']
    view (((a.chain b).chain c).tryFormat ⟨true, .w64, true⟩ .u8 2) = .ok (['c'], true) ∧
    view ((a.chain (b.chain c)).tryFormat ⟨true, .w64, true⟩ .u8 2) = .ok (['c'], true) ∧
    view (((a.chain b).chain c).oneBased.tryFormat ⟨true, .w64, true⟩ .u8 6) = .ok (['a', 'a'], true) := by decide +kernel

theorem digitLoop_agree {cfg : Cfg} {T : IntTy} {c c' : Coll} (hz : c.hasZero = c'.hasZero) (h0 : c.zeroBased = c'.zeroBased)
    (hl : c.len = c'.len) (hd : ∀ i, i < c.len → c.digit i = c'.digit i) (n : Nat) : ∀ (fuel r : Nat) (first : Bool) (s : NStr),
    digitLoop cfg T c n fuel c.len r first s = digitLoop cfg T c' n fuel c'.len r first s
  | 0, _, _, _ => rfl
  | fuel + 1, r, first, s => by
    unfold digitLoop
    rw [← hz, ← h0, ← hl]
    split
    · congr 1
      funext r
      unfold remT
      split
      · rfl
      · next hc =>
        have hi : asUsize cfg (r % c.len) < c.len :=
          Nat.lt_of_le_of_lt (Nat.mod_le _ _) (Nat.mod_lt _ (Nat.pos_of_ne_zero hc))
        simp only [Res.bind_ok]
        rw [hd _ hi]
        congr 1
        funext ch
        congr 1
        funext s
        congr 1
        funext r
        cases ht : T.tryFrom cfg c.len with
        | none => rfl
        | some k =>
          have : k = c.len := by
            unfold IntTy.tryFrom at ht
            split at ht
            · injection ht with ht; exact ht.symm
            · cases ht
          subst this
          have := digitLoop_agree (cfg := cfg) (T := T) hz h0 hl hd n fuel r false s
          rw [← hl] at this
          exact this
    · rfl

/-- C62. `restrict` to at most the length of the first operand hides the second operand of an `and`: formatting goes exactly as without
it, whatever the two collections and however much time it takes. -/
theorem C62_hidden (a b : DigitSys) {count : Nat} (hc : count ≤ (a.level 0).len) {cfg : Cfg} {T : IntTy} {n : Nat} (hn : T.Fits cfg n)
    (fuel depth : Nat) :
    digitTryFormat cfg T fuel depth ((a.chain b).restrict count) n = digitTryFormat cfg T fuel depth (a.restrict count) n := by
  cases depth with
  | zero => rfl
  | succ depth =>
    have hd : ∀ i, i < count → (((a.chain b).restrict count).level 0).digit i = ((a.restrict count).level 0).digit i := by
      intro i hi
      show (if (a.level 0).len ≤ i then _ else (a.level 0).digit i) = _
      rw [if_neg (by omega)]
      rfl
    unfold digitTryFormat
    show (match T.tryFrom cfg count with | none => _ | some k => _) = (match T.tryFrom cfg count with | none => _ | some k => _)
    cases ht : T.tryFrom cfg count with
    | none =>
      have : 2 ^ T.bits cfg ≤ count := by
        unfold IntTy.tryFrom at ht
        split at ht
        · cases ht
        · omega
      have hi : asUsize cfg n < count := Nat.lt_of_le_of_lt (Nat.mod_le _ _) (Nat.lt_of_lt_of_le hn this)
      dsimp only
      rw [hd _ hi]
    | some k =>
      have : k = count := by
        unfold IntTy.tryFrom at ht
        split at ht
        · injection ht with ht; exact ht.symm
        · cases ht
      subst this
      exact digitLoop_agree (c := ((a.chain b).restrict k).level 0) (c' := (a.restrict k).level 0) rfl rfl rfl hd n fuel n true _

/-- `DECIMAL.and(LETTER_UPPER)` restricted to 8 is octal. -/
example : 8 ≤ (decimal.level 0).len ∧
    view (((decimal.chain letterUpper).restrict 8).tryFormat ⟨true, .w64, true⟩ .u8 255) = .ok (['3', '7', '7'], true) ∧
    view ((decimal.restrict 8).tryFormat ⟨true, .w64, true⟩ .u8 255) = .ok (['3', '7', '7'], true) := by decide +kernel

/-- C62. `NoFallback`, taken as a collection. In front of an `and` it takes the zero digit away: the symbols of the other collection count like
columns of a spreadsheet, from zero, whatever that collection says. Behind an `and` it changes nothing of a collection that is not fixed. Alone it
panics on every number; counting from one it refuses zero and panics on all others. -/
theorem C62_no_fallback (a : DigitSys) :
    Same (DigitSys.noFallback.chain a) (.withFallback ⟨false, false, true, (a.level 0).len, (a.level 0).digit⟩ a.fallback) ∧
    ((a.level 0).fixed = false → ∀ {cfg : Cfg} {T : IntTy} {n : Nat}, T.Fits cfg n → ∀ fuel depth,
      digitTryFormat cfg T fuel depth (a.chain .noFallback) n = digitTryFormat cfg T fuel depth a n) ∧
    (∀ (cfg : Cfg) (T : IntTy) (n : Nat), DigitSys.noFallback.tryFormat cfg T n = .panic ∧
      DigitSys.noFallback.oneBased.tryFormat cfg T n = if n = 0 then .err .noZeroSymbol else .panic) := by
  refine ⟨?_, ?_, fun cfg T n => ⟨?_, ?_⟩⟩
  · refine same_of_first rfl ?_
    show DigitSys.chainColl _ _ = _
    unfold DigitSys.chainColl DigitSys.noFallback DigitSys.withFallback
    simp
  · intro hf cfg T n hn fuel depth
    cases depth with
    | zero => rfl
    | succ depth =>
      have hl : ((a.chain .noFallback).level 0).len = (a.level 0).len := rfl
      have hd : ∀ i, i < ((a.chain .noFallback).level 0).len → ((a.chain .noFallback).level 0).digit i = (a.level 0).digit i := by
        intro i hi
        show (if (a.level 0).len ≤ i then _ else (a.level 0).digit i) = _
        rw [if_neg (by rw [hl] at hi; omega)]
      unfold digitTryFormat
      show (match T.tryFrom cfg (a.level 0).len with | none => _ | some k => _) = (match T.tryFrom cfg (a.level 0).len with | none => _ | some k => _)
      cases ht : T.tryFrom cfg (a.level 0).len with
      | none =>
        have : 2 ^ T.bits cfg ≤ (a.level 0).len := by
          unfold IntTy.tryFrom at ht
          split at ht
          · cases ht
          · omega
        have hi : asUsize cfg n < (a.level 0).len := Nat.lt_of_le_of_lt (Nat.mod_le _ _) (Nat.lt_of_lt_of_le hn this)
        dsimp only
        rw [hd _ hi]
      | some k =>
        have : k = (a.level 0).len := by
          unfold IntTy.tryFrom at ht
          split at ht
          · injection ht with ht; exact ht.symm
          · cases ht
        subst this
        have hc : ((a.chain .noFallback).level 0).fixed = false := rfl
        simp only [hf, hc, Bool.false_and, Bool.false_eq_true, ↓reduceIte]
        exact digitLoop_agree (c := (a.chain .noFallback).level 0) (c' := a.level 0) rfl rfl rfl hd n fuel n true _
  · exact (C49_empty_collection (d := .noFallback) (.inl rfl) rfl).trans (if_neg fun h => nomatch h.2.1)
  · rw [C49_empty_collection (d := DigitSys.noFallback.oneBased) (.inl rfl) rfl]
    simp [DigitSys.oneBased, DigitSys.noFallback]

/-- `NoFallback.and(Decimal)`: after 9 comes 00. -/
example : view ((DigitSys.noFallback.chain decimal).tryFormat ⟨true, .w64, true⟩ .u8 10) = .ok (['0', '0'], true) ∧
    view ((decimal.chain .noFallback).tryFormat ⟨true, .w64, true⟩ .u8 10) = .ok (['1', '0'], true) := by decide +kernel

end Nominals.Props
