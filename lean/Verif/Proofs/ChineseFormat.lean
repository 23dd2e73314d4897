import Verif.Proofs.ChineseScaled

/-! # Chinese: the three grouped scales for each integer type, the short scale, and the whole formatter -/

namespace Nominals

open Nominals.Spec

theorem bits_cases (cfg : Cfg) (T : IntTy) :
    T.bits cfg = 8 ∨ T.bits cfg = 16 ∨ T.bits cfg = 32 ∨ T.bits cfg = 64 ∨ T.bits cfg = 128 := by
  obtain ⟨_, p⟩ := cfg
  cases T <;> cases p <;> simp [IntTy.bits, PtrWidth.bits]

theorem spell_more {z : Nat → Nat → Bool} {e : Nat → Nat} {m x : Nat} (k : Nat) (h : ∀ i, m ≤ i → i < m + k → x < 10 ^ e i) :
    spellWith z (unitsOf e (m + k)) x = spellWith z (unitsOf e m) x := by
  induction k with
  | zero => rfl
  | succ k ih =>
    rw [← Nat.add_assoc, unitsOf, spellWith, if_pos (h (m + k) (by omega) (by omega)), ih fun i h1 h2 => h i h1 (by omega)]

/-- Checking `ScalesOf` for a concrete list. -/
theorem ScalesOf.of_list {scales : List (Option Nat)} {e : Nat → Nat} {m : Nat} (S : List (Option Nat)) (hS : scales = S)
    (h1 : ∀ i, i < m → S[i]?.join = some (10 ^ e i)) (h2 : ∀ i, i < S.length → m ≤ i → S[i]?.join = none) (h3 : e 0 = 4)
    (h4 : ∀ i, i < m → e i % 4 = 0) (h5 : ∀ i, i < m → i + 1 < m → e i < e (i + 1) ∧ e (i + 1) ≤ 2 * e i) (h6 : m ≤ 11) :
    ScalesOf scales e m := by
  subst hS
  refine ⟨h1, fun i hi => ?_, h3, h4, fun i hi => h5 i (by omega) hi, h6⟩
  by_cases hl : i < scales.length
  · exact h2 i hl hi
  · rw [List.getElem?_eq_none (by omega)]; rfl

theorem myriad_del {cfg : Cfg} {T : IntTy} {chars large : List Char} {gl : CTok → Char} (hg : GlyphsOf chars large gl) (formal : Bool)
    {n : Nat} (hn : n < 2 ^ T.bits cfg) (h4 : 10000 ≤ n) :
    Del cfg.alloc ChineseFormatError.outOfMemory (formatScaled cfg T formal MYRIAD_SCALE chars large n)
      ((if formal then spellWith (needsZero .myriad) (scaleUnits .myriad) n
        else dropLeadingOne (spellWith (needsZero .myriad) (scaleUnits .myriad) n)).map gl) := by
  have hz := groupRule (scale := .myriad) (by decide)
  rcases bits_cases cfg T with hb | hb | hb | hb | hb
  · rw [hb] at hn; omega
  · have hsc : ScalesOf (MYRIAD_SCALE.map (T.tryFrom cfg)) (fun i => 4 * (i + 1)) 1 :=
      ScalesOf.of_list [some (10 ^ 4), none, none, none, none, none, none, none, none] (by simp [MYRIAD_SCALE, IntTy.tryFrom, hb]) (by decide) (by decide) (by decide) (by decide) (by decide) (by decide)
    rw [hb] at hn
    have hd := formatScaled_del (formal := formal) hg hz hsc (x := n) (by omega) (by omega)
      (by show n / 10 ^ 4 < 10 ^ 4; omega) (by omega) (by omega)
    have hm := spell_more (z := needsZero .myriad) (e := fun i => 4 * (i + 1)) (m := 1) (x := n) 8 (by
      intro i h1 h2
      have : 10 ^ 8 ≤ 10 ^ (fun i => 4 * (i + 1)) i := by
        apply Nat.pow_le_pow_right (by omega)
        have : i = 1 ∨ i = 2 ∨ i = 3 ∨ i = 4 ∨ i = 5 ∨ i = 6 ∨ i = 7 ∨ i = 8 := by omega
        rcases this with rfl | rfl | rfl | rfl | rfl | rfl | rfl | rfl <;> decide
      exact Nat.lt_of_lt_of_le (by omega) this)
    rw [← hm] at hd
    exact hd
  · have hsc : ScalesOf (MYRIAD_SCALE.map (T.tryFrom cfg)) (fun i => 4 * (i + 1)) 2 :=
      ScalesOf.of_list [some (10 ^ 4), some (10 ^ 8), none, none, none, none, none, none, none] (by simp [MYRIAD_SCALE, IntTy.tryFrom, hb]) (by decide) (by decide) (by decide) (by decide) (by decide) (by decide)
    rw [hb] at hn
    have hd := formatScaled_del (formal := formal) hg hz hsc (x := n) (by omega) (by omega)
      (by show n / 10 ^ 8 < 10 ^ 8; omega) (by intro _; show n / 10 ^ 8 < 10 ^ 8 / 10 ^ 4; omega) (by omega)
    have hm := spell_more (z := needsZero .myriad) (e := fun i => 4 * (i + 1)) (m := 2) (x := n) 7 (by
      intro i h1 h2
      have : 10 ^ 12 ≤ 10 ^ (fun i => 4 * (i + 1)) i := by
        apply Nat.pow_le_pow_right (by omega)
        have : i = 2 ∨ i = 3 ∨ i = 4 ∨ i = 5 ∨ i = 6 ∨ i = 7 ∨ i = 8 := by omega
        rcases this with rfl | rfl | rfl | rfl | rfl | rfl | rfl <;> decide
      exact Nat.lt_of_lt_of_le (by omega) this)
    rw [← hm] at hd
    exact hd
  · have hsc : ScalesOf (MYRIAD_SCALE.map (T.tryFrom cfg)) (fun i => 4 * (i + 1)) 4 :=
      ScalesOf.of_list [some (10 ^ 4), some (10 ^ 8), some (10 ^ 12), some (10 ^ 16), none, none, none, none, none] (by simp [MYRIAD_SCALE, IntTy.tryFrom, hb]) (by decide) (by decide) (by decide) (by decide) (by decide) (by decide)
    rw [hb] at hn
    have hd := formatScaled_del (formal := formal) hg hz hsc (x := n) (by omega) (by omega)
      (by show n / 10 ^ 16 < 10 ^ 16; omega) (by intro _; show n / 10 ^ 16 < 10 ^ 16 / 10 ^ 12; omega) (by omega)
    have hm := spell_more (z := needsZero .myriad) (e := fun i => 4 * (i + 1)) (m := 4) (x := n) 5 (by
      intro i h1 h2
      have : 10 ^ 20 ≤ 10 ^ (fun i => 4 * (i + 1)) i := by
        apply Nat.pow_le_pow_right (by omega)
        have : i = 4 ∨ i = 5 ∨ i = 6 ∨ i = 7 ∨ i = 8 := by omega
        rcases this with rfl | rfl | rfl | rfl | rfl <;> decide
      exact Nat.lt_of_lt_of_le (by omega) this)
    rw [← hm] at hd
    exact hd
  · have hsc : ScalesOf (MYRIAD_SCALE.map (T.tryFrom cfg)) (fun i => 4 * (i + 1)) 9 :=
      ScalesOf.of_list [some (10 ^ 4), some (10 ^ 8), some (10 ^ 12), some (10 ^ 16), some (10 ^ 20), some (10 ^ 24), some (10 ^ 28), some (10 ^ 32), some (10 ^ 36)] (by simp [MYRIAD_SCALE, IntTy.tryFrom, hb]) (by decide) (by decide) (by decide) (by decide) (by decide) (by decide)
    rw [hb] at hn
    have hd := formatScaled_del (formal := formal) hg hz hsc (x := n) (by omega) (by omega)
      (by show n / 10 ^ 36 < 10 ^ 36; omega) (by intro _; show n / 10 ^ 36 < 10 ^ 36 / 10 ^ 32; omega) (by omega)
    have hm := spell_more (z := needsZero .myriad) (e := fun i => 4 * (i + 1)) (m := 9) (x := n) 0 (by
      intro i h1 h2
      have : 10 ^ 1 ≤ 10 ^ (fun i => 4 * (i + 1)) i := by
        apply Nat.pow_le_pow_right (by omega)
        exfalso
        omega
      exact Nat.lt_of_lt_of_le (by omega) this)
    rw [← hm] at hd
    exact hd

theorem mid_del {cfg : Cfg} {T : IntTy} {chars large : List Char} {gl : CTok → Char} (hg : GlyphsOf chars large gl) (formal : Bool)
    {n : Nat} (hn : n < 2 ^ T.bits cfg) (h4 : 10000 ≤ n) :
    Del cfg.alloc ChineseFormatError.outOfMemory (formatScaled cfg T formal MID_SCALE chars large n)
      ((if formal then spellWith (needsZero .mid) (scaleUnits .mid) n
        else dropLeadingOne (spellWith (needsZero .mid) (scaleUnits .mid) n)).map gl) := by
  have hz := groupRule (scale := .mid) (by decide)
  rcases bits_cases cfg T with hb | hb | hb | hb | hb
  · rw [hb] at hn; omega
  · have hsc : ScalesOf (MID_SCALE.map (T.tryFrom cfg)) (fun i => if i = 0 then 4 else 8 * i) 1 :=
      ScalesOf.of_list [some (10 ^ 4), none, none, none, none] (by simp [MID_SCALE, IntTy.tryFrom, hb]) (by decide) (by decide) (by decide) (by decide) (by decide) (by decide)
    rw [hb] at hn
    have hd := formatScaled_del (formal := formal) hg hz hsc (x := n) (by omega) (by omega)
      (by show n / 10 ^ 4 < 10 ^ 4; omega) (by omega) (by omega)
    have hm := spell_more (z := needsZero .mid) (e := fun i => if i = 0 then 4 else 8 * i) (m := 1) (x := n) 4 (by
      intro i h1 h2
      have : 10 ^ 8 ≤ 10 ^ (fun i => if i = 0 then 4 else 8 * i) i := by
        apply Nat.pow_le_pow_right (by omega)
        have : i = 1 ∨ i = 2 ∨ i = 3 ∨ i = 4 := by omega
        rcases this with rfl | rfl | rfl | rfl <;> decide
      exact Nat.lt_of_lt_of_le (by omega) this)
    rw [← hm] at hd
    exact hd
  · have hsc : ScalesOf (MID_SCALE.map (T.tryFrom cfg)) (fun i => if i = 0 then 4 else 8 * i) 2 :=
      ScalesOf.of_list [some (10 ^ 4), some (10 ^ 8), none, none, none] (by simp [MID_SCALE, IntTy.tryFrom, hb]) (by decide) (by decide) (by decide) (by decide) (by decide) (by decide)
    rw [hb] at hn
    have hd := formatScaled_del (formal := formal) hg hz hsc (x := n) (by omega) (by omega)
      (by show n / 10 ^ 8 < 10 ^ 8; omega) (by intro _; show n / 10 ^ 8 < 10 ^ 8 / 10 ^ 4; omega) (by omega)
    have hm := spell_more (z := needsZero .mid) (e := fun i => if i = 0 then 4 else 8 * i) (m := 2) (x := n) 3 (by
      intro i h1 h2
      have : 10 ^ 16 ≤ 10 ^ (fun i => if i = 0 then 4 else 8 * i) i := by
        apply Nat.pow_le_pow_right (by omega)
        have : i = 2 ∨ i = 3 ∨ i = 4 := by omega
        rcases this with rfl | rfl | rfl <;> decide
      exact Nat.lt_of_lt_of_le (by omega) this)
    rw [← hm] at hd
    exact hd
  · have hsc : ScalesOf (MID_SCALE.map (T.tryFrom cfg)) (fun i => if i = 0 then 4 else 8 * i) 3 :=
      ScalesOf.of_list [some (10 ^ 4), some (10 ^ 8), some (10 ^ 16), none, none] (by simp [MID_SCALE, IntTy.tryFrom, hb]) (by decide) (by decide) (by decide) (by decide) (by decide) (by decide)
    rw [hb] at hn
    have hd := formatScaled_del (formal := formal) hg hz hsc (x := n) (by omega) (by omega)
      (by show n / 10 ^ 16 < 10 ^ 16; omega) (by intro _; show n / 10 ^ 16 < 10 ^ 16 / 10 ^ 8; omega) (by omega)
    have hm := spell_more (z := needsZero .mid) (e := fun i => if i = 0 then 4 else 8 * i) (m := 3) (x := n) 2 (by
      intro i h1 h2
      have : 10 ^ 24 ≤ 10 ^ (fun i => if i = 0 then 4 else 8 * i) i := by
        apply Nat.pow_le_pow_right (by omega)
        have : i = 3 ∨ i = 4 := by omega
        rcases this with rfl | rfl <;> decide
      exact Nat.lt_of_lt_of_le (by omega) this)
    rw [← hm] at hd
    exact hd
  · have hsc : ScalesOf (MID_SCALE.map (T.tryFrom cfg)) (fun i => if i = 0 then 4 else 8 * i) 5 :=
      ScalesOf.of_list [some (10 ^ 4), some (10 ^ 8), some (10 ^ 16), some (10 ^ 24), some (10 ^ 32)] (by simp [MID_SCALE, IntTy.tryFrom, hb]) (by decide) (by decide) (by decide) (by decide) (by decide) (by decide)
    rw [hb] at hn
    have hd := formatScaled_del (formal := formal) hg hz hsc (x := n) (by omega) (by omega)
      (by show n / 10 ^ 32 < 10 ^ 32; omega) (by intro _; show n / 10 ^ 32 < 10 ^ 32 / 10 ^ 24; omega) (by omega)
    have hm := spell_more (z := needsZero .mid) (e := fun i => if i = 0 then 4 else 8 * i) (m := 5) (x := n) 0 (by
      intro i h1 h2
      have : 10 ^ 1 ≤ 10 ^ (fun i => if i = 0 then 4 else 8 * i) i := by
        apply Nat.pow_le_pow_right (by omega)
        exfalso
        omega
      exact Nat.lt_of_lt_of_le (by omega) this)
    rw [← hm] at hd
    exact hd

theorem long_del {cfg : Cfg} {T : IntTy} {chars large : List Char} {gl : CTok → Char} (hg : GlyphsOf chars large gl) (formal : Bool)
    {n : Nat} (hn : n < 2 ^ T.bits cfg) (h4 : 10000 ≤ n) :
    Del cfg.alloc ChineseFormatError.outOfMemory (formatScaled cfg T formal LONG_SCALE chars large n)
      ((if formal then spellWith (needsZero .long) (scaleUnits .long) n
        else dropLeadingOne (spellWith (needsZero .long) (scaleUnits .long) n)).map gl) := by
  have hz := groupRule (scale := .long) (by decide)
  rcases bits_cases cfg T with hb | hb | hb | hb | hb
  · rw [hb] at hn; omega
  · have hsc : ScalesOf (LONG_SCALE.map (T.tryFrom cfg)) (fun i => 4 * 2 ^ i) 1 :=
      ScalesOf.of_list [some (10 ^ 4), none, none, none] (by simp [LONG_SCALE, IntTy.tryFrom, hb]) (by decide) (by decide) (by decide) (by decide) (by decide) (by decide)
    rw [hb] at hn
    have hd := formatScaled_del (formal := formal) hg hz hsc (x := n) (by omega) (by omega)
      (by show n / 10 ^ 4 < 10 ^ 4; omega) (by omega) (by omega)
    have hm := spell_more (z := needsZero .long) (e := fun i => 4 * 2 ^ i) (m := 1) (x := n) 3 (by
      intro i h1 h2
      have : 10 ^ 8 ≤ 10 ^ (fun i => 4 * 2 ^ i) i := by
        apply Nat.pow_le_pow_right (by omega)
        have : i = 1 ∨ i = 2 ∨ i = 3 := by omega
        rcases this with rfl | rfl | rfl <;> decide
      exact Nat.lt_of_lt_of_le (by omega) this)
    rw [← hm] at hd
    exact hd
  · have hsc : ScalesOf (LONG_SCALE.map (T.tryFrom cfg)) (fun i => 4 * 2 ^ i) 2 :=
      ScalesOf.of_list [some (10 ^ 4), some (10 ^ 8), none, none] (by simp [LONG_SCALE, IntTy.tryFrom, hb]) (by decide) (by decide) (by decide) (by decide) (by decide) (by decide)
    rw [hb] at hn
    have hd := formatScaled_del (formal := formal) hg hz hsc (x := n) (by omega) (by omega)
      (by show n / 10 ^ 8 < 10 ^ 8; omega) (by intro _; show n / 10 ^ 8 < 10 ^ 8 / 10 ^ 4; omega) (by omega)
    have hm := spell_more (z := needsZero .long) (e := fun i => 4 * 2 ^ i) (m := 2) (x := n) 2 (by
      intro i h1 h2
      have : 10 ^ 16 ≤ 10 ^ (fun i => 4 * 2 ^ i) i := by
        apply Nat.pow_le_pow_right (by omega)
        have : i = 2 ∨ i = 3 := by omega
        rcases this with rfl | rfl <;> decide
      exact Nat.lt_of_lt_of_le (by omega) this)
    rw [← hm] at hd
    exact hd
  · have hsc : ScalesOf (LONG_SCALE.map (T.tryFrom cfg)) (fun i => 4 * 2 ^ i) 3 :=
      ScalesOf.of_list [some (10 ^ 4), some (10 ^ 8), some (10 ^ 16), none] (by simp [LONG_SCALE, IntTy.tryFrom, hb]) (by decide) (by decide) (by decide) (by decide) (by decide) (by decide)
    rw [hb] at hn
    have hd := formatScaled_del (formal := formal) hg hz hsc (x := n) (by omega) (by omega)
      (by show n / 10 ^ 16 < 10 ^ 16; omega) (by intro _; show n / 10 ^ 16 < 10 ^ 16 / 10 ^ 8; omega) (by omega)
    have hm := spell_more (z := needsZero .long) (e := fun i => 4 * 2 ^ i) (m := 3) (x := n) 1 (by
      intro i h1 h2
      have : 10 ^ 32 ≤ 10 ^ (fun i => 4 * 2 ^ i) i := by
        apply Nat.pow_le_pow_right (by omega)
        have : i = 3 := by omega
        rcases this with rfl <;> decide
      exact Nat.lt_of_lt_of_le (by omega) this)
    rw [← hm] at hd
    exact hd
  · have hsc : ScalesOf (LONG_SCALE.map (T.tryFrom cfg)) (fun i => 4 * 2 ^ i) 4 :=
      ScalesOf.of_list [some (10 ^ 4), some (10 ^ 8), some (10 ^ 16), some (10 ^ 32)] (by simp [LONG_SCALE, IntTy.tryFrom, hb]) (by decide) (by decide) (by decide) (by decide) (by decide) (by decide)
    rw [hb] at hn
    have hd := formatScaled_del (formal := formal) hg hz hsc (x := n) (by omega) (by omega)
      (by show n / 10 ^ 32 < 10 ^ 32; omega) (by intro _; show n / 10 ^ 32 < 10 ^ 32 / 10 ^ 16; omega) (by omega)
    have hm := spell_more (z := needsZero .long) (e := fun i => 4 * 2 ^ i) (m := 4) (x := n) 0 (by
      intro i h1 h2
      have : 10 ^ 1 ≤ 10 ^ (fun i => 4 * 2 ^ i) i := by
        apply Nat.pow_le_pow_right (by omega)
        exfalso
        omega
      exact Nat.lt_of_lt_of_le (by omega) this)
    rw [← hm] at hd
    exact hd

/-! ## The short scale -/

/-- Exponents of the short scale. -/
abbrev shortE : Nat → Nat := fun i => 4 + i

theorem short_scale_get : ∀ r, r < 11 → SHORT_SCALE[r]? = some (10 ^ shortE r) := by decide

theorem short_zero (s : Nat) : needsZero .short s 0 = false := by simp [needsZero]

/-- What follows the loop (src/chinese.rs:226-235). -/
def shortEnd (cfg : Cfg) (formal : Bool) (chars : List Char) : Nat × NStr × Bool → Res ChineseFormatError NStr :=
  fun (remaining, formatted, lastWasZero) =>
  if remaining ≠ 0 then
    (chineseInner cfg formal chars remaining false lastWasZero).toChinese.bind fun (rem, _) =>
    (match rem.asStr with
     | some t => (formatted.pushStr cfg t).toChinese
     | none => .ub)
  else .ok formatted

theorem spell_zero (z : Nat → Nat → Bool) (u : Units) (hu : ∀ p ∈ u, 1 ≤ p.1) : spellWith z u 0 = [] := by
  induction u with
  | nil => rfl
  | cons p rest ih =>
    have := hu p (by simp)
    rw [spellWith, if_pos (by omega), ih fun q hq => hu q (by simp [hq])]

theorem unitsOf_ge10 (e : Nat → Nat) (he : ∀ i, 1 ≤ e i) (k : Nat) : ∀ p ∈ unitsOf e k, 10 ≤ p.1 := by
  induction k with
  | zero => simp [unitsOf, sectionUnits]
  | succ k ih =>
    intro p hp
    simp only [unitsOf, List.mem_cons] at hp
    rcases hp with rfl | hp
    · have : 10 ^ 1 ≤ 10 ^ e k := Nat.pow_le_pow_right (by omega) (he k)
      simpa using this
    · exact ih p hp

theorem short_end_del {cfg : Cfg} {chars large : List Char} {gl : CTok → Char} (hg : GlyphsOf chars large gl) (formal last : Bool)
    {x : Nat} (h0 : x ≠ 0) (hx : x < 10000) {ts : List CTok} {s : NStr} (hs : s.Is (ts.map gl))
    (ha : cfg.alloc = true ∨ utf8Len (ts.map gl) ≤ 62) :
    Del cfg.alloc ChineseFormatError.outOfMemory (shortEnd cfg formal chars (x, s, last))
      ((ts ++ ((if x < 1000 ∧ last = false then [CTok.zero] else []) ++ spellWith (needsZero .short) sectionUnits x)).map gl) := by
  unfold shortEnd
  simp only [ne_eq, h0, not_false_eq_true, ↓reduceIte]
  have h := (inner_rest_del (cfg := cfg) hg formal last (sectionRule .short) h0 hx).mapErr fun _ => ChineseFormatError.outOfMemory
  refine h.bindDel (by simp) fun s' hs' ha' => ?_
  rw [List.map_append]
  exact pushStr_ch hs ha hs'

theorem short_loop_del {cfg : Cfg} {T : IntTy} {chars large : List Char} {gl : CTok → Char} (hg : GlyphsOf chars large gl) (formal : Bool) :
    ∀ (r : Nat), r < 11 → 10 ^ shortE r < 2 ^ T.bits cfg → ∀ (x : Nat) (ts : List CTok) (s : NStr) (lz : Bool), x ≠ 0 →
      x < 10 * 10 ^ shortE r → (ts = [] → 10000 ≤ x) → s.Is (ts.map gl) → (cfg.alloc = true ∨ utf8Len (ts.map gl) ≤ 62) →
      Del cfg.alloc ChineseFormatError.outOfMemory
        ((shortLoop cfg T chars large r (10 ^ shortE r) x s lz).bind (shortEnd cfg formal chars))
        ((ts ++ ((if ts ≠ [] ∧ lz = false ∧ x < 10 ^ shortE r then [CTok.zero] else []) ++
          spellWith (needsZero .short) (unitsOf shortE (r + 1)) x)).map gl) := by
  intro r
  induction r with
  | zero =>
    intro hr hT x ts s lz h0 hx hts hs ha
    unfold shortLoop shortBody
    have hp : ¬ 10 ^ shortE 0 = 0 := by decide
    have hsc : 10 ^ shortE 0 = 10000 := by decide
    rw [unitsOf, spellWith]
    rw [hsc] at hx ⊢
    have hrv : ¬ x / 10000 ≥ 10 := by omega
    simp only [divT, remT, Nat.reduceEqDiff, if_neg h0, ↓reduceIte, Res.bind_ok, if_neg hrv]
    by_cases hlt : x < 10000
    · have hne : ts ≠ [] := fun h => by have := hts h; omega
      rw [Nat.div_eq_of_lt hlt, Nat.mod_eq_of_lt hlt, if_pos rfl, if_pos hlt, is_isEmpty hs,
        show ts.isEmpty = false by cases ts with | nil => exact absurd rfl hne | cons => rfl]
      cases lz with
      | true =>
        simp only [Bool.not_false, Bool.not_true, Bool.and_false, Bool.false_eq_true, ↓reduceIte, Res.bind_ok]
        have := short_end_del hg formal true h0 hlt hs ha
        simpa [unitsOf] using this
      | false =>
        simp only [Bool.not_false, Bool.and_self, ↓reduceIte]
        rw [if_pos ⟨hne, trivial, hlt⟩]
        simp only [Res.bind_assoc]
        have hpush := (pushAt_del (cfg := cfg) hg.zero hs ha).mapErr fun _ => ChineseFormatError.outOfMemory
        refine hpush.bind (by simp) fun s' hs' ha' => ?_
        simp only [Res.bind_ok]
        have := short_end_del hg formal true h0 hlt (ts := ts ++ [.zero]) (by simpa using hs') (by simpa using ha')
        simpa [unitsOf] using this
    · have hrv0 : ¬ x / 10000 = 0 := by omega
      rw [if_neg hrv0, if_neg hlt, spell_digit _ _ (unitsOf_ge10 _ (by intro i; simp only [shortE]; omega) 0) (by omega), if_neg hrv0,
        small_usize (by omega)]
      simp only [Res.bind_assoc]
      have hno : ¬ (ts ≠ [] ∧ lz = false ∧ x < 10000) := fun h => hlt h.2.2
      rw [if_neg hno]
      have hpush := (pushAt_del (cfg := cfg) (hg.num (x / 10000) hrv0 (by omega)) hs ha).mapErr fun _ => ChineseFormatError.outOfMemory
      refine hpush.bind (by simp) fun s' hs' ha' => ?_
      have hpush := (pushAt_del (cfg := cfg) (hg.large 0 (by omega)) hs' ha').mapErr fun _ => ChineseFormatError.outOfMemory
      refine hpush.bind (by simp) fun s' hs' ha' => ?_
      simp only [Res.bind_ok]
      by_cases hm : x % 10000 = 0
      · rw [hm, short_zero, spell_zero _ _ (unitsOf_pos _ _)]
        unfold shortEnd
        simp only [ne_eq, not_true_eq_false, ↓reduceIte]
        exact .ok _ _ (by simpa using hs') (by simpa using ha')
      · have := short_end_del hg formal false hm (Nat.mod_lt _ (by omega)) (ts := ts ++ [.num (x / 10000), .large 0]) (by simpa using hs')
          (by simpa using ha')
        have hz : needsZero .short 10000 (x % 10000) = decide (x % 10000 < 1000 ∧ false = false) := by
          simp only [needsZero, and_true]
          congr 1
          apply propext
          omega
        rw [hz]
        simpa [unitsOf] using this
  | succ r ih =>
    intro hr hT x ts s lz h0 hx hts hs ha
    have hsc : 10 ^ shortE (r + 1) = 10 * 10 ^ shortE r := by
      show 10 ^ (4 + r + 1) = _
      rw [Nat.pow_succ]; simp only [shortE]; omega
    have hpos : 10000 ≤ 10 ^ shortE r := by
      have : 10 ^ 4 ≤ 10 ^ shortE r := Nat.pow_le_pow_right (by omega) (by simp [shortE])
      simpa using this
    have hT' : 10 ^ shortE r < 2 ^ T.bits cfg := by omega
    have ih := ih (by omega) hT'
    have hget := short_scale_get r (by omega)
    unfold shortLoop shortBody
    rw [unitsOf, spellWith]
    generalize hS : 10 ^ shortE (r + 1) = S at *
    have hp : ¬ S = 0 := by omega
    have hrv : ¬ x / S ≥ 10 := by
      have : x / S < 10 := by rw [Nat.div_lt_iff_lt_mul (by omega)]; omega
      omega
    have hSpos : 0 < S := by omega
    simp only [divT, remT, if_neg hp, if_neg h0, Res.bind_ok, if_neg hrv, hget, Res.ofIndex, tryFrom_some hT']
    by_cases hlt : x < S
    · rw [Nat.div_eq_of_lt hlt, Nat.mod_eq_of_lt hlt, if_pos rfl, if_pos hlt, is_isEmpty hs]
      by_cases hgd : ts ≠ [] ∧ lz = false
      · obtain ⟨hne, rfl⟩ := hgd
        rw [show ts.isEmpty = false by cases ts with | nil => exact absurd rfl hne | cons => rfl]
        simp only [Bool.not_false, Bool.and_self, ↓reduceIte]
        rw [if_pos ⟨hne, trivial, hlt⟩]
        simp only [Res.bind_assoc]
        have hpush := (pushAt_del (cfg := cfg) hg.zero hs ha).mapErr fun _ => ChineseFormatError.outOfMemory
        refine hpush.bind (by simp) fun s' hs' ha' => ?_
        simp only [Res.bind_ok]
        have := ih x (ts ++ [.zero]) s' true h0 (by omega) (by simp) (by simpa using hs') (by simpa using ha')
        simpa using this
      · have hb : (!ts.isEmpty && !lz) = false := by
          cases lz
          · have : ts = [] := by
              cases ts with
              | nil => rfl
              | cons a l => exact absurd ⟨by simp, rfl⟩ hgd
            subst this; rfl
          · simp
        have hno : ¬ (ts ≠ [] ∧ lz = false ∧ x < S) := fun h => hgd ⟨h.1, h.2.1⟩
        have hno' : ¬ (ts ≠ [] ∧ lz = false ∧ x < 10 ^ shortE r) := fun h => hgd ⟨h.1, h.2.1⟩
        rw [hb, if_neg hno]
        simp only [Bool.false_eq_true, ↓reduceIte, Res.bind_ok]
        have := ih x ts s lz h0 (by omega) hts hs ha
        rw [if_neg hno'] at this
        exact this
    · have hrv0 : ¬ x / S = 0 := by
        intro h
        have := (Nat.div_eq_zero_iff (a := x) (b := S)).mp h
        omega
      rw [if_neg hrv0, if_neg hlt, spell_digit _ _ (unitsOf_ge10 _ (by intro i; simp only [shortE]; omega) _) (by omega), if_neg hrv0,
        small_usize (by omega)]
      simp only [Res.bind_assoc]
      have hno : ¬ (ts ≠ [] ∧ lz = false ∧ x < S) := fun h => hlt h.2.2
      rw [if_neg hno]
      have hpush := (pushAt_del (cfg := cfg) (hg.num (x / S) hrv0 (by omega)) hs ha).mapErr fun _ => ChineseFormatError.outOfMemory
      refine hpush.bind (by simp) fun s' hs' ha' => ?_
      have hpush := (pushAt_del (cfg := cfg) (hg.large (r + 1) (by omega)) hs' ha').mapErr fun _ => ChineseFormatError.outOfMemory
      refine hpush.bind (by simp) fun s' hs' ha' => ?_
      simp only [Res.bind_ok]
      by_cases hm : x % S = 0
      · rw [hm, short_zero, spell_zero _ _ (unitsOf_pos _ _)]
        have hl : ∀ s, shortLoop cfg T chars large r (10 ^ shortE r) 0 s false = .ok (0, s, false) := by
          intro s; cases r <;> simp [shortLoop]
        rw [hl]
        unfold shortEnd
        simp only [↓reduceIte, Res.bind_ok, ne_eq, not_true_eq_false]
        exact .ok _ _ (by simpa using hs') (by simpa using ha')
      · have hmod : x % S < S := Nat.mod_lt _ hSpos
        have := ih (x % S) (ts ++ [.num (x / S), .large (r + 1)]) s' false hm (by omega) (by simp) (by simpa using hs')
          (by simpa using ha')
        have hz : needsZero .short S (x % S) = decide (x % S < 10 ^ shortE r) := by
          simp only [needsZero]
          congr 1
          apply propext
          omega
        rw [hz]
        simpa using this

theorem shortRankAt_eq (cfg : Cfg) (T : IntTy) (formal : Bool) (chars large : List Char) (n r sc : Nat) :
    formatShortRankAt cfg T formal chars large n r sc =
      (shortLoop cfg T chars large r sc n NStr.new false).bind (shortEnd cfg formal chars) := rfl

theorem short_del {cfg : Cfg} {T : IntTy} {chars large : List Char} {gl : CTok → Char} (hg : GlyphsOf chars large gl) (formal : Bool)
    {n : Nat} (hn : n < 2 ^ T.bits cfg) (h4 : 10000 ≤ n) (h15 : n < 10 ^ 15) :
    Del cfg.alloc ChineseFormatError.outOfMemory (formatShortRank cfg T formal chars large n 10)
      ((spellWith (needsZero .short) (scaleUnits .short) n).map gl) := by
  have key : ∀ r k, r + k = 10 → 10 ^ shortE r < 2 ^ T.bits cfg → n < 10 * 10 ^ shortE r →
      formatShortRank cfg T formal chars large n 10 = formatShortRankAt cfg T formal chars large n r (10 ^ shortE r) →
      Del cfg.alloc ChineseFormatError.outOfMemory (formatShortRank cfg T formal chars large n 10)
        ((spellWith (needsZero .short) (scaleUnits .short) n).map gl) := by
    intro r k hk h1 h2 h3
    rw [h3, shortRankAt_eq]
    have := short_loop_del hg formal r (by omega) h1 n [] NStr.new false (by omega) h2 (fun _ => h4) NStr.new_is (.inr (by simp))
    have hm := spell_more (z := needsZero .short) (e := shortE) (m := r + 1) (x := n) k (by
      intro i h1 h2
      have : 10 ^ shortE (r + 1) ≤ 10 ^ shortE i := Nat.pow_le_pow_right (by omega) (by simp only [shortE]; omega)
      have e : 10 ^ shortE (r + 1) = 10 * 10 ^ shortE r := by
        show 10 ^ (4 + r + 1) = _
        rw [Nat.pow_succ]; simp only [shortE]; omega
      omega)
    rw [show r + 1 + k = 11 by omega] at hm
    rw [scaleUnits, hm]
    simpa using this
  rcases bits_cases cfg T with hb | hb | hb | hb | hb
  · rw [hb] at hn; omega
  · exact key 0 10 rfl (by rw [hb]; decide) (by rw [hb] at hn; show n < 10 * 10 ^ 4; omega)
      (by simp [formatShortRank, SHORT_SCALE, IntTy.tryFrom, hb, Res.ofIndex, Res.bind, shortE])
  · exact key 5 5 rfl (by rw [hb]; decide) (by rw [hb] at hn; show n < 10 * 10 ^ 9; omega)
      (by simp [formatShortRank, SHORT_SCALE, IntTy.tryFrom, hb, Res.ofIndex, Res.bind, shortE])
  · exact key 10 0 rfl (by rw [hb]; decide) (by show n < 10 * 10 ^ 14; omega)
      (by simp [formatShortRank, SHORT_SCALE, IntTy.tryFrom, hb, Res.ofIndex, Res.bind, shortE])
  · exact key 10 0 rfl (by rw [hb]; decide) (by show n < 10 * 10 ^ 14; omega)
      (by simp [formatShortRank, SHORT_SCALE, IntTy.tryFrom, hb, Res.ofIndex, Res.bind, shortE])

theorem short_out_of_bounds {cfg : Cfg} {T : IntTy} {chars large : List Char} (formal : Bool)
    {n : Nat} (hn : n < 2 ^ T.bits cfg) (h15 : 10 ^ 15 ≤ n) :
    formatShortRank cfg T formal chars large n 10 = .err .outOfBounds := by
  have h14 : 10 ^ 14 < 2 ^ T.bits cfg := by omega
  have h0 : ¬ n = 0 := by omega
  have h1 : n / 10 ^ 14 ≥ 10 := by omega
  have hget : SHORT_SCALE[9 + 1]? = some (10 ^ 14) := by decide
  rw [formatShortRank, hget]
  simp only [Res.ofIndex, Res.bind_ok, tryFrom_some h14]
  rw [shortRankAt_eq, shortLoop, if_neg h0, shortBody]
  simp only [divT, show ¬ 10 ^ 14 = 0 by decide, if_neg, Res.bind_ok, not_false_eq_true, if_pos h1]
  rfl

/-! ## The whole formatter -/

theorem glyphs_of (k : ChineseKind) (u : ChineseUsage) :
    GlyphsOf (k.characters u) k.large (chineseGlyph (isTraditional k) (u = .financial)) := by
  have num : ∀ k u d, d ≠ 0 → d < 10 →
      (ChineseKind.characters k u)[d]? = some (chineseGlyph (isTraditional k) (u = .financial) (.num d)) := by
    intro k u d h0 h
    have : d = 1 ∨ d = 2 ∨ d = 3 ∨ d = 4 ∨ d = 5 ∨ d = 6 ∨ d = 7 ∨ d = 8 ∨ d = 9 := by omega
    rcases this with rfl | rfl | rfl | rfl | rfl | rfl | rfl | rfl | rfl <;> cases k <;> cases u <;> rfl
  have large : ∀ k u i, i < 11 → (ChineseKind.large k)[i]? = some (chineseGlyph (isTraditional k) (u = ChineseUsage.financial) (.large i)) := by
    intro k u i h
    have : i = 0 ∨ i = 1 ∨ i = 2 ∨ i = 3 ∨ i = 4 ∨ i = 5 ∨ i = 6 ∨ i = 7 ∨ i = 8 ∨ i = 9 ∨ i = 10 := by omega
    rcases this with rfl | rfl | rfl | rfl | rfl | rfl | rfl | rfl | rfl | rfl | rfl <;> cases k <;> cases u <;> rfl
  refine ⟨?_, num k u, ?_, ?_, ?_, large k u⟩ <;> cases k <;> cases u <;> rfl

theorem formal_eq (k : ChineseKind) : k.formal = isFormal k := by cases k <;> rfl

theorem scaleUnits_small (z : Nat → Nat → Bool) (scale : ChineseScale) {n : Nat} (h : n < 10000) :
    spellWith z (scaleUnits scale) n = spellWith z sectionUnits n := by
  have key : ∀ e k, (∀ i, 4 ≤ e i) → spellWith z (unitsOf e k) n = spellWith z sectionUnits n := by
    intro e k he
    have := spell_more (z := z) (e := e) (m := 0) (x := n) k (by
      intro i _ _
      have : 10 ^ 4 ≤ 10 ^ e i := Nat.pow_le_pow_right (by omega) (he i)
      omega)
    rw [Nat.zero_add] at this
    exact this
  cases scale
  · exact key _ _ (by intro i; omega)
  · exact key _ _ (by intro i; omega)
  · exact key _ _ (by intro i; split <;> omega)
  · exact key _ _ (by intro i; have : 1 ≤ 2 ^ i := Nat.pow_pos (by omega); omega)

theorem short_leads (z : Nat → Nat → Bool) : ∀ (r x : Nat), 10000 ≤ x → x < 10 * 10 ^ shortE r →
    ∃ d i rest, spellWith z (unitsOf shortE (r + 1)) x = .num d :: .large i :: rest := by
  intro r
  induction r with
  | zero =>
    intro x h1 h2
    have h2 : x < 10 * 10000 := h2
    rw [unitsOf, spellWith]
    have e : 10 ^ shortE 0 = 10000 := by decide
    rw [e, if_neg (by omega), spell_digit _ _ (unitsOf_ge10 _ (by intro i; simp only [shortE]; omega) _) (by omega), if_neg (by omega)]
    exact ⟨_, _, _, rfl⟩
  | succ r ih =>
    intro x h1 h2
    have hsc : 10 ^ shortE (r + 1) = 10 * 10 ^ shortE r := by
      show 10 ^ (4 + r + 1) = _
      rw [Nat.pow_succ]; simp only [shortE]; omega
    rw [unitsOf, spellWith]
    by_cases h : x < 10 ^ shortE (r + 1)
    · rw [if_pos h]
      exact ih x h1 (by omega)
    · have hpos : 0 < 10 ^ shortE (r + 1) := Nat.pow_pos (by omega)
      have hd : x / 10 ^ shortE (r + 1) < 10 := by rw [Nat.div_lt_iff_lt_mul hpos]; omega
      have h0 : ¬ x / 10 ^ shortE (r + 1) = 0 := by
        intro h
        have := (Nat.div_eq_zero_iff (a := x) (b := 10 ^ shortE (r + 1))).mp h
        omega
      rw [if_neg h, spell_digit _ _ (unitsOf_ge10 _ (by intro i; simp only [shortE]; omega) _) hd, if_neg h0]
      exact ⟨_, _, _, rfl⟩

theorem format_del {cfg : Cfg} {T : IntTy} {chars large : List Char} {gl : CTok → Char} (hg : GlyphsOf chars large gl) (formal : Bool)
    (scale : ChineseScale) {n : Nat} (hn : n < 2 ^ T.bits cfg) (h4 : 10000 ≤ n) (hs : scale = .short → n < 10 ^ 15) :
    Del cfg.alloc ChineseFormatError.outOfMemory (scale.format cfg T formal chars large n)
      ((if formal then spellWith (needsZero scale) (scaleUnits scale) n
        else dropLeadingOne (spellWith (needsZero scale) (scaleUnits scale) n)).map gl) := by
  cases scale
  · have h15 := hs rfl
    have := short_del hg formal hn h4 h15
    obtain ⟨d, i, rest, e⟩ := short_leads (needsZero .short) 10 n h4 (by show n < 10 * 10 ^ 14; omega)
    have e' : dropLeadingOne (spellWith (needsZero .short) (scaleUnits .short) n) = spellWith (needsZero .short) (scaleUnits .short) n := by
      rw [scaleUnits, e]
      match d with
      | 0 | 1 | d + 2 => rfl
    rw [e', ite_self]
    exact this
  · exact myriad_del hg formal hn h4
  · exact mid_del hg formal hn h4
  · exact long_del hg formal hn h4

/-- Everything the Chinese formatter writes. -/
theorem chinese_del {cfg : Cfg} {T : IntTy} {n : Nat} (k : ChineseKind) (o : ChineseOptions) (hn : T.Fits cfg n)
    (hs : o.scale = .short → n < 10 ^ 15) :
    Del cfg.alloc (Error.outOfMemory n) (chineseTryFormat k o cfg T n) (chineseText k o n) := by
  have hg := glyphs_of k o.usage
  unfold chineseTryFormat formatChinese chineseText chineseTokens
  by_cases h0 : n = 0
  · subst h0
    rw [if_pos rfl, if_pos rfl, hg.zero]
    simp only [Res.ofIndex, Res.bind_ok]
    exact ofChar_del _ _ _
  · simp only [if_neg h0]
    have small : n < 10000 → Del cfg.alloc (Error.outOfMemory n)
        (((chineseInner cfg k.formal (k.characters o.usage) n true false).mapErr fun _ => Error.outOfMemory n).map Prod.fst)
        ((if isFormal k = true then spellWith (needsZero o.scale) (scaleUnits o.scale) n
          else dropLeadingOne (spellWith (needsZero o.scale) (scaleUnits o.scale) n)).map
            (chineseGlyph (isTraditional k) (o.usage = .financial))) := by
      intro h
      rw [scaleUnits_small _ _ h, ← formal_eq]
      exact ((inner_first_del hg k.formal (sectionRule o.scale) h0 h).mapErr fun _ => Error.outOfMemory n).fst
    by_cases hT : 10000 < 2 ^ T.bits cfg
    · rw [tryFrom_some hT]
      simp only
      by_cases h4 : n ≥ 10000
      · rw [if_pos h4, ← formal_eq]
        have := format_del hg k.formal o.scale hn h4 hs
        generalize o.scale.format cfg T k.formal (k.characters o.usage) k.large n = r at *
        cases this with
        | ok s t h1 h2 => exact .ok _ _ h1 h2
        | err t h1 h2 => exact .err _ h1 h2
      · rw [if_neg h4]
        exact small (by omega)
    · have e : T.tryFrom cfg 10000 = none := by simp [IntTy.tryFrom]; omega
      rw [e]
      exact small (by have : n < 2 ^ T.bits cfg := hn; omega)

theorem chinese_out_of_bounds {cfg : Cfg} {T : IntTy} {n : Nat} (k : ChineseKind) (o : ChineseOptions) (hn : T.Fits cfg n)
    (hs : o.scale = .short) (h15 : 10 ^ 15 ≤ n) : chineseTryFormat k o cfg T n = .err (.outOfBounds n) := by
  have hn : n < 2 ^ T.bits cfg := hn
  unfold chineseTryFormat formatChinese
  rw [if_neg (by omega), tryFrom_some (by omega)]
  simp only [show n ≥ 10000 by omega, ↓reduceIte]
  rw [hs, ChineseScale.format, short_out_of_bounds _ hn h15]
  rfl

end Nominals
