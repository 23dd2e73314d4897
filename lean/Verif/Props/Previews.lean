import Verif.Model.Previews
import Verif.Props.Lib
import Verif.Props.Digits
import Verif.Props.Work
import Verif.Props.Shape
import Verif.Props.Fallback

/-!
# Property C76: the tables of the documentation
-/

namespace Nominals.Props

open Nominals.Spec

/-- The numbers of a table with a mark (`none`) wherever two neighbours are not consecutive. -/
def withGaps : List Nat → List (Option Nat)
  | [] => []
  | [v] => [some v]
  | v :: w :: rest => some v :: ((if w = v + 1 then [] else [none]) ++ withGaps (w :: rest))

/-- The two columns of a row: a number and its name, or the mark. -/
def columns (name : Nat → List Char) : Option Nat → List Char × List Char
  | some v => (Nat.toDigits 10 v, name v)
  | none => (['…'], ['…'])

/-- A printed row: both columns followed by blanks. -/
def rowLine (D : Nat) (cells : List Char → Nat) (P : Nat) (r : List Char × List Char) : List Char :=
  ['|', ' '] ++ r.1 ++ List.replicate (D - r.1.length) ' ' ++ [' ', '|', ' '] ++ r.2 ++ List.replicate (P - cells r.2) ' ' ++ [' ', '|', '\n']

theorem preview_first {ε : Type} (base : Nat) : ∀ (k i : Nat), base + i + k < 2 ^ 32 →
    previewFirst (ε := ε) base k i = .ok ((List.range' i k).map (base + ·)) := by
  intro k
  induction k with
  | zero => intros; rfl
  | succ k ih =>
    intro i h
    rw [previewFirst, addU32, if_pos (by omega), Res.bind_ok, ih (i + 1) (by omega), Res.bind_ok]
    rfl

/-- The first number of a collection's table. -/
def firstNumber (c : Coll) : Nat := if c.hasZero || c.zeroBased then 0 else 1

theorem preview_values (cfg : Cfg) (c : Coll) : previewValues (ε := Empty) cfg c =
    if (c.len = 0 ∧ firstNumber c = 0) ∨ 2 ^ 16 ≤ c.len then .panic
    else .ok ((List.range (max 1 (min c.len 5))).map (firstNumber c + ·) ++ (if 5 < c.len then [firstNumber c + c.len - 1] else []) ++
      [firstNumber c + c.len, firstNumber c + c.len + 1, firstNumber c + c.len + 2, firstNumber c + c.len * c.len - 1,
        firstNumber c + c.len * c.len, firstNumber c + c.len * c.len + 1, firstNumber c + c.len * c.len + 2]) := by
  have hb : firstNumber c ≤ 1 := by unfold firstNumber; split <;> omega
  unfold previewValues
  by_cases h32 : 2 ^ 32 ≤ c.len
  · rw [if_pos (show (c.len = 0 ∧ firstNumber c = 0) ∨ 2 ^ 16 ≤ c.len from .inr (by omega)), IntTy.tryFrom, if_neg (by simpa [IntTy.bits] using h32)]
  rw [IntTy.tryFrom, if_pos (by simpa [IntTy.bits] using h32)]
  dsimp only
  generalize hbase : (if (c.hasZero || c.zeroBased) = true then 0 else 1) = base
  have hbase' : firstNumber c = base := hbase
  rw [hbase'] at hb ⊢
  generalize c.len = L at *
  have hmin : min L 5 ≤ 5 := Nat.min_le_right _ _
  rw [preview_first base _ _ (by omega), Res.bind_ok]
  by_cases h16 : L < 2 ^ 16
  · have hsq : L * L ≤ 65535 * 65535 := Nat.mul_le_mul (by omega) (by omega)
    have hfirst : base :: (List.range' 1 (min L 5 - 1)).map (base + ·) = (List.range (max 1 (min L 5))).map (base + ·) := by
      rw [show max 1 (min L 5) = (min L 5 - 1) + 1 by omega, List.range_succ_eq_map, List.map_cons, Nat.add_zero, List.map_map,
        List.range'_eq_map_range, List.map_map]
      congr 2
      funext i
      simp only [Function.comp]
      omega
    have hlast : (if min L 5 ≠ L then
        (addU32 base L).bind fun v => (subU32 v 1).bind fun v => Res.ok (ε := Empty) [v] else .ok []) =
        .ok (if 5 < L then [base + L - 1] else []) := by
      by_cases h5 : 5 < L
      · rw [if_pos h5, if_pos (by omega), addU32, if_pos (by omega), Res.bind_ok, subU32, if_pos (by omega), Res.bind_ok]
      · rw [if_neg h5, if_neg (by omega)]
    rw [hlast, Res.bind_ok]
    simp only [addU32, mulU32]
    rw [if_pos (by omega), Res.bind_ok, if_pos (by omega), Res.bind_ok, if_pos (by omega), Res.bind_ok, if_pos (by omega), Res.bind_ok,
      if_pos (by omega), Res.bind_ok]
    rw [← hfirst]
    by_cases h0 : L = 0 ∧ base = 0
    · rw [if_pos (show (L = 0 ∧ base = 0) ∨ 2 ^ 16 ≤ L from .inl h0), subU32, if_neg (by rw [h0.1, h0.2]; decide)]; rfl
    · have : 1 ≤ base + L * L := by
        rcases Nat.eq_zero_or_pos L with h | h
        · omega
        · have := Nat.mul_pos h h; omega
      rw [if_neg (show ¬ ((L = 0 ∧ base = 0) ∨ 2 ^ 16 ≤ L) by omega), subU32, if_pos this, Res.bind_ok, if_pos (by omega), Res.bind_ok, if_pos (by omega), Res.bind_ok]
  · rw [if_pos (show (L = 0 ∧ base = 0) ∨ 2 ^ 16 ≤ L from .inr (by omega))]
    have hsq : 65536 * 65536 ≤ L * L := Nat.mul_le_mul (by omega) (by omega)
    simp only [mulU32, show ¬ (L * L < 2 ^ 32) by omega, if_false]
    have pan : ∀ {α β : Type} (r : Res Empty α), (r = .panic ∨ ∃ a, r = .ok a) → ∀ f : α → Res Empty β, (∀ a, f a = .panic) → r.bind f = .panic := by
      intro α β r hr f hf
      rcases hr with rfl | ⟨a, rfl⟩
      · rfl
      · exact hf a
    have add : ∀ a b, addU32 (ε := Empty) a b = .panic ∨ ∃ v, addU32 (ε := Empty) a b = .ok v := by
      intro a b; unfold addU32; split
      · exact .inr ⟨_, rfl⟩
      · exact .inl rfl
    have sub : ∀ a b, subU32 (ε := Empty) a b = .panic ∨ ∃ v, subU32 (ε := Empty) a b = .ok v := by
      intro a b; unfold subU32; split
      · exact .inr ⟨_, rfl⟩
      · exact .inl rfl
    refine pan _ ?_ _ fun _ => pan _ (add _ _) _ fun _ => pan _ (add _ _) _ fun _ => pan _ (add _ _) _ fun _ => rfl
    split
    · rcases add base L with h | ⟨v, h⟩ <;> rw [h]
      · exact .inl rfl
      · rcases sub v 1 with h | ⟨v, h⟩ <;> rw [Res.bind_ok, h]
        · exact .inl rfl
        · exact .inr ⟨_, rfl⟩
    · exact .inr ⟨_, rfl⟩

/-- C76. The numbers shown for a digit collection of `len` symbols counting from `b` (0, or 1 if it has neither a zero digit nor is
zero-based): the first five, and those around `b + len` and `b + len²`. They are in order, without repetition, exactly if there are at
least three symbols. The generator panics exactly for an empty collection counting from 0 and for 65,536 or more symbols. -/
theorem C76_values (cfg : Cfg) (c : Coll) (b : Nat) (hb : b = if c.hasZero || c.zeroBased then 0 else 1) :
    (previewValues (ε := Empty) cfg c = .panic ↔ (c.len = 0 ∧ b = 0) ∨ 2 ^ 16 ≤ c.len) ∧
    (1 ≤ c.len → c.len < 2 ^ 16 → ∃ vs, previewValues (ε := Empty) cfg c = .ok vs ∧
      (∀ v, v ∈ vs ↔ (b ≤ v ∧ v < b + 5 ∧ v < b + c.len) ∨ (b + c.len ≤ v + 1 ∧ v ≤ b + c.len + 2) ∨
        (b + c.len * c.len ≤ v + 1 ∧ v ≤ b + c.len * c.len + 2)) ∧
      (vs.Pairwise (· < ·) ↔ 3 ≤ c.len)) := by
  have hb' : firstNumber c = b := hb.symm
  rw [preview_values, hb']
  generalize c.len = L
  refine ⟨by split <;> simp_all, fun h1 h2 => ?_⟩
  rw [if_neg (by omega)]
  refine ⟨_, rfl, fun v => ?_, ?_⟩
  · rw [show max 1 (min L 5) = min L 5 by omega]
    have hsq : 1 ≤ L * L := Nat.mul_pos h1 h1
    generalize L * L = S at *
    simp only [List.mem_append, List.mem_map, List.mem_range, List.mem_cons, List.not_mem_nil, or_false]
    have first : (∃ a, a < min L 5 ∧ b + a = v) ↔ b ≤ v ∧ v < b + 5 ∧ v < b + L :=
      ⟨fun ⟨a, h, e⟩ => by omega, fun h => ⟨v - b, by omega, by omega⟩⟩
    rw [first]
    split
    · simp only [List.mem_cons, List.not_mem_nil, or_false]; omega
    · simp only [List.not_mem_nil, or_false]; omega
  · by_cases h3 : 3 ≤ L
    · simp only [h3, iff_true]
      have hsq : 3 * L ≤ L * L := Nat.mul_le_mul_right L h3
      generalize L * L = S at *
      rw [List.pairwise_append, List.pairwise_append]
      refine ⟨⟨?_, by split <;> simp, ?_⟩, ?_, ?_⟩
      · rw [List.pairwise_map]
        exact List.pairwise_lt_range.imp fun h => by omega
      · intro x hx y hy
        simp only [List.mem_map, List.mem_range] at hx
        obtain ⟨a, ha, rfl⟩ := hx
        split at hy
        · simp only [List.mem_cons, List.not_mem_nil, or_false] at hy; omega
        · cases hy
      · simp only [List.pairwise_cons, List.mem_cons, List.not_mem_nil, or_false, List.Pairwise.nil, and_true, forall_eq_or_imp, forall_eq, false_imp_iff, implies_true]
        omega
      · intro x hx y hy
        have hx' : x < b + L := by
          rcases List.mem_append.mp hx with hx | hx
          · simp only [List.mem_map, List.mem_range] at hx
            obtain ⟨a, ha, rfl⟩ := hx
            omega
          · split at hx
            · simp only [List.mem_cons, List.not_mem_nil, or_false] at hx; omega
            · cases hx
        simp only [List.mem_cons, List.not_mem_nil, or_false] at hy
        omega
    · have : L = 1 ∨ L = 2 := by omega
      rcases this with rfl | rfl
      · simp [List.range, List.range.loop]
      · simp [List.range, List.range.loop]

/-- The 26 letters, and a collection of two: 4 follows 5, and is shown again. -/
example : previewValues (ε := Empty) ⟨true, .w64, true⟩ (letterLower.level 0) = .ok [0, 1, 2, 3, 4, 25, 26, 27, 28, 675, 676, 677, 678] ∧
    previewValues (ε := Empty) ⟨true, .w64, true⟩ ((DigitSys.digitSetZeroless ['a', 'b']).oneBased.level 0) =
      .ok [1, 2, 3, 4, 5, 4, 5, 6, 7] := by decide +kernel

theorem borrowed_ok {ε : Type} {s : NStr} {t : List Char} (h : s.asStr = some t) : borrowed (ε := ε) s = .ok t := by
  rw [borrowed, h]

theorem ofChar_text (cfg : Cfg) (ch : Char) : ∃ s, NStr.ofChar (ε := Empty) cfg ch = .ok s ∧ s.asStr = some [ch] := by
  have h := ofChar_del (ε := Unit) cfg ch ()
  have hs : utf8Len [ch] ≤ 62 := by have := utf8Size_le ch; simp [utf8Len]; omega
  unfold NStr.ofChar at h ⊢
  generalize NStr.push cfg NStr.new ch = r at h
  cases r with
  | ok s =>
    cases h with
    | ok _ _ h1 _ => exact ⟨s, rfl, h1.1.asStr⟩
  | _ =>
    exfalso
    cases h <;> omega

theorem decimal_text {cfg : Cfg} {v : Nat} (hv : v < 2 ^ 32) :
    ∃ s, toNominal cfg .u32 v Named.decimal.system = .ok s ∧ s.asStr = some (Nat.toDigits 10 v) := by
  have h := (C41_any_system (cfg := cfg) (T := .u32) (n := v) Named.decimal.system rfl).1 _
    (C47_decimal (cfg := cfg) (T := .u32) (show IntTy.Fits cfg .u32 v from hv))
  exact view_ok_iff h

/-- The marks and numbers still to come after `previous`. -/
def gapsAfter (previous : Option Nat) : List Nat → List (Option Nat)
  | [] => []
  | v :: rest => (match previous with
    | some p => if v = p + 1 then [] else [none]
    | none => []) ++ withGaps (v :: rest)

theorem withGaps_cons (v : Nat) (rest : List Nat) : withGaps (v :: rest) = some v :: gapsAfter (some v) rest := by
  cases rest <;> rfl

/-- The texts of collected rows. -/
def texts (rs : List (NStr × NStr)) : List (Option (List Char) × Option (List Char)) := rs.map fun r => (r.1.asStr, r.2.asStr)

theorem preview_loop {cfg : Cfg} (cells : List Char → Nat) (s : NominalSystem) (text : Nat → List Char) :
    ∀ (values : List Nat) (previous : Option Nat) (results : List (NStr × NStr)) (D P : Nat),
    (∀ v ∈ values, v + 1 < 2 ^ 32) → (∀ p ∈ previous, p + 1 < 2 ^ 32) →
    (∀ v ∈ values, ∃ i, view (toNominal cfg .u32 v s) = .ok (text v, i)) →
    ∃ rs, previewLoop cfg cells s values previous results D P =
        .ok (results ++ rs, values.foldl (fun d v => max d (utf8Len (Nat.toDigits 10 v))) D,
          values.foldl (fun p v => max p (cells (text v))) P) ∧
      texts rs = (gapsAfter previous values).map fun r => (some (columns text r).1, some (columns text r).2) := by
  intro values
  induction values with
  | nil => intro previous results D P _ _ _; exact ⟨[], by simp [previewLoop], rfl⟩
  | cons v rest ih =>
    intro previous results D P h32 hp ht
    obtain ⟨i, hv⟩ := ht v (by simp)
    obtain ⟨nom, hnom, hnt⟩ := view_ok_iff hv
    obtain ⟨dec, hdec, hdt⟩ := decimal_text (cfg := cfg) (v := v) (by have := h32 v (by simp); omega)
    have hgap : ∃ g, (match previous with
        | some previous =>
          (addU32 previous 1).bind fun next =>
          if next ≠ v then
            (NStr.ofChar cfg '…').bind fun a => (NStr.ofChar cfg '…').bind fun b => Res.ok (ε := Empty) (results ++ [(a, b)])
          else .ok results
        | none => Res.ok results) = .ok (results ++ g) ∧
        texts g = (match previous with
          | some p => if v = p + 1 then [] else [none]
          | none => []).map fun r => (some (columns text r).1, some (columns text r).2) := by
      cases previous with
      | none => exact ⟨[], by simp, rfl⟩
      | some p =>
        have := hp p rfl
        obtain ⟨e, he, het⟩ := ofChar_text cfg '…'
        dsimp only
        rw [addU32, if_pos this, Res.bind_ok]
        by_cases hv : v = p + 1
        · exact ⟨[], by rw [if_neg (by omega)]; simp, by rw [if_pos hv]; rfl⟩
        · refine ⟨[(e, e)], by rw [if_pos (by omega), he]; rfl, ?_⟩
          rw [if_neg hv]
          simp [texts, het, columns]
    obtain ⟨g, hg, hgt⟩ := hgap
    obtain ⟨rs, hrs, hrt⟩ := ih (some v) (results ++ g ++ [(dec, nom)]) (max D (utf8Len (Nat.toDigits 10 v))) (max P (cells (text v)))
      (fun w hw => h32 w (by simp [hw])) (fun p hp => by cases hp; exact h32 v (by simp)) (fun w hw => ht w (by simp [hw]))
    refine ⟨g ++ (dec, nom) :: rs, ?_, ?_⟩
    · refine (congrArg (fun r => Res.bind r _) hg).trans ?_
      rw [Res.bind_ok, hdec, Res.bind_ok, borrowed_ok hdt, Res.bind_ok]
      have hnom' : s.format cfg .u32 v = .ok nom := hnom
      rw [hnom', Res.bind_ok, borrowed_ok hnt, Res.bind_ok, hrs]
      simp
    · have e : gapsAfter previous (v :: rest) = _ ++ withGaps (v :: rest) := rfl
      rw [e, withGaps_cons, List.map_append, List.map_cons, ← hgt, ← hrt]
      simp [texts, hdt, hnt, columns]

theorem strDisplay_left (w : Nat) (t : List Char) : strDisplay { width := some w } t = t ++ List.replicate (w - t.length) ' ' := by
  simp [strDisplay, fmtCut, fmtPadding]

theorem strDisplay_rule (w : Nat) : strDisplay { fill := '-', align := some .center, width := some w } [] = List.replicate w '-' := by
  simp only [strDisplay, fmtCut, fmtPadding, Option.getD_some, List.length_nil, Nat.sub_zero, List.append_nil, List.replicate_append_replicate]
  congr 1
  omega

theorem preview_print (cells : List Char → Nat) (D P : Nat) : ∀ (rs : List (NStr × NStr)) (cols : List (List Char × List Char))
    (lines : List (List Char)) (oneLine : List Char),
    texts rs = cols.map (fun r => (some r.1, some r.2)) → (∀ r ∈ cols, cells r.2 ≤ P) →
    ∃ out, previewPrint cells D P rs lines oneLine = .ok (lines ++ cols.map (rowLine D cells P), out) ∧
      ((∀ r ∈ cols, r.2 ≠ []) → out = (if oneLine = [] then [] else if cols = [] then oneLine else oneLine ++ ['\u200e', ' ']) ++
        (['\u200e', ' '] : List Char).intercalate (cols.map Prod.snd)) := by
  intro rs
  induction rs with
  | nil =>
    intro cols lines oneLine hc _
    cases cols with
    | nil => exact ⟨oneLine, by simp [previewPrint], fun _ => by simp [List.intercalate]⟩
    | cons => simp [texts] at hc
  | cons r rs ih =>
    intro cols lines oneLine hc hw
    cases cols with
    | nil => simp [texts] at hc
    | cons c cols =>
      obtain ⟨a, b⟩ := r
      simp only [texts, List.map_cons, List.cons.injEq, Prod.mk.injEq] at hc
      obtain ⟨⟨ha, hb⟩, hc⟩ := hc
      have hcw := hw c (by simp)
      obtain ⟨out, h1, h2⟩ := ih cols (lines ++ [rowLine D cells P c])
        ((if oneLine.isEmpty then oneLine else oneLine ++ ['\u200e', ' ']) ++ c.2) hc fun r hr => hw r (by simp [hr])
      refine ⟨out, ?_, fun hne => ?_⟩
      · rw [previewPrint, borrowed_ok ha, Res.bind_ok, borrowed_ok hb, Res.bind_ok]
        dsimp only
        rw [subU32, if_pos (by omega), Res.bind_ok, strDisplay_left, strDisplay_left,
          show P + c.2.length - cells c.2 - c.2.length = P - cells c.2 by omega]
        rw [show lines ++ List.map (rowLine D cells P) (c :: cols) = lines ++ [rowLine D cells P c] ++ List.map (rowLine D cells P) cols by simp]
        rw [← h1]
        congr 2
        simp [rowLine]
      · rw [h2 fun r hr => hne r (by simp [hr])]
        have hcne := hne c (by simp)
        cases oneLine with
        | nil =>
          cases cols <;> simp [hcne, List.intercalate]
        | cons x xs =>
          cases cols <;> simp [List.intercalate]

theorem foldl_max {f : Nat → Nat} : ∀ (l : List Nat) (a : Nat),
    a ≤ l.foldl (fun d v => max d (f v)) a ∧ (∀ v ∈ l, f v ≤ l.foldl (fun d v => max d (f v)) a) ∧
    (l.foldl (fun d v => max d (f v)) a = a ∨ ∃ v ∈ l, f v = l.foldl (fun d v => max d (f v)) a) := by
  intro l
  induction l with
  | nil => intro a; simp
  | cons v l ih =>
    intro a
    obtain ⟨h1, h2, h3⟩ := ih (max a (f v))
    simp only [List.foldl_cons, List.mem_cons, forall_eq_or_imp]
    refine ⟨by omega, ⟨by omega, h2⟩, ?_⟩
    rcases h3 with h3 | ⟨w, hw, h3⟩
    · by_cases hle : f v ≤ a
      · left; rw [h3]; omega
      · right; exact ⟨v, .inl rfl, by rw [h3]; omega⟩
    · exact .inr ⟨w, .inr hw, h3⟩

theorem decimal_utf8 (v : Nat) : utf8Len (Nat.toDigits 10 v) = (Nat.toDigits 10 v).length := by
  have h : ∀ c ∈ Nat.toDigits 10 v, c.isDigit = true := decimal_isDigit
  revert h
  generalize Nat.toDigits 10 v = t
  induction t with
  | nil => intro _; rfl
  | cons c t ih =>
    intro h
    have hc : c.utf8Size = 1 := by
      have := h c (by simp)
      simp only [Char.isDigit, Bool.and_eq_true, decide_eq_true_eq] at this
      exact Char.utf8Size_eq_one_iff.2 (by
        have h1 := this.2
        exact UInt32.le_trans h1 (by decide))
    rw [utf8Len_cons, ih fun c hc => h c (by simp [hc]), hc, List.length_cons, Nat.add_comm]

theorem mem_withGaps {v : Nat} : ∀ {l : List Nat}, some v ∈ withGaps l ↔ v ∈ l := by
  intro l
  induction l with
  | nil => simp [withGaps]
  | cons w l ih =>
    cases l with
    | nil => simp [withGaps]
    | cons x l =>
      rw [withGaps]
      have : some v ∉ (if x = w + 1 then ([] : List (Option Nat)) else [none]) := by split <;> simp
      simp only [List.mem_cons (a := some v) (b := some w), List.mem_append, this, false_or, ih, Option.some.injEq]
      rw [List.mem_cons (b := w)]

/-- C76. The table of any system: the numbers of the list, in order, with a row of `…` wherever two neighbours are not consecutive; each
number in decimal beside its name; every row filled with blanks to the same two widths, which are the largest that occur. In the line of
the heading the name is filled to the same width, except if that is exactly four more than its own. -/
theorem C76_table {cfg : Cfg} (cells : List Char → Nat) (name : List Char) (s : NominalSystem) (values : List Nat) (text : Nat → List Char)
    (h32 : ∀ v ∈ values, v + 1 < 2 ^ 32) (ht : ∀ v ∈ values, ∃ i, view (toNominal cfg .u32 v s) = .ok (text v, i))
    (hname : cells ['…'] ≤ utf8Len name) :
    ∃ D P index, preview cfg cells name s values =
        .ok ((['|', ' ', '#'] ++ List.replicate (D - 1) ' ' ++ [' ', '|', ' '] ++ name ++
              List.replicate ((if utf8Len name + 4 = P then utf8Len name else P) - name.length) ' ' ++ [' ', '|', '\n']) ::
            (['|', '-'] ++ List.replicate D '-' ++ ['-', '|', '-'] ++ List.replicate P '-' ++ ['-', '|', '\n']) ::
            (withGaps values).map (fun r => rowLine D cells P (columns text r)), index) ∧
      (∀ r ∈ withGaps values, (columns text r).1.length ≤ D ∧ cells (columns text r).2 ≤ P) ∧
      1 ≤ D ∧ (D = 1 ∨ ∃ v ∈ values, (Nat.toDigits 10 v).length = D) ∧
      utf8Len name ≤ P ∧ (P = utf8Len name ∨ ∃ v ∈ values, cells (text v) = P) ∧
      ((∀ v ∈ values, text v ≠ []) →
        index = (['\u200e', ' '] : List Char).intercalate ((withGaps values).map fun r => (columns text r).2)) := by
  obtain ⟨rs, hloop, htexts⟩ := preview_loop (cfg := cfg) cells s text values none [] 1 (utf8Len name) h32 (by simp) ht
  have hg : gapsAfter none values = withGaps values := by cases values <;> rfl
  rw [hg] at htexts
  obtain ⟨d1, d2, d3⟩ := foldl_max (f := fun v => utf8Len (Nat.toDigits 10 v)) values 1
  obtain ⟨p1, p2, p3⟩ := foldl_max (f := fun v => cells (text v)) values (utf8Len name)
  rw [List.nil_append] at hloop
  revert hloop d1 d2 d3 p1 p2 p3
  generalize values.foldl (fun d v => max d (utf8Len (Nat.toDigits 10 v))) 1 = D
  generalize values.foldl (fun d v => max d (cells (text v))) (utf8Len name) = P
  intro hloop d1 d2 d3 p1 p2 p3
  simp only [decimal_utf8] at d2 d3
  have fits : ∀ r ∈ withGaps values, (columns text r).1.length ≤ D ∧ cells (columns text r).2 ≤ P := by
    intro r hr
    cases r with
    | none => exact ⟨d1, Nat.le_trans hname p1⟩
    | some v => exact ⟨d2 v (mem_withGaps.1 hr), p2 v (mem_withGaps.1 hr)⟩
  have htexts' : texts rs = ((withGaps values).map (columns text)).map fun r => (some r.1, some r.2) := by
    rw [htexts, List.map_map]; rfl
  obtain ⟨out, hout, hidx⟩ := preview_print cells D P rs _ [['|', ' '] ++ strDisplay { width := some D } ['#'] ++ [' ', '|', ' '] ++
    strDisplay { width := some (if utf8Len name + 4 = P then utf8Len name else P) } name ++ [' ', '|', '\n'],
    ['|', '-'] ++ strDisplay { fill := '-', align := some .center, width := some D } [] ++ ['-', '|', '-'] ++
    strDisplay { fill := '-', align := some .center, width := some P } [] ++ ['-', '|', '\n']] [] htexts' (by
      intro r hr
      obtain ⟨x, hx, rfl⟩ := List.mem_map.1 hr
      exact (fits x hx).2)
  refine ⟨D, P, out, ?_, fits, d1, d3, p1, p3, fun hne => ?_⟩
  · rw [preview, hloop, Res.bind_ok]
    refine hout.trans ?_
    rw [strDisplay_left, strDisplay_left, strDisplay_rule, strDisplay_rule, List.map_map]
    simp [Function.comp_def]
  · rw [hidx (by
      intro r hr
      obtain ⟨x, hx, rfl⟩ := List.mem_map.1 hr
      cases x with
      | none => exact (nofun)
      | some v => exact hne v (mem_withGaps.1 hx))]
    simp [Function.comp_def]

/-- The table of `LetterUpper` for 0, 1 and 26, with one cell per character. -/
example : preview ⟨true, .w64, true⟩ List.length ['A', 'B', 'C'] Named.letterUpper.system [0, 1, 26] =
    .ok ([
      ['|', ' ', '#', ' ', ' ', '|', ' ', 'A', 'B', 'C', ' ', '|', '\n'],
      ['|', '-', '-', '-', '-', '|', '-', '-', '-', '-', '-', '|', '\n'],
      ['|', ' ', '0', ' ', ' ', '|', ' ', 'A', ' ', ' ', ' ', '|', '\n'],
      ['|', ' ', '1', ' ', ' ', '|', ' ', 'B', ' ', ' ', ' ', '|', '\n'],
      ['|', ' ', '…', ' ', ' ', '|', ' ', '…', ' ', ' ', ' ', '|', '\n'],
      ['|', ' ', '2', '6', ' ', '|', ' ', 'A', 'A', ' ', ' ', '|', '\n']],
      ['A', '\u200e', ' ', 'B', '\u200e', ' ', '…', '\u200e', ' ', 'A', 'A']) := by decide +kernel

/-- C76. For the systems of the crate the generator neither panics nor hangs, whatever the list of numbers, and the entry of the index
is the row of names. -/
theorem C76_named {cfg : Cfg} (cells : List Char → Nat) (name : List Char) (s : Named) (values : List Nat)
    (h32 : ∀ v ∈ values, v + 1 < 2 ^ 32) (hname : cells ['…'] ≤ utf8Len name) :
    ∃ text lines, (∀ v ∈ values, ∃ i, view (toNominal cfg .u32 v s.system) = .ok (text v, i)) ∧
      preview cfg cells name s.system values =
        .ok (lines, (['\u200e', ' '] : List Char).intercalate ((withGaps values).map fun r => (columns text r).2)) ∧
      lines.length = (withGaps values).length + 2 := by
  have some_text : ∀ v, ∃ t, v < 2 ^ 32 → ∃ i, view (toNominal cfg .u32 v s.system) = .ok (t, i) := by
    intro v
    by_cases hv : v < 2 ^ 32
    · rcases C41_always_succeeds (cfg := cfg) (T := .u32) s (show IntTy.Fits cfg .u32 v from hv) with ⟨⟨t, i⟩, _, h⟩ | ⟨e, _, h⟩
      · exact ⟨t, fun _ => ⟨i, h⟩⟩
      · exact ⟨_, fun _ => ⟨_, h⟩⟩
    · exact ⟨[], fun h => absurd h hv⟩
  obtain ⟨text, htext⟩ := Classical.axiomOfChoice some_text
  have ht : ∀ v ∈ values, ∃ i, view (toNominal cfg .u32 v s.system) = .ok (text v, i) :=
    fun v hv => htext v (by have := h32 v hv; omega)
  obtain ⟨D, P, index, h, _, _, _, _, _, hidx⟩ := C76_table cells name s.system values text h32 ht hname
  rw [hidx fun v hv => by
    obtain ⟨i, hi⟩ := ht v hv
    exact (C65_never_empty s (show IntTy.Fits cfg .u32 v by have := h32 v hv; show v < 2 ^ 32; omega)).2 hi] at h
  exact ⟨text, _, ht, h, by simp⟩

/-- A list with two gaps. -/
example : withGaps [0, 1, 25, 26, 675] = [some 0, some 1, none, some 25, some 26, none, some 675] ∧
    rowLine 3 List.length 11 (columns (fun _ => ['a', 'a']) (some 26)) =
      ['|', ' ', '2', '6', ' ', ' ', '|', ' ', 'a', 'a', ' ', ' ', ' ', ' ', ' ', ' ', ' ', ' ', ' ', ' ', '|', '\n'] := by decide +kernel

/-- C76. What the numbers show: around `len` the step from one symbol to two, for both kinds of collection; around `len²` the step from
two symbols to three if there is a zero digit, but no step at all, only two symbols, if there is none. -/
theorem C76_transitions {cfg : Cfg} {d : DigitSys} {al : List Char} (hp : Plain cfg d al) (h3 : 3 ≤ al.length) (h16 : al.length < 2 ^ 16)
    {v : Nat} {t : List Char} {i : Bool} (h : view (d.tryFormat cfg .u32 v) = .ok (t, i)) :
    ((d.level 0).hasZero = true ∨ (d.level 0).zeroBased = true →
      (v + 1 = al.length → t.length = 1) ∧ (al.length ≤ v → v ≤ al.length + 2 → t.length = 2)) ∧
    ((d.level 0).hasZero = true →
      (v + 1 = al.length * al.length → t.length = 2) ∧ (al.length * al.length ≤ v → v ≤ al.length * al.length + 2 → t.length = 3)) ∧
    ((d.level 0).hasZero = false → (d.level 0).zeroBased = true →
      al.length * al.length ≤ v + 1 → v ≤ al.length * al.length + 2 → t.length = 2) := by
  have hsq : 3 * al.length ≤ al.length * al.length := Nat.mul_le_mul_right _ h3
  have hcu : 3 * (al.length * al.length) ≤ al.length * al.length * al.length := by
    rw [Nat.mul_comm]; exact Nat.mul_le_mul_left _ h3
  have hsq' : al.length * al.length ≤ 65535 * 65535 := Nat.mul_le_mul (by omega) (by omega)
  have fits : v ≤ al.length * al.length + 2 → IntTy.u32.Fits cfg v := fun h => show v < 2 ^ 32 by omega
  have e2 : al.length ^ 2 = al.length * al.length := Nat.pow_two _
  have e3 : al.length ^ 3 = al.length * al.length * al.length := by rw [Nat.pow_succ, e2]
  have w1 : wordsUpTo al.length 1 = al.length := by simp [wordsUpTo]
  have w2 : wordsUpTo al.length 2 = al.length + al.length * al.length := by simp [wordsUpTo]; omega
  have pos := fun hz hv => C48_length_positional hp hz (by omega) (fits hv) h
  have col := fun hz h0 hv => C48_length_columns hp hz h0 (by omega) (fits hv) h
  refine ⟨fun hk => ?_, fun hz => ?_, fun hz h0 => ?_⟩
  · by_cases hz : (d.level 0).hasZero = true
    · refine ⟨fun hv => ?_, fun hv hv' => ?_⟩
      · obtain ⟨p1, p2, p3, _⟩ := pos hz (by omega)
        have := p3 1 (by omega) (by rw [Nat.pow_one]; omega)
        omega
      · obtain ⟨p1, p2, p3, _⟩ := pos hz (by omega)
        have := p3 2 (by omega) (by rw [e2]; omega)
        have : t.length ≠ 1 := fun h1 => by rw [h1, Nat.pow_one] at p2; omega
        omega
    · have hz' : (d.level 0).hasZero = false := by simpa using hz
      have h0 : (d.level 0).zeroBased = true := hk.resolve_left hz
      refine ⟨fun hv => ?_, fun hv hv' => ?_⟩
      · obtain ⟨p1, p2, p3, _⟩ := col hz' h0 (by omega)
        have := p3 1 (by omega)
        omega
      · obtain ⟨p1, p2, p3, _⟩ := col hz' h0 (by omega)
        have := p3 2 (by omega)
        have : t.length ≠ 1 := fun h1 => by rw [h1, w1] at p2; omega
        omega
  · refine ⟨fun hv => ?_, fun hv hv' => ?_⟩
    · obtain ⟨p1, p2, p3, _⟩ := pos hz (by omega)
      have := p3 2 (by omega) (by rw [e2]; omega)
      have : t.length ≠ 1 := fun h1 => by rw [h1, Nat.pow_one] at p2; omega
      omega
    · obtain ⟨p1, p2, p3, _⟩ := pos hz (by omega)
      have := p3 3 (by omega) (by rw [e3]; omega)
      have : t.length ≠ 1 := fun h1 => by rw [h1, Nat.pow_one] at p2; omega
      have : t.length ≠ 2 := fun h1 => by rw [h1, e2] at p2; omega
      omega
  · intro hv hv'
    obtain ⟨p1, p2, p3, _⟩ := col hz h0 hv'
    have := p3 2 (by omega)
    have : t.length ≠ 1 := fun h1 => by rw [h1, w1] at p2; omega
    omega

/-- 676 = 26² is "za": no third letter; 100 = 10² has a third digit. -/
example : view (letterLower.tryFormat ⟨true, .w64, true⟩ .u32 676) = .ok (['z', 'a'], true) ∧
    view (decimal.tryFormat ⟨true, .w64, true⟩ .u32 100) = .ok (['1', '0', '0'], true) := by decide +kernel

end Nominals.Props
