import Verif.Proofs.Additive
import Verif.Model.Tables

/-! # The named additive systems -/

namespace Nominals

open Nominals.Spec

/-! ## Roman -/

/-- The four symbols of one decimal place. -/
def fourBlock (one four five nine : List Char) : List (List Char × Nat) := [(nine, 9), (five, 5), (four, 4), (one, 1)]

theorem lt10_cases {d : Nat} {P : Nat → Prop} (hd : d < 10) (h0 : P 0) (h1 : P 1) (h2 : P 2) (h3 : P 3) (h4 : P 4) (h5 : P 5)
    (h6 : P 6) (h7 : P 7) (h8 : P 8) (h9 : P 9) : P d := by
  have : d = 0 ∨ d = 1 ∨ d = 2 ∨ d = 3 ∨ d = 4 ∨ d = 5 ∨ d = 6 ∨ d = 7 ∨ d = 8 ∨ d = 9 := by omega
  rcases this with h | h | h | h | h | h | h | h | h | h <;> subst h <;> assumption

theorem fourBlock_leftover (a b c e : List Char) (d : Nat) (hd : d < 10) : leftover (fourBlock a b c e) d = 0 := by
  refine lt10_cases (P := fun d => leftover (fourBlock a b c e) d = 0) hd ?_ ?_ ?_ ?_ ?_ ?_ ?_ ?_ ?_ ?_ <;>
    simp [fourBlock, leftover]

theorem fourBlock_written (a b c e : List Char) (d : Nat) (hd : d < 10) :
    written (picks (fourBlock a b c e) d) = romanGroup a b c e d := by
  refine lt10_cases (P := fun d => written (picks (fourBlock a b c e) d) = romanGroup a b c e d) hd ?_ ?_ ?_ ?_ ?_ ?_ ?_ ?_ ?_ ?_ <;>
    simp [fourBlock, picks, written, romanGroup]

theorem fourBlock_ne (a b c e : List Char) : ∀ p ∈ fourBlock a b c e, p.2 ≠ 0 := by simp [fourBlock]

/-- Symbols of the blocks 10^5 … 1 of `RomanUpper`. -/
def rb5 := fourBlock (bar 'C') (bar 'C' ++ bar 'D') (bar 'D') (bar 'D' ++ bar 'M')
def rb4 := fourBlock (bar 'X') (bar 'X' ++ bar 'L') (bar 'L') (bar 'L' ++ bar 'C')
def rb3 := fourBlock ['M'] (bar 'I' ++ bar 'V') (bar 'V') (bar 'I' ++ bar 'X')
def rb2 := fourBlock ['C'] ['C', 'D'] ['D'] ['C', 'M']
def rb1 := fourBlock ['X'] ['X', 'L'] ['L'] ['X', 'C']
def rb0 := fourBlock ['I'] ['I', 'V'] ['V'] ['I', 'X']

theorem romanUpperTable_blocks : romanUpperTable =
    (bar 'M', 1000000) :: (scale 100000 rb5 ++ (scale 10000 rb4 ++ (scale 1000 rb3 ++ (scale 100 rb2 ++ (scale 10 rb1 ++
      (scale 1 rb0 ++ [(['N'], 0)])))))) := rfl

theorem roman_picks (n : Nat) : picks romanUpperTable n =
    List.replicate (n / 10 ^ 6) (bar 'M', 1000000)
    ++ (scale 100000 (picks rb5 (n / 10 ^ 5 % 10))
    ++ (scale 10000 (picks rb4 (n / 10 ^ 4 % 10))
    ++ (scale 1000 (picks rb3 (n / 10 ^ 3 % 10))
    ++ (scale 100 (picks rb2 (n / 10 ^ 2 % 10))
    ++ (scale 10 (picks rb1 (n / 10 % 10))
    ++ scale 1 (picks rb0 (n % 10))))))) := by
  have e6 : n / 10 ^ 6 = n / 1000000 := rfl
  have e5 : n % 1000000 / 100000 = n / 10 ^ 5 % 10 := by omega
  have e4 : n % 1000000 % 100000 / 10000 = n / 10 ^ 4 % 10 := by omega
  have e3 : n % 1000000 % 100000 % 10000 / 1000 = n / 10 ^ 3 % 10 := by omega
  have e2 : n % 1000000 % 100000 % 10000 % 1000 / 100 = n / 10 ^ 2 % 10 := by omega
  have e1 : n % 1000000 % 100000 % 10000 % 1000 % 100 / 10 = n / 10 % 10 := by omega
  have e0 : n % 1000000 % 100000 % 10000 % 1000 % 100 % 10 / 1 = n % 10 := by omega
  rw [romanUpperTable_blocks, picks, if_neg (by simp)]
  dsimp only
  rw [picks_block (by omega) rb5 _ (fourBlock_ne _ _ _ _) (fourBlock_leftover _ _ _ _) _ (by omega)]
  rw [picks_block (by omega) rb4 _ (fourBlock_ne _ _ _ _) (fourBlock_leftover _ _ _ _) _ (by omega)]
  rw [picks_block (by omega) rb3 _ (fourBlock_ne _ _ _ _) (fourBlock_leftover _ _ _ _) _ (by omega)]
  rw [picks_block (by omega) rb2 _ (fourBlock_ne _ _ _ _) (fourBlock_leftover _ _ _ _) _ (by omega)]
  rw [picks_block (by omega) rb1 _ (fourBlock_ne _ _ _ _) (fourBlock_leftover _ _ _ _) _ (by omega)]
  rw [picks_block (by omega) rb0 _ (fourBlock_ne _ _ _ _) (fourBlock_leftover _ _ _ _) _ (by omega)]
  simp only [e0, e1, e2, e3, e4, e5, e6]
  simp [picks]

theorem roman_written (n : Nat) : written (picks romanUpperTable n) = romanText n := by
  have h5 : n / 10 ^ 5 % 10 < 10 := by omega
  have h4 : n / 10 ^ 4 % 10 < 10 := by omega
  have h3 : n / 10 ^ 3 % 10 < 10 := by omega
  have h2 : n / 10 ^ 2 % 10 < 10 := by omega
  have h1 : n / 10 % 10 < 10 := by omega
  have h0 : n % 10 < 10 := by omega
  rw [roman_picks]
  simp only [written_append, written_scale, written_replicate, romanText, rb5, rb4, rb3, rb2, rb1, rb0,
    fourBlock_written _ _ _ _ _ h5, fourBlock_written _ _ _ _ _ h4, fourBlock_written _ _ _ _ _ h3,
    fourBlock_written _ _ _ _ _ h2, fourBlock_written _ _ _ _ _ h1, fourBlock_written _ _ _ _ _ h0, List.append_assoc]

theorem picks_map (f : List Char → List Char) (a : List (List Char × Nat)) (r : Nat) :
    picks (a.map fun p => (f p.1, p.2)) r = (picks a r).map fun p => (f p.1, p.2) := by
  induction a generalizing r with
  | nil => rfl
  | cons p a ih =>
    simp only [List.map_cons, picks]
    split
    · rfl
    · simp [ih]

theorem written_map (f : Char → Char) (ps : List (List Char × Nat)) :
    written (ps.map fun p => (p.1.map f, p.2)) = (written ps).map f := by
  simp [written, List.flatMap_map, List.map_flatMap]

theorem romanLowerTable_eq : romanLowerTable = romanUpperTable.map fun p => (p.1.map Char.toLower, p.2) := by decide

theorem romanLower_written (n : Nat) : written (picks romanLowerTable n) = (romanText n).map Char.toLower := by
  rw [romanLowerTable_eq, picks_map (fun l => l.map Char.toLower), written_map, roman_written]

/-! ## Named systems as additive sets -/

theorem additiveTryFormat_eq {table : List (List Char × Nat)} (hd : strictlyDescending table = true) :
    ∃ a : AdditiveSet, a.symbols = table ∧ (∀ cfg T n, additiveTryFormat table cfg T n = a.tryFormat cfg T n) ∧
      a.zero = (match table.getLast? with
                | some (z, 0) => some z
                | _ => none) :=
  ⟨_, rfl, fun cfg T n => by unfold additiveTryFormat AdditiveSet.new; rw [if_pos hd]; rfl, rfl⟩

theorem named_del {table : List (List Char × Nat)} (hd : strictlyDescending table = true) {cfg : Cfg} {T : IntTy} {n : Nat}
    (hn : T.Fits cfg n) (h0 : n ≠ 0) :
    Del cfg.alloc (Error.outOfMemory n) (additiveTryFormat table cfg T n) (written (picks table n)) := by
  obtain ⟨a, h1, h2, _⟩ := additiveTryFormat_eq hd
  rw [h2, ← h1]
  exact additive_del hn h0

theorem named_zero {table : List (List Char × Nat)} (hd : strictlyDescending table = true) {cfg : Cfg} {T : IntTy}
    {c : Char} (hz : table.getLast? = some ([c], 0)) :
    Del cfg.alloc (Error.outOfMemory 0) (additiveTryFormat table cfg T 0) [c] := by
  obtain ⟨a, _, h2, h3⟩ := additiveTryFormat_eq hd
  rw [hz] at h3
  rw [h2, AdditiveSet.tryFormat, if_pos rfl, h3]
  have h4 := utf8Size_le c
  have h62 : utf8Len [c] ≤ 62 := by simp only [utf8Len_cons, utf8Len_nil]; omega
  obtain ⟨s, e, hs⟩ := ofStr_is (ε := Error) cfg [c] (.inr h62)
  simp only [e]
  exact .ok _ _ hs (.inr h62)

theorem named_no_zero {table : List (List Char × Nat)} (hd : strictlyDescending table = true) {cfg : Cfg} {T : IntTy}
    (hz : ∀ z, table.getLast? ≠ some (z, 0)) : additiveTryFormat table cfg T 0 = .err .noZeroSymbol := by
  obtain ⟨a, _, h2, h3⟩ := additiveTryFormat_eq hd
  have h4 : a.zero = none := by
    rw [h3]
    split
    · next z h => exact absurd h (hz z)
    · rfl
  rw [h2, AdditiveSet.tryFormat, if_pos rfl, h4]

/-! ## Reading Roman texts -/

/-- Split at letters, an overline belongs to the letter before it. -/
def letters : List Char → List (Char × Bool)
  | [] => []
  | [c] => [(c, false)]
  | c :: d :: rest => if d = '\u0305' then (c, true) :: letters rest else (c, false) :: letters (d :: rest)

theorem letters_append (a b : List Char) (hb : b.head? ≠ some '\u0305') : letters (a ++ b) = letters a ++ letters b := by
  induction a using letters.induct with
  | case1 => rfl
  | case2 c =>
    cases b with
    | nil => rfl
    | cons d b =>
      have hd : d ≠ '\u0305' := by simpa using hb
      simp [letters, hd]
  | case3 c rest ih => simp [letters, ih]
  | case4 c d rest h ih =>
    have := ih
    simp only [List.cons_append, letters, h, ↓reduceIte] at this ⊢
    rw [this]

theorem romanValues_letters (t : List Char) :
    romanValues t = (letters t).map fun l => if l.2 then 1000 * romanLetter l.1 else romanLetter l.1 := by
  induction t using letters.induct with
  | case1 => rfl
  | case2 c => simp [romanValues, letters]
  | case3 c rest ih => simp [romanValues, letters, ih]
  | case4 c d rest h ih => simp [romanValues, letters, h, ih]

theorem letters_written (ps : List (List Char × Nat)) (h : ∀ p ∈ ps, p.1.head? ≠ some '\u0305') :
    letters (written ps) = ps.flatMap fun p => letters p.1 := by
  induction ps with
  | nil => rfl
  | cons p ps ih =>
    have ih' := ih fun q hq => h q (by simp [hq])
    clear ih
    simp only [written, List.flatMap_cons] at *
    rw [letters_append, ih']
    clear ih'
    induction ps with
    | nil => simp
    | cons q ps ih2 =>
      have hq := h q (by simp)
      simp only [List.flatMap_cons]
      cases e : q.1 with
      | nil =>
        rw [List.nil_append]
        exact ih2 fun x hx => h x (by rcases List.mem_cons.mp hx with rfl | hx <;> simp [*])
      | cons c l => rw [e] at hq; simpa using hq

theorem subtractive_append (a b : List Nat) (h : ∀ x ∈ a.getLast?, ∀ y ∈ b.head?, y ≤ x) :
    subtractive (a ++ b) = subtractive a + subtractive b := by
  induction a with
  | nil => simp [subtractive]
  | cons v a ih =>
    cases a with
    | nil =>
      cases b with
      | nil => simp [subtractive]
      | cons w b =>
        have : w ≤ v := h v (by simp) w (by simp)
        have hn : ¬ v < w := by omega
        simp only [List.cons_append, List.nil_append, subtractive, if_neg hn]
        omega
    | cons w a =>
      have ih := ih (by simpa using h)
      simp only [List.cons_append, subtractive] at ih ⊢
      split <;> omega

/-- Letter values of a symbol. -/
def symVals (p : List Char × Nat) : List Nat := romanValues p.1

theorem roman_last_first : ∀ p ∈ romanUpperTable, ∀ q ∈ romanUpperTable, q.2 ≠ 0 → q.2 ≤ p.2 →
    ∀ x ∈ (symVals p).getLast?, ∀ y ∈ (symVals q).head?, y ≤ x := by decide +kernel

theorem roman_nonempty : ∀ p ∈ romanUpperTable, symVals p ≠ [] := by decide +kernel

theorem roman_heads : ∀ p ∈ romanUpperTable, p.1.head? ≠ some '\u0305' := by decide +kernel

theorem subtractive_flatMap (ps : List (List Char × Nat)) (hm : ∀ p ∈ ps, p ∈ romanUpperTable ∧ p.2 ≠ 0)
    (hd : ps.Pairwise fun a b => a.2 ≥ b.2) :
    subtractive (ps.flatMap symVals) = (ps.map fun p => subtractive (symVals p)).sum := by
  induction ps with
  | nil => rfl
  | cons p ps ih =>
    have hd' := List.pairwise_cons.mp hd
    rw [List.flatMap_cons, subtractive_append, ih (fun q hq => hm q (by simp [hq])) hd'.2]
    · simp
    · intro x hx y hy
      cases ps with
      | nil => simp at hy
      | cons q ps =>
        have hq := hm q (by simp)
        refine roman_last_first p (hm p (by simp)).1 q hq.1 hq.2 (hd'.1 q (by simp)) x hx y ?_
        have hne := roman_nonempty q hq.1
        rw [List.flatMap_cons] at hy
        cases e : symVals q with
        | nil => exact absurd e hne
        | cons z l => rw [e] at hy; simpa using hy

theorem romanTable_desc : Descending romanUpperTable := (strictlyDescending_iff _).mp (by decide)

theorem romanPicks_props (n : Nat) : (∀ p ∈ picks romanUpperTable n, p ∈ romanUpperTable ∧ p.2 ≠ 0) ∧
    (picks romanUpperTable n).Pairwise (fun a b => a.2 ≥ b.2) ∧ total (picks romanUpperTable n) = n := by
  have hg := picks_greedy romanTable_desc n
  exact ⟨fun p hp => ⟨((greedy_le hg).2.2 p hp).1, ((greedy_le hg).2.2 p hp).2.1⟩, greedy_descending hg,
    greedy_total ⟨['I'], by decide⟩ hg⟩

theorem readRoman_sum (n : Nat) :
    readRoman (romanText n) = ((picks romanUpperTable n).map fun p => subtractive (symVals p)).sum := by
  obtain ⟨h1, h2, _⟩ := romanPicks_props n
  rw [← subtractive_flatMap _ h1 h2, ← roman_written, readRoman, romanValues_letters,
    letters_written _ fun p hp => roman_heads p (h1 p hp).1, List.map_flatMap]
  congr 1
  have : ∀ p : List Char × Nat, ((letters p.1).map fun l => if l.2 then 1000 * romanLetter l.1 else romanLetter l.1) = symVals p :=
    fun p => (romanValues_letters p.1).symm
  simp [this]

theorem sum_scale (m : Nat) (f : List Char → Int) (ps : List (List Char × Nat)) :
    ((scale m ps).map fun p => f p.1).sum = (ps.map fun p => f p.1).sum := by
  simp [scale, Function.comp_def]

/-- What the standard rule reads for the digit `d` of a place with symbol block `b`. -/
def readBlock (b : List (List Char × Nat)) (d : Nat) : Int := ((picks b d).map fun p => subtractive (romanValues p.1)).sum

theorem readBlock_vals : ∀ d, d < 10 →
    readBlock rb5 d = (d : Int) * 100000 - (if d = 9 then 400000 else 0) ∧
    readBlock rb4 d = (d : Int) * 10000 - (if d = 9 then 40000 else 0) ∧
    readBlock rb3 d = (d : Int) * 1000 ∧ readBlock rb2 d = (d : Int) * 100 ∧ readBlock rb1 d = (d : Int) * 10 ∧
    readBlock rb0 d = d := by
  decide +kernel

theorem sum_replicate_int (k : Nat) (x : Int) : (List.replicate k x).sum = k * x := by
  induction k with
  | zero => simp
  | succ k ih => rw [List.replicate_succ, List.sum_cons, ih]; rw [Int.natCast_add, Int.add_mul]; omega

theorem readRoman_romanText (n : Nat) :
    readRoman (romanText n) = n - (if n / 10 ^ 5 % 10 = 9 then 400000 else 0) - (if n / 10 ^ 4 % 10 = 9 then 40000 else 0) := by
  have h5 := (readBlock_vals (n / 10 ^ 5 % 10) (by omega)).1
  have h4 := (readBlock_vals (n / 10 ^ 4 % 10) (by omega)).2.1
  have h3 := (readBlock_vals (n / 10 ^ 3 % 10) (by omega)).2.2.1
  have h2 := (readBlock_vals (n / 10 ^ 2 % 10) (by omega)).2.2.2.1
  have h1 := (readBlock_vals (n / 10 % 10) (by omega)).2.2.2.2.1
  have h0 := (readBlock_vals (n % 10) (by omega)).2.2.2.2.2
  rw [readRoman_sum, roman_picks]
  unfold symVals
  simp only [List.map_append, List.sum_append, List.map_replicate, sum_scale _ fun l => subtractive (romanValues l)]
  unfold readBlock at *
  rw [h5, h4, h3, h2, h1, h0, sum_replicate_int]
  have hM : subtractive (romanValues (bar 'M')) = 1000000 := by decide
  rw [hM]
  split <;> split <;> omega

/-! ## Roman texts determine the number -/

/-- Value of two letters forming one symbol. -/
def pairValue (a b : Char × Bool) : Option Nat :=
  (romanUpperTable.find? fun p => letters p.1 == [a, b]).map Prod.snd

/-- Value of one letter forming one symbol. -/
def singleValue (a : Char × Bool) : Nat :=
  ((romanUpperTable.find? fun p => letters p.1 == [a]).map Prod.snd).getD 0

/-- Reading symbol by symbol, two-letter symbols first. -/
def readSymbols : List (Char × Bool) → Nat
  | [] => 0
  | [a] => singleValue a
  | a :: b :: rest =>
    match pairValue a b with
    | some v => v + readSymbols rest
    | none => singleValue a + readSymbols (b :: rest)

/-- A symbol has one or two letters, and reads as its value. -/
def symOk (p : List Char × Nat) : Bool :=
  match letters p.1 with
  | [a] => singleValue a == p.2
  | [a, b] => pairValue a b == some p.2
  | _ => false

theorem roman_symOk : ∀ p ∈ romanUpperTable, symOk p = true := by decide +kernel

/-- A one-letter symbol does not form a two-letter symbol with the next one. -/
def boundaryOk (p q : List Char × Nat) : Bool :=
  match letters p.1, (letters q.1).head? with
  | [a], some b => (pairValue a b).isNone
  | _, _ => true

theorem roman_boundary : ∀ p ∈ romanUpperTable, ∀ q ∈ romanUpperTable, q.2 ≤ p.2 → boundaryOk p q = true := by
  decide +kernel

theorem readSymbols_flatMap (ps : List (List Char × Nat)) (hm : ∀ p ∈ ps, p ∈ romanUpperTable ∧ p.2 ≠ 0)
    (hd : ps.Pairwise fun a b => a.2 ≥ b.2) : readSymbols (ps.flatMap fun p => letters p.1) = total ps := by
  induction ps with
  | nil => rfl
  | cons p ps ih =>
    have hd' := List.pairwise_cons.mp hd
    have ih := ih (fun q hq => hm q (by simp [hq])) hd'.2
    have hp := hm p (by simp)
    have hok := roman_symOk p hp.1
    rw [List.flatMap_cons, total_cons, ← ih]
    unfold symOk at hok
    split at hok
    · next a ha =>
      rw [ha]
      have hok : singleValue a = p.2 := by simpa using hok
      cases ps with
      | nil => simp [readSymbols, hok]
      | cons q ps =>
        have hq := hm q (by simp)
        have hb := roman_boundary p hp.1 q hq.1 (hd'.1 q (by simp))
        have hqok := roman_symOk q hq.1
        unfold boundaryOk at hb
        rw [ha] at hb
        rw [List.flatMap_cons]
        cases e : letters q.1 with
        | nil => rw [symOk, e] at hqok; cases hqok
        | cons b l =>
          rw [e] at hb
          simp only [List.head?_cons, Option.isNone_iff_eq_none] at hb
          simp only [List.cons_append, List.nil_append, readSymbols, hb, hok]
    · next a b ha =>
      rw [ha]
      have hok : pairValue a b = some p.2 := by simpa using hok
      simp only [List.cons_append, List.nil_append, readSymbols, hok]
    · cases hok

theorem romanText_read (n : Nat) : readSymbols (letters (romanText n)) = n := by
  obtain ⟨h1, h2, h3⟩ := romanPicks_props n
  rw [← roman_written, letters_written _ fun p hp => roman_heads p (h1 p hp).1, readSymbols_flatMap _ h1 h2, h3]

end Nominals
