import Verif.Proofs.AdditiveNamed

/-! # Additive systems with one symbol per digit and place -/

namespace Nominals

open Nominals.Spec

/-- Nine symbols of one decimal place. -/
def nineBlock (f : Nat → List Char) : List (List Char × Nat) :=
  [(f 9, 9), (f 8, 8), (f 7, 7), (f 6, 6), (f 5, 5), (f 4, 4), (f 3, 3), (f 2, 2), (f 1, 1)]

theorem nineBlock_leftover (f : Nat → List Char) (d : Nat) (hd : d < 10) : leftover (nineBlock f) d = 0 := by
  refine lt10_cases (P := fun d => leftover (nineBlock f) d = 0) hd ?_ ?_ ?_ ?_ ?_ ?_ ?_ ?_ ?_ ?_ <;>
    simp [nineBlock, leftover]

theorem nineBlock_picks (f : Nat → List Char) (d : Nat) (hd : d < 10) :
    picks (nineBlock f) d = if d = 0 then [] else [(f d, d)] := by
  refine lt10_cases (P := fun d => picks (nineBlock f) d = if d = 0 then [] else [(f d, d)]) hd ?_ ?_ ?_ ?_ ?_ ?_ ?_ ?_ ?_ ?_ <;>
    simp [nineBlock, picks]

theorem nineBlock_ne (f : Nat → List Char) : ∀ p ∈ nineBlock f, p.2 ≠ 0 := by simp [nineBlock]

/-- A table of nine thousands, nine hundreds, nine tens, nine ones. -/
def digitTable (sym : Nat → Nat → List Char) (tail : List (List Char × Nat)) : List (List Char × Nat) :=
  scale 1000 (nineBlock (sym 3)) ++ (scale 100 (nineBlock (sym 2)) ++ (scale 10 (nineBlock (sym 1)) ++
    (scale 1 (nineBlock (sym 0)) ++ tail)))

theorem digitTable_written (sym : Nat → Nat → List Char) (tail : List (List Char × Nat)) (ht : tail = [] ∨ ∃ z, tail = [(z, 0)])
    (r : Nat) (hr : r < 10000) : written (picks (digitTable sym tail) r) = digitwise sym r := by
  have e3 : r / 1000 = r / 1000 % 10 := by omega
  have e2 : r % 1000 / 100 = r / 100 % 10 := by omega
  have e1 : r % 1000 % 100 / 10 = r / 10 % 10 := by omega
  have e0 : r % 1000 % 100 % 10 / 1 = r % 10 := by omega
  have htl : ∀ x, picks tail x = [] := by
    intro x
    rcases ht with rfl | ⟨z, rfl⟩ <;> simp [picks]
  unfold digitTable
  rw [picks_block (by omega) _ _ (nineBlock_ne _) (nineBlock_leftover _) _ (by omega)]
  rw [picks_block (by omega) _ _ (nineBlock_ne _) (nineBlock_leftover _) _ (by omega)]
  rw [picks_block (by omega) _ _ (nineBlock_ne _) (nineBlock_leftover _) _ (by omega)]
  rw [picks_block (by omega) _ _ (nineBlock_ne _) (nineBlock_leftover _) _ (by omega)]
  rw [e2, e1, e0, htl, e3, nineBlock_picks _ _ (by omega), nineBlock_picks _ _ (by omega), nineBlock_picks _ _ (by omega),
    nineBlock_picks _ _ (by omega)]
  simp only [written_append, written_scale, digitwise]
  have hw : ∀ (k d : Nat), written (if d = 0 then [] else [(sym k d, d)]) = if d = 0 then [] else sym k d := by
    intro k d
    split <;> simp [written]
  simp only [hw]
  simp [written]

/-- A table headed by a symbol of value `top`. -/
theorem picks_top (z : List Char) (top : Nat) (rest : List (List Char × Nat)) (hp : top ≠ 0) (n : Nat) :
    picks ((z, top) :: rest) n = List.replicate (n / top) (z, top) ++ picks ((z, top) :: rest) (n % top) := by
  have h : n % top < top := Nat.mod_lt _ (by omega)
  simp only [picks, hp, ↓reduceIte]
  rw [Nat.div_eq_of_lt h, Nat.mod_eq_of_lt h, List.replicate_zero, List.nil_append]

theorem written_top {table rest : List (List Char × Nat)} {z : List Char} {top : Nat} {sym : Nat → Nat → List Char}
    (e : table = (z, top) :: rest) (h0 : top ≠ 0) (h : ∀ r, r < top → written (picks table r) = digitwise sym r) (n : Nat) :
    written (picks table n) = repeatedTop top z sym n := by
  have h1 := picks_top z top rest h0 n
  rw [← e] at h1
  rw [h1, written_append, written_replicate, repeatedTop, h _ (Nat.mod_lt _ (Nat.pos_of_ne_zero h0))]

theorem digitTable_head (sym : Nat → Nat → List Char) (tail : List (List Char × Nat)) (m : Nat) (h : m = 9 * 1000) :
    ∃ rest, digitTable sym tail = (sym 3 9, m) :: rest := by
  subst h
  unfold digitTable scale nineBlock
  rw [List.map_cons, List.cons_append]
  exact ⟨_, rfl⟩

theorem nineThousand_written (sym : Nat → Nat → List Char) (tail : List (List Char × Nat))
    (ht : tail = [] ∨ ∃ z, tail = [(z, 0)]) (n : Nat) :
    written (picks (digitTable sym tail) n) = repeatedTop 9000 (sym 3 9) sym n := by
  obtain ⟨rest, e⟩ := digitTable_head sym tail 9000 (by decide)
  exact written_top e (by decide) (fun r hr => digitTable_written sym tail ht r (by omega)) n

theorem tenThousand_written (sym : Nat → Nat → List Char) (z : List Char) (n : Nat) :
    written (picks ((z, 10000) :: digitTable sym []) n) = repeatedTop 10000 z sym n := by
  simp only [picks]
  rw [if_neg (by omega), written_append, written_replicate, repeatedTop, digitTable_written sym [] (.inl rfl) _ (by omega)]

theorem armenianUpperTable_eq : armenianUpperTable = digitTable armenianUpperSym [] := by decide +kernel
theorem armenianLowerTable_eq : armenianLowerTable = digitTable armenianLowerSym [] := by decide +kernel
theorem georgianTable_eq : georgianTable = (['ჵ'], 10000) :: digitTable georgianSym [] := by decide +kernel
theorem japaneseFormalTable_eq : japaneseFormalTable = digitTable japaneseFormalScript.sym [(['零'], 0)] := by decide +kernel
theorem japaneseInformalTable_eq : japaneseInformalTable = digitTable japaneseInformalScript.sym [(['〇'], 0)] := by decide +kernel
theorem hangeulFormalTable_eq : hangeulFormalTable = digitTable hangeulFormalScript.sym [(['영'], 0)] := by decide +kernel
theorem hanjaInformalTable_eq : hanjaInformalTable = digitTable hanjaInformalScript.sym [(['零'], 0)] := by decide +kernel
theorem hanjaFormalTable_eq : hanjaFormalTable = digitTable hanjaFormalScript.sym [(['零'], 0)] := by decide +kernel

/-! ## Reading back -/

theorem letterSum_written (val : Char → Nat) (ps : List (List Char × Nat)) (h : ∀ p ∈ ps, letterSum val p.1 = p.2) :
    letterSum val (written ps) = total ps := by
  induction ps with
  | nil => rfl
  | cons p ps ih =>
    have h1 := h p (by simp)
    have h2 := ih fun q hq => h q (by simp [hq])
    rw [total_cons, ← h1, ← h2]
    simp [letterSum, written]

theorem letterSum_picks (val : Char → Nat) {table : List (List Char × Nat)} (hd : strictlyDescending table = true)
    (hu : ∃ s, (s, 1) ∈ table) (h : ∀ p ∈ table, letterSum val p.1 = p.2) (n : Nat) :
    letterSum val (written (picks table n)) = n := by
  have hg := picks_greedy ((strictlyDescending_iff _).mp hd) n
  rw [letterSum_written val _ fun p hp => h p ((greedy_le hg).2.2 p hp).1, greedy_total hu hg]

/-- A symbol of a digit-and-place table: digit; place; or digit and place. -/
def symShape (s : DigitPlace) (p : List Char × Nat) : Bool :=
  match p.1 with
  | [c] =>
    if c ∈ s.places then p.2 == 10 ^ (s.places.idxOf c + 1)
    else decide (c ∈ s.digits) && p.2 == s.digits.idxOf c + 1 && decide (p.2 < 10)
  | [c, e] => decide (c ∉ s.places) && decide (c ∈ s.digits) && decide (e ∈ s.places) &&
      p.2 == (s.digits.idxOf c + 1) * 10 ^ (s.places.idxOf e + 1)
  | _ => false

theorem readFrom_written (s : DigitPlace) (ps : List (List Char × Nat)) (hs : ∀ p ∈ ps, symShape s p = true)
    (hd : ps.Pairwise fun a b => a.2 ≥ b.2) (tot pending : Nat) (hp : pending ≠ 0 → ∀ p ∈ ps, p.2 < 10) :
    s.readFrom tot pending (written ps) = tot + pending + total ps := by
  induction ps generalizing tot pending with
  | nil => simp [written, total, DigitPlace.readFrom]
  | cons p ps ih =>
    have hd' := List.pairwise_cons.mp hd
    have h1 := hs p (by simp)
    have ih := fun tot pending => ih (fun q hq => hs q (by simp [hq])) hd'.2 tot pending
    have e : written (p :: ps) = p.1 ++ written ps := by simp [written]
    rw [e, total_cons]
    unfold symShape at h1
    split at h1
    · next c hc =>
      rw [hc]
      simp only [List.cons_append, List.nil_append, DigitPlace.readFrom]
      split at h1
      · next hmem =>
        have hval : p.2 = 10 ^ (s.places.idxOf c + 1) := by simpa using h1
        have h10 : 10 ≤ p.2 := by
          rw [hval, Nat.pow_succ]
          have := Nat.pos_of_ne_zero (show 10 ^ s.places.idxOf c ≠ 0 from by simp)
          omega
        have hp0 : pending = 0 := by
          rcases Nat.eq_zero_or_pos pending with h | h
          · exact h
          · have := hp (by omega) p (by simp); omega
        rw [if_pos hmem, hp0, ih _ _ (by simp), ← hval]
        simp
        omega
      · next hmem =>
        simp only [Bool.and_eq_true, decide_eq_true_eq, beq_iff_eq] at h1
        obtain ⟨⟨h2, h3⟩, h4⟩ := h1
        rw [if_neg hmem, if_pos h2, ih _ _ fun _ q hq => by have := hd'.1 q hq; omega]
        omega
    · next c e' hc =>
      rw [hc]
      simp only [Bool.and_eq_true, decide_eq_true_eq, beq_iff_eq] at h1
      obtain ⟨⟨⟨h2, h3⟩, h4⟩, h5⟩ := h1
      simp only [List.cons_append, List.nil_append, DigitPlace.readFrom]
      rw [if_neg h2, if_pos h3, if_pos h4, if_neg (by omega), ih _ _ (by simp), ← h5]
      omega
    · cases h1

theorem read_picks (s : DigitPlace) {table : List (List Char × Nat)} (hd : strictlyDescending table = true)
    (hu : ∃ t, (t, 1) ∈ table) (hs : ∀ p ∈ table, p.2 ≠ 0 → symShape s p = true) (n : Nat) :
    s.read (written (picks table n)) = n := by
  have hg := picks_greedy ((strictlyDescending_iff _).mp hd) n
  have hm := (greedy_le hg).2.2
  rw [DigitPlace.read, readFrom_written s _ (fun p hp => hs p (hm p hp).1 (hm p hp).2.1) (greedy_descending hg) 0 0 (by simp),
    greedy_total hu hg]
  omega

end Nominals
