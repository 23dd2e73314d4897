import Verif.Proofs.Digits
import Verif.Model.Ethiopic
import Verif.Spec.Ethiopic

/-! # Ethiopic -/

namespace Nominals

open Nominals.Spec

/-- Text of the groups of `n` counted from index `i`, most significant first. -/
def ethFrom (i n : Nat) : List Char :=
  if _h : n = 0 then [] else ethFrom (i + 1) (n / 100) ++ ethGroupText i (n % 100) (decide (n / 100 = 0))
termination_by n
decreasing_by omega

theorem ethGroups_length_pos {n : Nat} (h : n ≠ 0) : (ethGroups n).length ≠ 0 := by
  rw [ethGroups, dif_neg h]; simp

theorem ethFrom_eq (n : Nat) : ∀ i, ((ethGroups n).zipIdx i |>.map fun (g, j) =>
    ethGroupText j g (j + 1 == (ethGroups n).length + i)).reverse.flatten = ethFrom i n := by
  induction n using Nat.strongRecOn with
  | _ n ih =>
    intro i
    rw [ethGroups, ethFrom]
    by_cases h : n = 0
    · simp [h]
    · rw [dif_neg h, dif_neg h]
      simp only [List.zipIdx_cons, List.map_cons, List.reverse_cons, List.flatten_append, List.length_cons]
      rw [← ih (n / 100) (by omega) (i + 1)]
      congr 1
      · simp only [Nat.add_assoc, Nat.add_comm 1 i]
      · simp only [List.flatten_cons, List.flatten_nil, List.append_nil]
        congr 1
        by_cases h2 : n / 100 = 0
        · simp [h2, ethGroups, Nat.add_comm]
        · have := ethGroups_length_pos h2
          simp [h2]
          omega

theorem ethOnes_get (d : Nat) (h : d < 10) (h0 : d ≠ 0) : ethiopicOnes[d]? = some (Char.ofNat (0x1368 + d)) := by
  rcases d with _ | _ | _ | _ | _ | _ | _ | _ | _ | _ | d <;> first | (exact absurd rfl h0) | rfl | omega

theorem ethTens_get (d : Nat) (h : d < 10) (h0 : d ≠ 0) : ethiopicTens[d]? = some (Char.ofNat (0x1371 + d)) := by
  rcases d with _ | _ | _ | _ | _ | _ | _ | _ | _ | _ | d <;> first | (exact absurd rfl h0) | rfl | omega

theorem usize_small {cfg : Cfg} {d : Nat} (h : d < 100) : asUsize cfg d = d := by
  apply asUsize_of_lt
  have : 2 ^ 16 ≤ 2 ^ cfg.ptr.bits := Nat.pow_le_pow_right (by omega) (by cases cfg.ptr <;> decide)
  omega

theorem eth_sep {cfg : Cfg} {i g : Nat} {s : NStr} {t : List Char} (hs : s.Is t) (ha : cfg.alloc = true ∨ utf8Len t ≤ 62) :
    Del cfg.alloc OutOfMemoryError.mk
      (if decide (i > 0) = true then
        if (!(i % 2 == 1)) = true then s.pushFront cfg '፼'
        else if (!((g % 10 == 0) && (g / 10 == 0))) = true then s.pushFront cfg '፻'
        else Res.ok s
      else Res.ok s)
      ((if i % 2 = 1 then (if g = 0 then [] else [ethHundred]) else (if i = 0 then [] else [ethMyriad])) ++ t) := by
  by_cases h0 : i = 0
  · subst h0
    exact .ok _ _ hs ha
  · rw [if_pos (by simp; omega)]
    by_cases h1 : i % 2 = 1
    · rw [if_neg (by simp [h1]), if_pos h1]
      by_cases hg : g = 0
      · subst hg
        exact .ok _ _ hs ha
      · rw [if_pos (by simp; omega), if_neg hg]
        exact hs.pushFront ha _
    · rw [if_pos (by simp [h1]), if_neg h1, if_neg h0]
      exact hs.pushFront ha _

theorem eth_digits {cfg : Cfg} {g : Nat} (hg : g < 100) {s : NStr} {t : List Char} (hs : s.Is t)
    (ha : cfg.alloc = true ∨ utf8Len t ≤ 62) :
    Del cfg.alloc OutOfMemoryError.mk
      ((if (!(g % 10 == 0)) = true then
          (Res.ofIndex ethiopicOnes[asUsize cfg (g % 10)]?).bind fun ch => s.pushFront cfg ch
        else Res.ok s).bind fun s =>
        (if (!(g / 10 == 0)) = true then
          (Res.ofIndex ethiopicTens[asUsize cfg (g / 10)]?).bind fun ch => s.pushFront cfg ch
        else Res.ok s))
      (ethDigits g ++ t) := by
  have h1 : Del cfg.alloc OutOfMemoryError.mk (if (!(g % 10 == 0)) = true then
          (Res.ofIndex ethiopicOnes[asUsize cfg (g % 10)]?).bind fun ch => s.pushFront cfg ch
        else Res.ok s) ((if g % 10 = 0 then [] else [Char.ofNat (0x1368 + g % 10)]) ++ t) := by
    by_cases h : g % 10 = 0
    · rw [if_neg (by simp [h]), if_pos h]; exact .ok _ _ hs ha
    · rw [if_pos (by simp [h]), if_neg h, usize_small (by omega), ethOnes_get _ (by omega) h]
      exact hs.pushFront ha _
  refine h1.bind (by simp [ethDigits]) fun s hs ha => ?_
  rw [ethDigits, List.append_assoc]
  by_cases h : g / 10 = 0
  · rw [if_neg (by simp [h]), if_pos h]; exact .ok _ _ hs ha
  · rw [if_pos (by simp [h]), if_neg h, usize_small (by omega), ethTens_get _ (by omega) h]
    exact hs.pushFront ha _

theorem ethLoop_del {cfg : Cfg} (fuel : Nat) : ∀ (i r : Nat) (s : NStr) (t : List Char), r < fuel → (i = 0 → r ≠ 1) → s.Is t →
    (cfg.alloc = true ∨ utf8Len t ≤ 62) → Del cfg.alloc OutOfMemoryError.mk (ethiopicLoop cfg fuel i r s) (ethFrom i r ++ t) := by
  induction fuel with
  | zero => intro i r s t h; omega
  | succ fuel ih =>
    intro i r s t hf h1 hs ha
    rw [ethFrom, ethiopicLoop]
    by_cases h : r = 0
    · rw [if_pos h, dif_pos h]; exact .ok _ _ hs ha
    · rw [if_neg h, dif_neg h]
      simp only [remT, divT, Nat.reduceEqDiff, ↓reduceIte, Res.bind_ok]
      have e1 : r / 10 % 10 = r % 100 / 10 := by omega
      have e2 : r / 10 / 10 = r / 100 := by omega
      have e3 : r % 10 = r % 100 % 10 := by omega
      rw [e1, e2, e3]
      have hg : r % 100 < 100 := Nat.mod_lt _ (by omega)
      generalize hgg : r % 100 = g at *
      have hstep := eth_sep (cfg := cfg) (i := i) (g := g) hs ha
      refine Del.bind hstep (by simp [ethGroupText]; omega) fun s' hs' ha' => ?_
      unfold ethGroupText
      rw [List.append_assoc, List.append_assoc]
      generalize (if i % 2 = 1 then (if g = 0 then [] else [ethHundred]) else (if i = 0 then [] else [ethMyriad])) ++ t = t' at *
      have hrem : (((g % 10 == 0) && (g / 10 == 0)) || ((r / 100 == 0 || i % 2 == 1) && decide (i > 0) && (g / 10 == 0) && (g % 10 == 1)))
          = decide (g = 0 ∨ (decide (r / 100 = 0) = true ∧ g = 1) ∨ (i % 2 = 1 ∧ g = 1)) := by
        rw [Bool.eq_iff_iff]
        simp only [Bool.or_eq_true, Bool.and_eq_true, beq_iff_eq, decide_eq_true_eq]
        omega
      rw [hrem]
      by_cases hd : g = 0 ∨ (decide (r / 100 = 0) = true ∧ g = 1) ∨ (i % 2 = 1 ∧ g = 1)
      · rw [if_neg (by rw [decide_eq_true hd]; decide), if_pos hd, List.nil_append, Res.bind_ok]
        exact ih (i + 1) (r / 100) s' t' (by omega) (by omega) hs' ha'
      · rw [if_pos (by rw [decide_eq_false hd]; rfl), if_neg hd]
        refine Del.bind (eth_digits hg hs' ha') (by simp) fun s2 hs2 ha2 => ?_
        exact ih (i + 1) (r / 100) s2 _ (by omega) (by omega) hs2 ha2

theorem ethiopicText_eq {n : Nat} (h : n ≠ 1) : ethiopicText n = ethFrom 0 n := by
  rw [ethiopicText, if_neg h, ← ethFrom_eq n 0]
  rfl

theorem ethiopic_del {cfg : Cfg} {T : IntTy} {n : Nat} (h0 : n ≠ 0) :
    Del cfg.alloc (Error.outOfMemory n) (ethiopicTryFormat cfg T n) (ethiopicText n) := by
  rw [ethiopicTryFormat, if_neg h0]
  refine Del.mapErr (e := OutOfMemoryError.mk) (f := fun _ => Error.outOfMemory n) ?_
  by_cases h : n = 1
  · subst h
    have : formatEthiopic cfg 1 = NStr.newReverse.pushFront cfg '፩' := by
      simp only [formatEthiopic, ethiopicLoop, remT, divT]
      simp [Res.bind, ethiopicOnes, Res.ofIndex, usize_small (cfg := cfg) (d := 1) (by omega)]
      cases NStr.newReverse.pushFront cfg '፩' <;> rfl
    rw [this]
    exact NStr.newReverse_is.pushFront (.inr (by simp)) _
  · rw [ethiopicText_eq h]
    have := ethLoop_del (cfg := cfg) (n + 1) 0 n NStr.newReverse [] (by omega) (fun _ => h) NStr.newReverse_is (.inr (by simp))
    simpa [formatEthiopic] using this

/-! ## Reading back -/

theorem eth_read_digits : ∀ g, g < 100 → ∀ c ∈ ethDigits g, c ≠ ethHundred ∧ c ≠ ethMyriad := by decide +kernel

theorem eth_value_digits : ∀ g, g < 100 → ((ethDigits g).map ethValue).sum = g := by decide +kernel

theorem fold_digits (t : List Char) (h : ∀ c ∈ t, c ≠ ethHundred ∧ c ≠ ethMyriad) (r : EthReader) :
    t.foldl EthReader.step r = { r with units := r.units + (t.map ethValue).sum } := by
  induction t generalizing r with
  | nil => rfl
  | cons c t ih =>
    have hc := h c (by simp)
    rw [List.foldl_cons, ih fun c hc => h c (by simp [hc])]
    simp [EthReader.step, hc.1, hc.2, Nat.add_assoc]

/-- State after reading the groups of `n` from index `i` upwards. -/
def ethState (i n : Nat) : EthReader :=
  if i % 2 = 1 then ⟨10000 * (n / 100), decide (n / 100 = 0), 100 * (n % 100), 0⟩
  else ⟨10000 * n, decide (n = 0), 0, 0⟩

theorem fold_group {i g : Nat} (hg : g < 100) (ms : Bool) (r : EthReader) (hr : r.units = 0) :
    (ethGroupText i g ms).foldl EthReader.step r =
      let u := if g = 0 ∨ (ms = true ∧ g = 1) ∨ (i % 2 = 1 ∧ g = 1) then 0 else g
      if i % 2 = 1 then (if g = 0 then r else { r with hundreds := 100 * g, units := 0 })
      else if i = 0 then { r with units := u }
      else { high := 10000 * (r.high + if r.first = true ∧ r.hundreds + u = 0 then 1 else r.hundreds + u),
             first := false, hundreds := 0, units := 0 } := by
  have key : ∀ u, (if g = 0 ∨ (ms = true ∧ g = 1) ∨ (i % 2 = 1 ∧ g = 1) then 0 else g) = u →
      (if g = 0 ∨ (ms = true ∧ g = 1) ∨ (i % 2 = 1 ∧ g = 1) then [] else ethDigits g).foldl EthReader.step r
      = { r with units := u } := by
    intro u hu
    split at hu
    · next h => rw [if_pos h, ← hu, ← hr]; rfl
    · next h => rw [if_neg h, fold_digits _ (eth_read_digits g hg), eth_value_digits g hg, hr, Nat.zero_add, hu]
  rw [ethGroupText, List.foldl_append, key _ rfl]
  have hne : ¬ ethMyriad = ethHundred := by decide
  by_cases h1 : i % 2 = 1
  · simp only [h1, ↓reduceIte]
    by_cases h0 : g = 0
    · subst h0; simp [← hr]
    · by_cases hg1 : g = 1
      · subst hg1; simp [EthReader.step]
      · simp [h0, hg1, EthReader.step]
  · simp only [h1, ↓reduceIte]
    by_cases h0 : i = 0
    · simp [h0]
    · simp [h0, EthReader.step, hne]

theorem eth_fold (n : Nat) : ∀ i, i ≠ 0 → (ethFrom i n).foldl EthReader.step ⟨0, true, 0, 0⟩ = ethState i n := by
  induction n using Nat.strongRecOn with
  | _ n ih =>
    intro i hi
    rw [ethFrom]
    by_cases h : n = 0
    · subst h; simp [ethState]
    · rw [dif_neg h, List.foldl_append, ih (n / 100) (by omega) (i + 1) (by omega)]
      rw [fold_group (Nat.mod_lt _ (by omega)) _ _ (by unfold ethState; split <;> rfl)]
      simp only
      by_cases h1 : i % 2 = 1
      · have h2 : ¬ (i + 1) % 2 = 1 := by omega
        simp only [ethState, h1, h2, ↓reduceIte]
        split
        · next h3 => simp [h3]
        · rfl
      · have h2 : (i + 1) % 2 = 1 := by omega
        simp only [ethState, h1, h2, hi, ↓reduceIte, h, decide_false, EthReader.mk.injEq, and_true, decide_eq_true_eq, false_and,
          or_false]
        repeat' split
        all_goals omega

theorem read_ethiopicText (n : Nat) : readEthiopic (ethiopicText n) = n := by
  by_cases h1 : n = 1
  · subst h1; decide
  · rw [ethiopicText_eq h1, ethFrom]
    by_cases h0 : n = 0
    · subst h0; rfl
    · rw [dif_neg h0]
      unfold readEthiopic
      rw [List.foldl_append, eth_fold _ (0 + 1) (by omega), fold_group (Nat.mod_lt _ (by omega)) _ _ rfl]
      simp only [ethState, Nat.zero_add, Nat.reduceMod, ↓reduceIte, decide_eq_true_eq]
      simp only [show ¬ (0 : Nat) = 1 by omega, ↓reduceIte, false_and, or_false]
      split <;> omega

end Nominals
