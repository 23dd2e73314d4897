import Verif.Spec.Collections
import Verif.Props.Terminate
import Verif.Props.Digits

/-!
# Property C73: the outcome of every user-built digit collection

Vocabulary: `Verif/Spec/Collections.lean`. Nothing is assumed about a chain but that every level has a list of symbols: any mixture of
fixed and ordinary collections, with and without zero digit, counting from zero or from one, with any number of symbols (none, one, more
than the integer type has values), and any chain of fallbacks, including infinite ones.
-/

namespace Nominals.Props

open Nominals.Spec

/-- Formatting `n` with `d` ends with the outcome `r`. -/
def Ends (cfg : Cfg) (T : IntTy) (d : DigitSys) (n : Nat) (r : Res Error (List Char × Bool)) : Prop :=
  r ≠ .timeout ∧ ∃ fuel depth, view (digitTryFormat cfg T fuel depth d n) = r

theorem view_timeout {ε : Type} {r : Res ε NStr} : view r = .timeout ↔ r = .timeout := by
  unfold view
  cases r with
  | ok s => simp only [Res.bind]; cases s.asStr <;> simp
  | _ => simp [Res.bind]

/-- The outcome of a run that ends does not depend on the budget. -/
theorem ends_unique {cfg : Cfg} {T : IntTy} {d : DigitSys} {n : Nat} {r r' : Res Error (List Char × Bool)}
    (h : Ends cfg T d n r) (h' : Ends cfg T d n r') : r = r' := by
  obtain ⟨h0, f, e, h1⟩ := h
  obtain ⟨h0', f', e', h1'⟩ := h'
  have a : digitTryFormat cfg T f e d n ≠ .timeout := fun hc => h0 (by rw [← h1, hc]; rfl)
  have a' : digitTryFormat cfg T f' e' d n ≠ .timeout := fun hc => h0' (by rw [← h1', hc]; rfl)
  have b := C52_budget_irrelevant f e d a (max f f') (max e e') (by omega) (by omega)
  have b' := C52_budget_irrelevant f' e' d a' (max f f') (max e e') (by omega) (by omega)
  rw [← h1, ← h1', ← b, ← b']

theorem digitLoop_fixed {cfg : Cfg} {T : IntTy} {c : Coll} {n : Nat} (b : Bool) (fuel count r : Nat) (f : Bool) (s : NStr) :
    digitLoop cfg T { c with fixed := b } n fuel count r f s = digitLoop cfg T c n fuel count r f s := by
  induction fuel generalizing count r f s with
  | zero => rfl
  | succ fuel ih => simp only [digitLoop, ih]

theorem deliver_ne_timeout {alloc : Bool} {n : Nat} {t : List Char} : deliver alloc n t ≠ .timeout := by
  unfold deliver
  repeat' split
  all_goals simp

theorem deliver_small {alloc : Bool} {n : Nat} {c : Char} : deliver alloc n [c] = .ok ([c], true) := by
  unfold deliver
  rw [if_pos]
  have := Char.utf8Size_le_four c
  simp [utf8Len]; omega

/-- A collection that keeps the number: the outcome. -/
theorem writes_view {cfg : Cfg} {T : IntTy} {d : DigitSys} {al : List Char} {n fuel depth : Nat} {r : Res Error (List Char × Bool)}
    (hd : HasDigits (d.level 0) al) (hu : al.length < 2 ^ cfg.ptr.bits) (hn : T.Fits cfg n) (hh : ¬ HandsOver cfg T (d.level 0) n)
    (hf : n + 64 ≤ fuel) (h : Writes cfg.alloc (T.bits cfg) (d.level 0).hasZero (d.level 0).zeroBased al n r) :
    r ≠ .timeout ∧ view (digitTryFormat cfg T fuel (depth + 1) d n) = r := by
  have h256 := bits_ge cfg T
  have hl := hd.1
  -- the same collection, not fixed
  let d' : DigitSys := ⟨fun _ => { d.level 0 with fixed := false }⟩
  have hp : Plain cfg d' al := ⟨rfl, hd, hu⟩
  have hloop : al.length < 2 ^ T.bits cfg → digitTryFormat cfg T fuel (depth + 1) d n = digitTryFormat cfg T fuel (depth + 1) d' n := by
    intro hT
    rw [format_unfold fuel depth hp hT, (tryFormat_step fuel depth d).2.1 hh (by omega)]
    exact (digitLoop_fixed false _ _ _ _ _).symm
  cases h with
  | symbol c hw hc =>
    refine ⟨deliver_ne_timeout, ?_⟩
    rw [(format_wide fuel depth rfl hd hu hw hn).view]
    simp [spell, hc]
  | numeral ds hT hz hb hds =>
    refine ⟨deliver_ne_timeout, ?_⟩
    rw [hloop hT, (format_zero fuel depth hp hn hz hb (by omega)).view]
    rw [numeral_unique hb (loop_numeral hb) hds]
  | lone c hz hc h0 =>
    refine ⟨deliver_ne_timeout, ?_⟩
    subst hc; subst h0
    obtain ⟨fuel, rfl⟩ : ∃ k, fuel = k + 2 := ⟨fuel - 2, by omega⟩
    have hl1 : (d.level 0).len = 1 := hl
    rw [(tryFormat_step _ depth d).2.1 hh (by omega)]
    have he : digitLoop cfg T (d.level 0) 0 (fuel + 2) (d.level 0).len 0 true NStr.newReverse =
        emit cfg (d.level 0) 0 [0] NStr.newReverse := by
      simp only [digitLoop, ne_eq, not_true_eq_false, or_true, ↓reduceIte, hz, Bool.not_true, Bool.false_and, Bool.false_eq_true,
        or_self, Res.bind, remT, divT, hl1, Nat.one_ne_zero, Nat.zero_mod, Nat.zero_div, tryFrom_some (show 1 < 2 ^ T.bits cfg by omega),
        asUsize, emit]
    rw [he, (emit_del hd [0] (by simp) NStr.newReverse [] NStr.newReverse_is (.inr (by simp))).view]
    simp [spell]
  | full c hz hc h0 ha =>
    refine ⟨by simp, ?_⟩
    subst hc
    have hl1 : (d.level 0).len = 1 := hl
    rw [(tryFormat_step _ depth d).2.1 hh (by omega), hl1]
    rw [one_symbol_fails ha hd hz fuel n h0 true _ [] NStr.newReverse_is (by simp) (by simp; omega)]
    rfl
  | column hT hz h0 hne =>
    refine ⟨deliver_ne_timeout, ?_⟩
    rw [hloop hT, (format_column fuel depth hp hn hz h0 (List.length_pos_iff.mpr hne) (by omega)).view]
  | shifted m hT hz h0 hne hm =>
    refine ⟨deliver_ne_timeout, ?_⟩
    rw [hloop hT, (format_one fuel depth hp hz h0 (List.length_pos_iff.mpr hne) hT (by omega) (by omega)).view,
      show n - 1 = m by omega]
  | noZero hT hz h0 hm =>
    subst hm
    refine ⟨by simp, ?_⟩
    rw [hloop hT, format_one_zero fuel depth hp hz h0 hT (by omega)]
    rfl
  | empty he hx =>
    subst he
    refine ⟨by simp, ?_⟩
    obtain ⟨fuel, rfl⟩ : ∃ k, fuel = k + 1 := ⟨fuel - 1, by omega⟩
    have hl0 : (d.level 0).len = 0 := hl
    rw [(tryFormat_step _ depth d).2.1 hh (by omega), hl0]
    clear hloop hp hd hl hh hf
    cases hz : (d.level 0).hasZero <;> cases h0 : (d.level 0).zeroBased <;> by_cases hn0 : n = 0 <;>
      simp_all [digitLoop, Res.bind, remT, subT, view, show n ≠ 0 → 1 ≤ n from Nat.one_le_iff_ne_zero.mpr]

/-- A collection that keeps the number either has an outcome or never finishes writing. -/
theorem writes_total {cfg : Cfg} {T : IntTy} {c : Coll} {al : List Char} {n : Nat} (hd : HasDigits c al) (hn : T.Fits cfg n)
    (hx : ¬ NeverFinishes cfg c n) : ∃ r, Writes cfg.alloc (T.bits cfg) c.hasZero c.zeroBased al n r := by
  by_cases hT : al.length < 2 ^ T.bits cfg
  · cases hz : c.hasZero with
    | true =>
      match al, hd, hT with
      | [], _, _ => exact ⟨_, .empty rfl (.inl rfl)⟩
      | [ch], hd, _ =>
        by_cases h0 : n = 0
        · exact ⟨_, .lone ch rfl rfl h0⟩
        · cases ha : cfg.alloc with
          | true => exact absurd ⟨hz, hd.1, ⟨ch, by rw [hd.2 0 (by simp)]; rfl⟩, h0, ha⟩ hx
          | false => exact ⟨_, .full ch rfl rfl h0 rfl⟩
      | a :: b :: al, _, hT => exact ⟨_, .numeral _ hT rfl (by simp) (loop_numeral (by simp))⟩
    | false =>
      cases h0 : c.zeroBased with
      | true =>
        by_cases he : al = []
        · exact ⟨_, .empty he (.inr (.inl rfl))⟩
        · exact ⟨_, .column hT rfl rfl he⟩
      | false =>
        cases n with
        | zero => exact ⟨_, .noZero hT rfl rfl rfl⟩
        | succ m =>
          by_cases he : al = []
          · exact ⟨_, .empty he (.inr (.inr (by simp)))⟩
          · exact ⟨_, .shifted m hT rfl rfl he rfl⟩
  · have h : n < al.length := by
      have : n < 2 ^ T.bits cfg := hn
      omega
    exact ⟨_, .symbol al[n] (by omega) (by simp [h])⟩

theorem lawful_fallback {cfg : Cfg} {d : DigitSys} {al : Nat → List Char} (hd : Lawful cfg d al) :
    Lawful cfg d.fallback fun k => al (k + 1) :=
  ⟨fun k => hd.digits (k + 1), fun k => hd.usize (k + 1)⟩

theorem lawful_empty {cfg : Cfg} {d : DigitSys} {al : Nat → List Char} (hd : Lawful cfg d al) (k : Nat) :
    (d.level k).len = 0 ↔ al k = [] := by
  rw [(hd.digits k).1]
  exact List.length_eq_zero_iff

theorem settles_ends {cfg : Cfg} {T : IntTy} {d : DigitSys} {al : Nat → List Char} {n : Nat} {r : Res Error (List Char × Bool)}
    (hd : Lawful cfg d al) (hn : T.Fits cfg n) (h : Settles cfg T d al n r) : Ends cfg T d n r := by
  obtain ⟨k, hk, h⟩ := h
  suffices H : r ≠ .timeout ∧ view (digitTryFormat cfg T (n + 64) (k + 1) d n) = r from ⟨H.1, _, _, H.2⟩
  induction k generalizing d al with
  | zero =>
    rcases h with ⟨h1, h2, rfl⟩ | ⟨h1, h2⟩
    · refine ⟨by simp, ?_⟩
      rw [(tryFormat_step _ _ d).1 h1, if_pos ((lawful_empty hd 1).mpr h2)]
      rfl
    · exact writes_view (hd.digits 0) (hd.usize 0) hn h1 (Nat.le_refl _) h2
  | succ k ih =>
    have h0 := hk 0 (by omega)
    rw [(tryFormat_step _ _ d).1 h0.1, if_neg (fun hc => h0.2 ((lawful_empty hd 1).mp hc))]
    exact ih (lawful_fallback hd) (fun i hi => hk (i + 1) (by omega)) h

/-- C73. The outcome of every digit collection with every chain of fallbacks, exactly: formatting ends with `r` if and only if `r` is the
outcome that `Settles` describes. -/
theorem C73_outcome {cfg : Cfg} {T : IntTy} {d : DigitSys} {al : Nat → List Char} {n : Nat} {r : Res Error (List Char × Bool)}
    (hd : Lawful cfg d al) (hn : T.Fits cfg n) : Ends cfg T d n r ↔ Settles cfg T d al n r := by
  refine ⟨fun h => ?_, settles_ends hd hn⟩
  -- the run ends, so the chain has a first level that keeps the number or refuses it
  have hnt : ¬ ∀ fuel depth, digitTryFormat cfg T fuel depth d n = .timeout := fun hc => by
    obtain ⟨h0, f, e, h1⟩ := h
    rw [hc f e] at h1
    exact h0 h1.symm
  rw [C52_diverges_exactly] at hnt
  have hall : ¬ ∀ i, HandsOver cfg T (d.level i) n ∧ al (i + 1) ≠ [] := fun hc =>
    hnt (.inl fun i => ⟨(hc i).1, fun h0 => (hc i).2 ((lawful_empty hd _).mp h0)⟩)
  obtain ⟨k, hk, hmin⟩ : ∃ k, ¬ (HandsOver cfg T (d.level k) n ∧ al (k + 1) ≠ []) ∧
      ∀ i, i < k → HandsOver cfg T (d.level i) n ∧ al (i + 1) ≠ [] := by
    obtain ⟨j, hj⟩ := Classical.not_forall.mp hall
    induction j using Nat.strongRecOn with
    | _ j ih =>
      by_cases hex : ∃ i, i < j ∧ ¬ (HandsOver cfg T (d.level i) n ∧ al (i + 1) ≠ [])
      · obtain ⟨i, hi, hni⟩ := hex
        exact ih i hi hni
      · exact ⟨j, hj, fun i hi => Classical.byContradiction fun hc => hex ⟨i, hi, hc⟩⟩
  have hex : ∃ r', Settles cfg T d al n r' := by
    by_cases hho : HandsOver cfg T (d.level k) n
    · exact ⟨_, k, hmin, .inl ⟨hho, Classical.byContradiction fun hc => hk ⟨hho, hc⟩, rfl⟩⟩
    · have hnf : ¬ NeverFinishes cfg (d.level k) n := fun hc =>
        hnt (.inr ⟨k, fun i hi => ⟨(hmin i hi).1, fun h0 => (hmin i hi).2 ((lawful_empty hd _).mp h0)⟩, hho, hc⟩)
      obtain ⟨r', hr'⟩ := writes_total (hd.digits k) hn hnf
      exact ⟨r', k, hmin, .inr ⟨hho, hr'⟩⟩
  obtain ⟨r', hr'⟩ := hex
  rw [ends_unique h (settles_ends hd hn hr')]
  exact hr'

/-- A chain of three collections: the fixed digits 0 and 1; for larger numbers the fixed symbols I, J, K, L counting from one; for still
larger numbers the letters a, b, c. -/
def threeStage : DigitSys :=
  .withFallback ⟨true, true, true, 2, fun i => ['0', '1'][i]?⟩
    (.withFallback ⟨true, false, false, 4, fun i => ['I', 'J', 'K', 'L'][i]?⟩ (.digitSetZeroless ['a', 'b', 'c']))

def threeStageSymbols : Nat → List Char
  | 0 => ['0', '1']
  | 1 => ['I', 'J', 'K', 'L']
  | 2 => ['a', 'b', 'c']
  | _ => []

/-- It meets the hypotheses, and the numbers 1, 4 and 5 are settled on the first, second and third level. -/
example : Lawful ⟨true, .w64, true⟩ threeStage threeStageSymbols ∧
    Ends ⟨true, .w64, true⟩ .u16 threeStage 1 (.ok (['1'], true)) ∧
    Ends ⟨true, .w64, true⟩ .u16 threeStage 4 (.ok (['L'], true)) ∧
    Ends ⟨true, .w64, true⟩ .u16 threeStage 5 (.ok (['a', 'c'], true)) := by
  refine ⟨⟨fun k => ?_, fun k => ?_⟩, ⟨by simp, 9, 3, by decide +kernel⟩, ⟨by simp, 9, 3, by decide +kernel⟩,
    ⟨by simp, 9, 3, by decide +kernel⟩⟩
  · match k with
    | 0 => exact ⟨rfl, fun _ _ => rfl⟩
    | 1 => exact ⟨rfl, fun _ _ => rfl⟩
    | 2 => exact ⟨rfl, fun _ _ => rfl⟩
    | k + 3 => exact ⟨rfl, fun i hi => absurd hi (Nat.not_lt_zero i)⟩
  · match k with
    | 0 => decide
    | 1 => decide
    | 2 => decide
    | k + 3 => exact Nat.two_pow_pos _

/-- C73, consequences for the last two classes of outcomes: formatting with a collection and its fallbacks panics exactly when it reaches
a collection without symbols that does not refuse the number, and undefined behaviour never happens. -/
theorem C73_panics {cfg : Cfg} {T : IntTy} {d : DigitSys} {al : Nat → List Char} {n : Nat} (hd : Lawful cfg d al) (hn : T.Fits cfg n) :
    (Ends cfg T d n .panic ↔ al 0 = [] ∧ ¬ HandsOver cfg T (d.level 0) n ∧
      ((d.level 0).hasZero = true ∨ (d.level 0).zeroBased = true ∨ n ≠ 0)) ∧
    ¬ Ends cfg T d n .ub := by
  have hdel : ∀ t, deliver cfg.alloc n t ≠ .panic ∧ deliver cfg.alloc n t ≠ .ub := by
    intro t
    unfold deliver
    repeat' split
    all_goals simp
  constructor
  · rw [C73_outcome hd hn]
    constructor
    · rintro ⟨k, hk, ⟨-, -, h⟩ | ⟨h1, h2⟩⟩
      · cases h
      · generalize hr : (Res.panic : Res Error (List Char × Bool)) = r at h2
        cases h2 with
        | empty he hx =>
          cases k with
          | zero => exact ⟨he, h1, hx⟩
          | succ k => exact absurd he (hk k (by omega)).2
        | full => cases hr
        | noZero => cases hr
        | _ => exact absurd hr.symm (hdel _).1
    · rintro ⟨h1, h2, h3⟩
      exact ⟨0, fun i hi => by omega, .inr ⟨h2, .empty h1 h3⟩⟩
  · rw [C73_outcome hd hn]
    rintro ⟨k, hk, ⟨-, -, h⟩ | ⟨h1, h2⟩⟩
    · cases h
    · generalize hr : (Res.ub : Res Error (List Char × Bool)) = r at h2
      cases h2 with
      | empty => cases hr
      | full => cases hr
      | noZero => cases hr
      | _ => exact absurd hr.symm (hdel _).2

/-- A digit set without any digit makes every number panic, zero included. -/
example : Ends ⟨true, .w64, true⟩ .u8 (.digitSetNew []) 0 .panic ∧ Ends ⟨false, .w16, true⟩ .u8 (.digitSetNew []) 255 .panic :=
  ⟨⟨by simp, 9, 3, by decide +kernel⟩, ⟨by simp, 9, 3, by decide +kernel⟩⟩

/-- C73, the adapters: every collection built from lists of symbols with `new`, `zeroless`, `and`, `with_len`/`Restrict` and `one_based` has
its list of symbols on every level, so that `C73_outcome` applies to it. -/
theorem C73_adapters {cfg : Cfg} {a b : DigitSys} {x y : Nat → List Char} (ha : Lawful cfg a x) (hb : Lawful cfg b y) :
    ((∀ k, (x k ++ y k).length < 2 ^ cfg.ptr.bits) → Lawful cfg (a.chain b) fun k => x k ++ y k) ∧
    (∀ count, count ≤ (x 0).length → Lawful cfg (a.restrict count) fun k => if k = 0 then (x 0).take count else x k) ∧
    Lawful cfg a.oneBased x ∧
    ∀ al : List Char, al.length < 2 ^ cfg.ptr.bits →
      Lawful cfg (.digitSetNew al) (fun k => if k = 0 then al else []) ∧
      Lawful cfg (.digitSetZeroless al) (fun k => if k = 0 then al else []) := by
  refine ⟨fun h => ⟨fun k => chain_hasDigits (ha.digits k) (hb.digits k), h⟩, fun count hc => ⟨fun k => ?_, fun k => ?_⟩,
    ⟨fun k => ?_, ha.usize⟩, fun al hl => ⟨⟨fun k => ?_, fun k => ?_⟩, ⟨fun k => ?_, fun k => ?_⟩⟩⟩
  · cases k with
    | zero => exact restrict_hasDigits (ha.digits 0) hc
    | succ k => exact ha.digits (k + 1)
  · have h0 := ha.usize 0
    cases k with
    | zero => simp only [↓reduceIte, List.length_take]; omega
    | succ k => exact ha.usize (k + 1)
  · cases k with
    | zero => exact ⟨(ha.digits 0).1, (ha.digits 0).2⟩
    | succ k => exact ha.digits (k + 1)
  · cases k with
    | zero => exact digitSetNew_hasDigits al
    | succ k => exact ⟨rfl, fun i hi => absurd hi (Nat.not_lt_zero i)⟩
  · cases k with
    | zero => exact hl
    | succ k => exact Nat.two_pow_pos _
  · cases k with
    | zero => exact digitSetZeroless_hasDigits al
    | succ k => exact ⟨rfl, fun i hi => absurd hi (Nat.not_lt_zero i)⟩
  · cases k with
    | zero => exact hl
    | succ k => exact Nat.two_pow_pos _

/-- Two digits chained with three letters. -/
example (cfg : Cfg) : Lawful cfg ((DigitSys.digitSetNew ['0', '1']).chain (.digitSetZeroless ['a', 'b', 'c'])) (fun k => if k = 0 then ['0', '1', 'a', 'b', 'c'] else []) := by
  have ptr : ∀ m, m < 2 ^ 16 → m < 2 ^ cfg.ptr.bits := fun m h => Nat.lt_of_lt_of_le h (Nat.pow_le_pow_right (by decide) (by cases cfg.ptr <;> decide))
  have nf : Lawful cfg .noFallback (fun _ => []) := ⟨fun _ => ⟨rfl, fun i hi => absurd hi (Nat.not_lt_zero i)⟩, fun _ => ptr 0 (by decide)⟩
  have h := (C73_adapters nf nf).2.2.2
  have hc := (C73_adapters (h ['0', '1'] (ptr 2 (by decide))).1 (h ['a', 'b', 'c'] (ptr 3 (by decide))).2).1 (fun k => ?_)
  · have e : (fun k => (if k = 0 then ['0', '1'] else []) ++ (if k = 0 then ['a', 'b', 'c'] else [])) =
      (fun k => if k = 0 then ['0', '1', 'a', 'b', 'c'] else []) := by funext k; split <;> rfl
    rw [e] at hc
    exact hc
  · split <;> exact ptr _ (by decide)

/-- A chain whose first collection is not fixed: that collection writes the number. -/
theorem ends_not_fixed {cfg : Cfg} {T : IntTy} {d : DigitSys} {al : Nat → List Char} {n : Nat} {r : Res Error (List Char × Bool)}
    (hd : Lawful cfg d al) (hn : T.Fits cfg n) (hf : (d.level 0).fixed = false) :
    Ends cfg T d n r ↔ Writes cfg.alloc (T.bits cfg) (d.level 0).hasZero (d.level 0).zeroBased (al 0) n r := by
  have h0 : ¬ HandsOver cfg T (d.level 0) n := fun h => by have := h.1; rw [hf] at this; cases this
  rw [C73_outcome hd hn]
  refine ⟨fun ⟨k, hk, h⟩ => ?_, fun h => ⟨0, fun i hi => absurd hi (Nat.not_lt_zero i), .inr ⟨h0, h⟩⟩⟩
  cases k with
  | zero =>
    rcases h with ⟨h, -⟩ | ⟨-, h⟩
    · exact absurd h h0
    · exact h
  | succ k => exact absurd (hk 0 (Nat.succ_pos k)).1 h0

/-- C73, the outcome of the adapters and of `DigitSet`, whatever collections they are applied to: `one_based`, `Restrict` and `and` never hand
a number over, even if the collections do; they write it with the symbols of the first, the leading symbols, or the symbols of both, take the zero
digit from the (first) collection, and count from one in `one_based` and like the (first) collection in the others. -/
theorem C73_adapted {cfg : Cfg} {T : IntTy} {a b : DigitSys} {x y : Nat → List Char} {n : Nat} (ha : Lawful cfg a x) (hb : Lawful cfg b y)
    (hn : T.Fits cfg n) (r : Res Error (List Char × Bool)) :
    (Ends cfg T a.oneBased n r ↔ Writes cfg.alloc (T.bits cfg) (a.level 0).hasZero false (x 0) n r) ∧
    (∀ count, count ≤ (x 0).length →
      (Ends cfg T (a.restrict count) n r ↔
        Writes cfg.alloc (T.bits cfg) (a.level 0).hasZero (a.level 0).zeroBased ((x 0).take count) n r)) ∧
    ((∀ k, (x k ++ y k).length < 2 ^ cfg.ptr.bits) →
      (Ends cfg T (a.chain b) n r ↔ Writes cfg.alloc (T.bits cfg) (a.level 0).hasZero (a.level 0).zeroBased (x 0 ++ y 0) n r)) ∧
    ∀ al : List Char, al.length < 2 ^ cfg.ptr.bits →
      (Ends cfg T (.digitSetNew al) n r ↔ Writes cfg.alloc (T.bits cfg) true true al n r) ∧
      (Ends cfg T (.digitSetZeroless al) n r ↔ Writes cfg.alloc (T.bits cfg) false true al n r) := by
  obtain ⟨h1, h2, h3, h4⟩ := C73_adapters ha hb
  exact ⟨ends_not_fixed h3 hn rfl, fun count hc => ends_not_fixed (h2 count hc) hn rfl, fun h => ends_not_fixed (h1 h) hn rfl,
    fun al hl => ⟨ends_not_fixed (h4 al hl).1 hn rfl, ends_not_fixed (h4 al hl).2 hn rfl⟩⟩

/-- Restricting the fixed first stage to one symbol makes it an ordinary collection that is a single zero digit: it writes 0 and nothing
else, and in a build without allocator runs out of memory. -/
example : Ends ⟨true, .w64, true⟩ .u8 (threeStage.restrict 1) 0 (.ok (['0'], true)) ∧
    Ends ⟨false, .w64, true⟩ .u8 (threeStage.restrict 1) 4 (.err (.outOfMemory 4)) ∧
    digitTryFormat ⟨true, .w64, true⟩ .u8 100 3 (threeStage.restrict 1) 4 = .timeout := by
  refine ⟨⟨by simp, 9, 3, by decide +kernel⟩, ⟨by simp, 64, 3, by decide +kernel⟩, by decide +kernel⟩

/-- A fixed empty collection counting from one hands every number but 0 over; it refuses 0. The same collection with a zero digit
panics on 0. -/
example : Ends ⟨true, .w64, true⟩ .u8 (.withFallback ⟨true, false, false, 0, fun _ => none⟩ .noFallback) 0 (.err .noZeroSymbol) ∧
    Ends ⟨true, .w64, true⟩ .u8 (.withFallback ⟨true, false, false, 0, fun _ => none⟩ .noFallback) 7 (.err (.outOfBounds 7)) ∧
    Ends ⟨true, .w64, true⟩ .u8 (.withFallback ⟨true, true, false, 0, fun _ => none⟩ .noFallback) 0 .panic := by
  refine ⟨⟨by simp, 9, 3, by decide +kernel⟩, ⟨by simp, 9, 3, by decide +kernel⟩, ⟨by simp, 9, 3, by decide +kernel⟩⟩

end Nominals.Props
