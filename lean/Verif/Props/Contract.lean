import Verif.Spec.Contract
import Verif.Props.Dyn
import Verif.Model.Tables

/-!
# C77: what an implementation of `DigitCollection` may rely on
-/

namespace Nominals.Props

open Nominals Nominals.Spec

/-- Forget the record. -/
def unguard {σ α : Type} : α × (σ × Past) → α × σ := fun (a, (w, _)) => (a, w)

section
variable {σ : Type}

/-- The same outcome without and with the record, and `P` of the record afterwards. -/
def Alike {α : Type} (P : α → Past → Prop) (r : Res Error (α × σ)) (r' : Res Error (α × (σ × Past))) : Prop :=
  r = r'.map unguard ∧ ∀ a w past, r' = .ok (a, (w, past)) → P a past

theorem Alike.ok {α : Type} {P : α → Past → Prop} {a : α} {w : σ} {past : Past} (h : P a past) :
    Alike P (.ok (a, w)) (.ok (a, (w, past))) := ⟨rfl, fun _ _ _ e => by cases e; exact h⟩

theorem Alike.err {α : Type} {P : α → Past → Prop} {e : Error} : Alike (σ := σ) P (.err e) (.err e) := ⟨rfl, fun _ _ _ e => by cases e⟩

theorem Alike.timeout {α : Type} {P : α → Past → Prop} : Alike (σ := σ) P .timeout .timeout := ⟨rfl, fun _ _ _ e => by cases e⟩

theorem Alike.bind {α β : Type} {P : α → Past → Prop} {Q : β → Past → Prop} {r : Res Error (α × σ)} {r' : Res Error (α × (σ × Past))}
    {h : α × σ → Res Error (β × σ)} {g : α × (σ × Past) → Res Error (β × (σ × Past))} (hr : Alike P r r')
    (hg : ∀ a w past, P a past → Alike Q (h (a, w)) (g (a, (w, past)))) : Alike Q (r.bind h) (r'.bind g) := by
  obtain ⟨h1, h2⟩ := hr
  subst h1
  cases r' with
  | ok p => exact hg _ _ _ (h2 _ _ _ rfl)
  | _ => exact ⟨rfl, fun _ _ _ e => by cases e⟩

theorem Alike.call {α β : Type} {Q : β → Past → Prop} {strict : Bool} {n k : Nat} {q : Question} {record : α → Call}
    {f : σ → Res Empty (α × σ)} {w : σ} {past : Past} {h : α × σ → Res Error (β × σ)} {g : α × (σ × Past) → Res Error (β × (σ × Past))}
    (hp : permitted strict n k past q = true)
    (hg : ∀ a w', f w = .ok (a, w') → Alike Q (h (a, w')) (g (a, (w', (k, record a) :: past)))) :
    Alike Q ((f w).call.bind h) ((checked strict n k q record f (w, past)).call.bind g) := by
  unfold checked
  simp only [hp, ↓reduceIte]
  cases hf : f w with
  | ok p => exact hg _ _ (by rw [hf])
  | err e => exact e.elim
  | _ => exact ⟨rfl, fun _ _ _ e => by cases e⟩

theorem Alike.same {α β : Type} {Q : β → Past → Prop} {r : Res Error α} {h : α → Res Error (β × σ)} {g : α → Res Error (β × (σ × Past))}
    (hg : ∀ a, r = .ok a → Alike Q (h a) (g a)) : Alike Q (r.bind h) (r.bind g) := by
  cases r with
  | ok p => exact hg _ rfl
  | _ => exact ⟨rfl, fun _ _ _ e => by cases e⟩

/-- Only `len` changes the length most recently reported. -/
theorem lastLen_skip {k j : Nat} {e : Call} {past : Past} (h : ∀ l, e ≠ .len l) : lastLen k ((j, e) :: past) = lastLen k past := by
  cases e with
  | len a => exact absurd rfl (h a)
  | _ => rfl

theorem dynSubtract_alike {cfg : Cfg} {T : IntTy} {strict : Bool} {c : DynColl σ} {n k : Nat} {first : Bool} {rem : Nat} {l : Option Nat}
    {w : σ} {past : Past} (hu : lastLen k past = l) :
    Alike (fun _ past => lastLen k past = l) (dynSubtract cfg T c first rem w)
      (dynSubtract cfg T (guarded strict n k c) first rem (w, past)) := by
  unfold dynSubtract dynCondition
  refine Alike.bind (P := fun _ past => lastLen k past = l) ?_ fun cond w past hu => ?_
  · refine Alike.call (strict := strict) (n := n) (f := c.hasZero) (q := .hasZero) (record := .hasZero) rfl fun hz w _ => ?_
    dsimp only
    cases hz with
    | true => exact .ok (by rw [lastLen_skip (by simp)]; exact hu)
    | false =>
      refine Alike.call (strict := strict) (n := n) (f := c.zeroBased) (q := .zeroBased) (record := .zeroBased) (by simp [permitted]) fun zb w _ => ?_
      exact .ok (by rw [lastLen_skip (by simp), lastLen_skip (by simp)]; exact hu)
  · dsimp only
    split
    · refine Alike.call (strict := strict) (n := n) (f := c.hasZero) (q := .hasZero) (record := .hasZero) rfl fun hz w _ => ?_
      dsimp only
      split
      · exact .err
      · exact Alike.same fun a _ => .ok (by rw [lastLen_skip (by simp)]; exact hu)
    · exact .ok hu

theorem asUsize_le {cfg : Cfg} {i : Nat} : asUsize cfg i ≤ i := Nat.mod_le _ _

theorem dynLoop_alike {cfg : Cfg} {T : IntTy} {strict : Bool} {n n' k : Nat} {c : DynColl σ} : ∀ (fuel count rem : Nat) (first : Bool)
    (s : NStr) (w : σ) (past : Past), lastLen k past = some count →
    Alike (fun _ _ => True) (dynLoop cfg T c n fuel count rem first s w)
      (dynLoop cfg T (guarded strict n' k c) n fuel count rem first s (w, past)) := by
  intro fuel
  induction fuel with
  | zero => intros; exact .timeout
  | succ fuel ih =>
    intro count rem first s w past hu
    rw [dynLoop, dynLoop]
    split
    · refine Alike.bind (dynSubtract_alike hu) fun rem w past hu => ?_
      refine Alike.same fun idx hi => ?_
      refine Alike.call (strict := strict) (n := n') (f := c.digit (asUsize cfg idx)) (q := .digit (asUsize cfg idx)) (record := .digit (asUsize cfg idx)) ?_ fun ch w _ => ?_
      · have : idx < count := by
          unfold remT at hi
          split at hi
          · cases hi
          · cases hi
            exact Nat.mod_lt _ (by omega)
        have := asUsize_le (cfg := cfg) (i := idx)
        simp only [permitted, hu, decide_eq_true_eq]
        omega
      · refine Alike.same fun s _ => ?_
        refine Alike.same fun rem _ => ?_
        refine Alike.call (strict := strict) (n := n') (f := c.len) (q := .len) (record := .len) rfl fun l w _ => ?_
        dsimp only
        split
        · rename_i count' hc
          have hl : count' = l := by
            unfold IntTy.tryFrom at hc
            split at hc
            · cases hc; rfl
            · cases hc
          subst hl
          exact ih _ _ _ _ _ _ (by simp [lastLen])
        · exact .err
    · exact .ok trivial

theorem dynTryFormat_alike {cfg : Cfg} {T : IntTy} {strict : Bool} {fuel n : Nat} (hn : T.Fits cfg n) :
    ∀ (depth k : Nat) (d : DynSys σ) (w : σ) (past : Past), (strict = true → ∀ j w a w', (d.level j).fixed w = .ok (a, w') → a = false) →
    Alike (fun _ _ => True) (dynTryFormat cfg T fuel depth d n w)
      (dynTryFormat cfg T fuel depth (guardedSys strict n k d) n (w, past)) := by
  intro depth
  induction depth with
  | zero => intros; exact .timeout
  | succ depth ih =>
    intro k d w past hs
    rw [dynTryFormat, dynTryFormat]
    dsimp only
    refine Alike.call (strict := strict) (n := n) (f := (d.level 0).len) (q := .len) (record := .len) rfl fun l w _ => ?_
    dsimp only
    cases hc : T.tryFrom cfg l with
    | none =>
      refine Alike.call (strict := strict) (n := n) (f := (d.level 0).digit (asUsize cfg n)) (q := .digit (asUsize cfg n)) (record := .digit (asUsize cfg n)) ?_ fun ch w _ => Alike.same fun s _ => .ok trivial
      have h1 : ¬ l < 2 ^ T.bits cfg := by
        intro h
        simp [IntTy.tryFrom, h] at hc
      have h2 : n < 2 ^ T.bits cfg := hn
      have h3 := asUsize_le (cfg := cfg) (i := n)
      simp only [permitted, Nat.add_zero, lastLen, ↓reduceIte, decide_eq_true_eq]
      omega
    | some count =>
      have hl : count = l := by
        unfold IntTy.tryFrom at hc
        split at hc
        · cases hc; rfl
        · cases hc
      subst hl
      dsimp only
      refine Alike.bind (P := fun out past => lastLen k past = some count ∧ (out = true →
        permitted strict n (k + 1) past .default = true)) ?_ fun out w past hp => ?_
      · unfold dynOutOfRange
        refine Alike.call (strict := strict) (n := n) (f := (d.level 0).fixed) (q := .fixed) (record := .fixed) (by simp [permitted]) fun fx w hfx => ?_
        dsimp only
        cases fx with
        | false => exact .ok ⟨by simp [lastLen], by simp⟩
        | true =>
          have hst : strict = false := by
            cases strict with
            | false => rfl
            | true => exact absurd (hs rfl _ _ _ _ hfx) (by simp)
          subst hst
          refine Alike.call (strict := false) (n := n) (f := (d.level 0).zeroBased) (q := .zeroBased) (record := .zeroBased) (by simp [permitted]) fun zb w _ => .ok ⟨by simp [lastLen], ?_⟩
          cases zb <;> simp [permitted]
      · dsimp only
        split
        · next ho =>
          refine Alike.call (strict := strict) (n := n) (f := (d.level 1).default) (q := .default) (record := (fun _ => .default)) (hp.2 ho) fun _ w _ => ?_
          refine Alike.call (strict := strict) (n := n) (f := (d.level 1).isEmpty) (q := .isEmpty) (record := .isEmpty) (by simp [permitted]) fun e w _ => ?_
          dsimp only
          split
          · exact .err
          · have := ih (k + 1) d.fallback w ((k + (0 + 1), .isEmpty e) :: (k + (0 + 1), .default) :: past) fun h j => hs h (j + 1)
            have he : guardedSys strict n (k + 1) d.fallback = (guardedSys strict n k d).fallback := by
              simp only [guardedSys, DynSys.fallback, DynSys.mk.injEq]
              funext j
              rw [Nat.add_assoc, Nat.add_comm 1 j]
            rw [he] at this
            exact this
        · exact dynLoop_alike _ _ _ _ _ _ _ hp.1

end

/-- C77. A collection, of any kind and with any fallbacks, that insists on being used as `permitted` describes never notices a breach: the
call has the same outcome - string and state of the program, error, panic or no end - as with the collection itself. -/
theorem C77_contract {σ : Type} (cfg : Cfg) (T : IntTy) (fuel depth : Nat) (d : DynSys σ) (n : Nat) (hn : T.Fits cfg n) (w : σ) :
    dynTryFormat cfg T fuel depth d n w =
      (dynTryFormat cfg T fuel depth (guardedSys false n 0 d) n (w, [])).map fun (s, (w', _)) => (s, w') :=
  (dynTryFormat_alike hn depth 0 d w [] (by simp)).1

/-- The collection of C53 whose length grows with every call, checked: 17 is written in three rounds, and this is what it was asked. -/
example : (dynTryFormat ⟨true, .w64, true⟩ .u32 9 3 (guardedSys false 17 0 ⟨fun _ => fickle⟩) 17 (2, [])).bind
      (fun (s, (_, past)) => .ok (s.asStr, past.reverse.map Prod.snd))
    = .ok (some ['n', 'k', 'f'],
      [.len 2, .fixed false, .hasZero true, .digit 1 'f', .len 6, .hasZero false, .zeroBased false, .hasZero false, .digit 1 'k', .len 11,
       .hasZero true, .digit 1 'n', .len 14]) := by decide +kernel

/-- The check does catch a breach: `digit(10)` after ten digits were reported, and `zero_based` before anything else. -/
example : permitted false 0 0 [(0, .len 10)] (.digit 10) = false ∧ permitted false 0 0 [(0, .len 10)] (.digit 9) = true ∧
    permitted false 0 0 [(0, .len 10)] .zeroBased = false ∧
    checked false 0 0 (.digit 10) (.digit 10) (fickle.digit 10) (2, [(0, .len 10)]) = .ub := by decide +kernel

/-- C77. In particular, if no method has undefined behaviour of its own, no call ever breaks the rules. -/
theorem C77_no_breach {σ : Type} (cfg : Cfg) (T : IntTy) (fuel depth : Nat) (d : DynSys σ) (n : Nat) (hn : T.Fits cfg n) (w : σ)
    (hsafe : ∀ k, SafeColl (d.level k)) : dynTryFormat cfg T fuel depth (guardedSys false n 0 d) n (w, []) ≠ .ub := by
  intro h
  refine C53_never_ub cfg T fuel depth d n w hsafe ?_
  rw [C77_contract (hn := hn), h]
  rfl

/-- The fickle collection never sees a call that breaks the rules, whatever the number. -/
example (n : Nat) (hn : IntTy.u64.Fits ⟨true, .w64, false⟩ n) :
    dynTryFormat ⟨true, .w64, false⟩ .u64 100 4 (guardedSys false n 0 ⟨fun _ => fickle⟩) n (0, []) ≠ .ub :=
  C77_no_breach _ _ _ _ _ _ hn _ fun _ => fickle_safe

/-- C77. For collections that are never fixed, the documentation of `zero_based` is right: it "is only called if `has_zero_digit()` returns
false". -/
theorem C77_zero_based {σ : Type} (cfg : Cfg) (T : IntTy) (fuel depth : Nat) (d : DynSys σ) (n : Nat) (hn : T.Fits cfg n) (w : σ)
    (hfix : ∀ k w a w', (d.level k).fixed w = .ok (a, w') → a = false) :
    dynTryFormat cfg T fuel depth d n w =
      (dynTryFormat cfg T fuel depth (guardedSys true n 0 d) n (w, [])).map fun (s, (w', _)) => (s, w') :=
  (dynTryFormat_alike hn depth 0 d w [] (fun _ => hfix)).1

example : ∀ k, SafeColl ((⟨fun _ => fickle⟩ : DynSys Nat).level k) := fun _ =>
  ⟨by simp [fickle], by simp [fickle], by simp [fickle], by simp [fickle], by simp [fickle],
    fun i w => by simp only [fickle]; split <;> simp, by simp [fickle]⟩

/-- For a fixed collection it is not: the heavenly stems are asked `zero_based` before `has_zero_digit`. -/
example : dynTryFormat ⟨true, .w64, true⟩ .u32 9 3 (guardedSys true 3 0 (constantSys cjkHeavenlyStem)) 3 ((), []) = .ub ∧
    (dynTryFormat ⟨true, .w64, true⟩ .u32 9 3 (guardedSys false 3 0 (constantSys cjkHeavenlyStem)) 3 ((), [])).bind
      (fun (s, (_, past)) => .ok (s.asStr, past.reverse.map Prod.snd)) =
    .ok (some ['丙'], [.len 10, .fixed true, .zeroBased false, .hasZero false, .zeroBased false, .hasZero false, .digit 2 '丙', .len 10]) := by
  decide +kernel

end Nominals.Props
