import Verif.Spec.Dyn
import Verif.Proofs.Outcome

/-! # Invariants of formatting with collections whose answers change -/

namespace Nominals

open Nominals.Spec

/-- What is known of an outcome: a successful one holds a text related to the state by `I`, errors are about `n`, and undefined
behaviour implies `U`. -/
def DynInv {σ : Type} (I : σ → List Char → Prop) (U : Prop) (alloc : Bool) (n : Nat) : Res Error (NStr × σ) → Prop
  | .ok (s, w) => ∃ t, s.Is t ∧ I w t
  | .err e => e = .noZeroSymbol ∨ (e = .outOfMemory n ∧ alloc = false) ∨ e = .outOfBounds n
  | .panic => True
  | .timeout => True
  | .ub => U

/-- A method keeps `I`; its undefined behaviour implies `U`. -/
def Keeps {σ α : Type} (I : σ → List Char → Prop) (U : Prop) (f : σ → Res Empty (α × σ)) : Prop :=
  ∀ w t, I w t → match f w with
    | .ok (_, w') => I w' t
    | .ub => U
    | _ => True

/-- All methods keep `I`, and `digit` adds its answer in front. -/
structure CollKeeps {σ : Type} (I : σ → List Char → Prop) (U : Prop) (c : DynColl σ) : Prop where
  fixed : Keeps I U c.fixed
  hasZero : Keeps I U c.hasZero
  zeroBased : Keeps I U c.zeroBased
  len : Keeps I U c.len
  isEmpty : Keeps I U c.isEmpty
  default : Keeps I U c.default
  digit : ∀ i w t, I w t → match c.digit i w with
    | .ok (ch, w') => I w' (ch :: t)
    | .ub => U
    | _ => True

section
variable {σ : Type} {I : σ → List Char → Prop} {U : Prop} {alloc : Bool} {n : Nat}

theorem dynInv_call {α : Type} {f : σ → Res Empty (α × σ)} (hf : Keeps I U f) {w : σ} {t : List Char} (hw : I w t)
    {g : α × σ → Res Error (NStr × σ)} (hg : ∀ a w', I w' t → DynInv I U alloc n (g (a, w'))) :
    DynInv I U alloc n ((f w).call.bind g) := by
  have := hf w t hw
  generalize f w = r at this ⊢
  cases r with
  | ok p => obtain ⟨a, w'⟩ := p; exact hg a w' this
  | err e => exact e.elim
  | panic => trivial
  | ub => exact this
  | timeout => trivial

theorem dynInv_digit {c : DynColl σ} (hc : CollKeeps I U c) {i : Nat} {w : σ} {t : List Char} (hw : I w t)
    {g : Char × σ → Res Error (NStr × σ)} (hg : ∀ ch w', I w' (ch :: t) → DynInv I U alloc n (g (ch, w'))) :
    DynInv I U alloc n ((c.digit i w).call.bind g) := by
  have := hc.digit i w t hw
  generalize c.digit i w = r at this ⊢
  cases r with
  | ok p => obtain ⟨a, w'⟩ := p; exact hg a w' this
  | err e => exact e.elim
  | panic => trivial
  | ub => exact this
  | timeout => trivial

theorem dynInv_sub {cfg : Cfg} {T : IntTy} {c : DynColl σ} (hc : CollKeeps I U c) {first : Bool} {rem : Nat} {w : σ} {t : List Char} (hw : I w t)
    {g : Nat × σ → Res Error (NStr × σ)} (hg : ∀ r w', I w' t → DynInv I U alloc n (g (r, w'))) :
    DynInv I U alloc n ((dynSubtract cfg T c first rem w).bind g) := by
  unfold dynSubtract dynCondition
  simp only [Res.bind_assoc]
  refine dynInv_call hc.hasZero hw fun hz w hw => ?_
  cases hz
  · simp only [Bool.false_eq_true, ↓reduceIte, Res.bind_assoc]
    refine dynInv_call hc.zeroBased hw fun zb w hw => ?_
    simp only [Res.bind_ok]
    split
    · simp only [Res.bind_assoc]
      refine dynInv_call hc.hasZero hw fun hz w hw => ?_
      split
      · exact .inl rfl
      · unfold decrement
        split
        · split
          · trivial
          · exact hg _ _ hw
        · exact hg _ _ hw
    · exact hg _ _ hw
  · exact hg _ _ hw

theorem dynLoop_inv {cfg : Cfg} {T : IntTy} {c : DynColl σ} (hc : CollKeeps I U c) : ∀ (fuel count rem : Nat) (first : Bool)
    (s : NStr) (w : σ) (t : List Char), s.Is t → (cfg.alloc = true ∨ utf8Len t ≤ 62) → I w t →
    DynInv I U cfg.alloc n (dynLoop cfg T c n fuel count rem first s w) := by
  intro fuel
  induction fuel with
  | zero => intros; trivial
  | succ fuel ih =>
    intro count rem first s w t hs ha hw
    rw [dynLoop]
    split
    · refine dynInv_sub hc hw fun rem w hw => ?_
      dsimp only
      by_cases h0 : count = 0
      · simp only [remT, h0, ↓reduceIte]
        trivial
      · simp only [remT, divT, h0, ↓reduceIte, Res.bind_ok]
        refine dynInv_digit hc hw fun ch w hw => ?_
        have hd := (hs.pushFront (cfg := cfg) ha ch).withNominal (n := n)
        dsimp only
        generalize (s.pushFront cfg ch).withNominal n = r at hd ⊢
        cases hd with
        | err t h1 h2 => exact .inr (.inl ⟨rfl, h1⟩)
        | ok s' t' h1 h2 =>
          simp only [Res.bind_ok]
          refine dynInv_call hc.len hw fun l w hw => ?_
          dsimp only
          split
          · exact ih _ _ _ _ _ _ h1 h2 hw
          · exact .inr (.inr rfl)
    · exact ⟨t, hs, hw⟩

theorem dynTryFormat_inv {cfg : Cfg} {T : IntTy} {fuel : Nat} : ∀ (depth : Nat) (d : DynSys σ), (∀ k, CollKeeps I U (d.level k)) →
    ∀ w, I w [] → DynInv I U cfg.alloc n (dynTryFormat cfg T fuel depth d n w) := by
  intro depth
  induction depth with
  | zero => intros; trivial
  | succ depth ih =>
    intro d hd w hw
    rw [dynTryFormat]
    dsimp only
    refine dynInv_call (hd 0).len hw fun l w hw => ?_
    dsimp only
    split
    · refine dynInv_digit (hd 0) hw fun ch w hw => ?_
      have h := ofChar_del (ε := Error) cfg ch (.outOfMemory n)
      dsimp only
      generalize NStr.ofChar (ε := Error) cfg ch = r at h ⊢
      cases h with
      | err t h1 h2 => exact .inr (.inl ⟨rfl, h1⟩)
      | ok s' t' h1 h2 => exact ⟨_, h1, hw⟩
    · rename_i count _
      unfold dynOutOfRange
      simp only [Res.bind_assoc]
      refine dynInv_call (hd 0).fixed hw fun fx w hw => ?_
      cases fx
      · exact dynLoop_inv (hd 0) _ _ _ _ _ _ _ NStr.newReverse_is (.inr (by simp)) hw
      · simp only [↓reduceIte, Res.bind_assoc]
        refine dynInv_call (hd 0).zeroBased hw fun zb w hw => ?_
        simp only [Res.bind_ok]
        generalize (if zb then decide (n ≥ count) else decide (n > count)) = out
        cases out
        · exact dynLoop_inv (hd 0) _ _ _ _ _ _ _ NStr.newReverse_is (.inr (by simp)) hw
        · refine dynInv_call (hd 1).default hw fun _ w hw => ?_
          refine dynInv_call (hd 1).isEmpty hw fun e w hw => ?_
          dsimp only
          split
          · exact .inr (.inr rfl)
          · exact ih d.fallback (fun k => hd (k + 1)) w hw

end

theorem keeps_true {σ α : Type} {f : σ → Res Empty (α × σ)} (h : ∀ w, f w ≠ .ub) : Keeps (fun _ _ => True) False f := by
  intro w t _
  have := h w
  split
  · trivial
  · contradiction
  · trivial

theorem keeps_log {σ α : Type} (f : σ → Res Empty (α × σ)) : Keeps (fun (w : σ × List Char) t => w.2 = t) True (keepLog f) := by
  rintro ⟨w, log⟩ t rfl
  unfold keepLog
  dsimp only
  cases f w <;> trivial

theorem logged_keeps {σ : Type} (c : DynColl σ) : CollKeeps (fun (w : σ × List Char) t => w.2 = t) True (logged c) where
  fixed := keeps_log _
  hasZero := keeps_log _
  zeroBased := keeps_log _
  len := keeps_log _
  isEmpty := keeps_log _
  default := keeps_log _
  digit := by
    rintro i ⟨w, log⟩ t rfl
    simp only [logged]
    cases c.digit i w <;> trivial

/-- Forget the log. -/
def unlog {σ α : Type} : α × (σ × List Char) → α × σ := fun (a, (w, _)) => (a, w)

section
variable {σ : Type}

theorem unlog_call {α β : Type} {f : σ → Res Empty (α × σ)} {w : σ} {log : List Char} {g : α × (σ × List Char) → Res Error (β × (σ × List Char))}
    {h : α × σ → Res Error (β × σ)} (hg : ∀ a w' log', h (a, w') = (g (a, (w', log'))).map unlog) :
    (f w).call.bind h = ((keepLog f (w, log)).call.bind g).map unlog := by
  unfold keepLog
  dsimp only
  cases f w with
  | ok p => exact hg _ _ _
  | err e => exact e.elim
  | panic => rfl
  | ub => rfl
  | timeout => rfl

theorem unlog_digit {β : Type} {c : DynColl σ} {i : Nat} {w : σ} {log : List Char} {g : Char × (σ × List Char) → Res Error (β × (σ × List Char))}
    {h : Char × σ → Res Error (β × σ)} (hg : ∀ a w' log', h (a, w') = (g (a, (w', log'))).map unlog) :
    (c.digit i w).call.bind h = (((logged c).digit i (w, log)).call.bind g).map unlog := by
  simp only [logged]
  cases c.digit i w with
  | ok p => exact hg _ _ _
  | err e => exact e.elim
  | panic => rfl
  | ub => rfl
  | timeout => rfl

theorem unlog_bind {α β : Type} {r : Res Error (α × σ)} {r' : Res Error (α × (σ × List Char))} (hr : r = r'.map unlog)
    {g : α × (σ × List Char) → Res Error (β × (σ × List Char))} {h : α × σ → Res Error (β × σ)}
    (hg : ∀ a w' log', h (a, w') = (g (a, (w', log'))).map unlog) : r.bind h = (r'.bind g).map unlog := by
  subst hr
  cases r' with
  | ok p => exact hg _ _ _
  | _ => rfl

theorem unlog_same {α β : Type} {r : Res Error α} {g : α → Res Error (β × (σ × List Char))} {h : α → Res Error (β × σ)}
    (hg : ∀ a, h a = (g a).map unlog) : r.bind h = (r.bind g).map unlog := by
  cases r with
  | ok p => exact hg _
  | _ => rfl

theorem dynSubtract_unlog {cfg : Cfg} {T : IntTy} {c : DynColl σ} {first : Bool} {rem : Nat} {w : σ} {log : List Char} :
    dynSubtract cfg T c first rem w = (dynSubtract cfg T (logged c) first rem (w, log)).map unlog := by
  unfold dynSubtract dynCondition
  refine unlog_bind ?_ fun cond w log => ?_
  · refine unlog_call fun hz w log => ?_
    dsimp only
    split
    · rfl
    · exact unlog_call (f := c.zeroBased) fun zb w log => rfl
  · dsimp only
    split
    · refine unlog_call (f := c.hasZero) fun hz w log => ?_
      dsimp only
      split
      · rfl
      · exact unlog_same fun a => rfl
    · rfl

theorem dynLoop_unlog {cfg : Cfg} {T : IntTy} {n : Nat} {c : DynColl σ} : ∀ (fuel count rem : Nat) (first : Bool)
    (s : NStr) (w : σ) (log : List Char),
    dynLoop cfg T c n fuel count rem first s w = (dynLoop cfg T (logged c) n fuel count rem first s (w, log)).map unlog := by
  intro fuel
  induction fuel with
  | zero => intros; rfl
  | succ fuel ih =>
    intro count rem first s w log
    rw [dynLoop, dynLoop]
    split
    · refine unlog_bind dynSubtract_unlog fun rem w log => ?_
      refine unlog_same fun idx => ?_
      refine unlog_digit fun ch w log => ?_
      refine unlog_same fun s => ?_
      refine unlog_same fun rem => ?_
      refine unlog_call (f := c.len) fun l w log => ?_
      dsimp only
      split
      · exact ih _ _ _ _ _ _
      · rfl
    · rfl

theorem dynTryFormat_unlog {cfg : Cfg} {T : IntTy} {fuel n : Nat} : ∀ (depth : Nat) (d : DynSys σ) (w : σ) (log : List Char),
    dynTryFormat cfg T fuel depth d n w = (dynTryFormat cfg T fuel depth (loggedSys d) n (w, log)).map unlog := by
  intro depth
  induction depth with
  | zero => intros; rfl
  | succ depth ih =>
    intro d w log
    rw [dynTryFormat, dynTryFormat]
    dsimp only
    refine unlog_call (f := (d.level 0).len) fun l w log => ?_
    dsimp only
    split
    · refine unlog_digit fun ch w log => ?_
      exact unlog_same fun s => rfl
    · refine unlog_bind ?_ fun out w log => ?_
      · unfold dynOutOfRange
        refine unlog_call (f := (d.level 0).fixed) fun fx w log => ?_
        dsimp only
        split
        · exact unlog_call (f := (d.level 0).zeroBased) fun zb w log => rfl
        · rfl
      · dsimp only
        split
        · refine unlog_call (f := (d.level 1).default) fun _ w log => ?_
          refine unlog_call (f := (d.level 1).isEmpty) fun e w log => ?_
          dsimp only
          split
          · rfl
          · exact ih d.fallback w log
        · exact dynLoop_unlog _ _ _ _ _ _ _

end

/-! ## Overflow checks -/

/-- The first outcome is a panic, or both are the same. -/
def PanicOr {ε α : Type} (r r' : Res ε α) : Prop := r = .panic ∨ r = r'

theorem PanicOr.bind {ε α β : Type} {r r' : Res ε α} {f g : α → Res ε β} (h : PanicOr r r') (hf : ∀ a, PanicOr (f a) (g a)) :
    PanicOr (r.bind f) (r'.bind g) := by
  rcases h with rfl | rfl
  · exact .inl rfl
  · cases r with
    | ok a => exact hf a
    | _ => exact .inr rfl

theorem subT_profiles {ε : Type} {cfg : Cfg} {T : IntTy} {a b : Nat} : PanicOr (subT (ε := ε) cfg.debug T a b) (subT cfg.release T a b) := by
  unfold subT
  split
  · exact .inr rfl
  · exact .inl rfl

theorem addU8_profiles {ε : Type} {cfg : Cfg} {a b : UInt8} : PanicOr (addU8 (ε := ε) cfg.debug a b) (addU8 cfg.release a b) := by
  unfold addU8
  split
  · exact .inr rfl
  · exact .inl rfl

theorem PanicOr.map {ε α β : Type} {r r' : Res ε α} {f : α → β} (h : PanicOr r r') : PanicOr (r.map f) (r'.map f) := by
  rcases h with rfl | rfl
  · exact .inl rfl
  · exact .inr rfl

theorem PanicOr.mapErr {ε ε' α : Type} {r r' : Res ε α} {f : ε → ε'} (h : PanicOr r r') : PanicOr (r.mapErr f) (r'.mapErr f) := by
  rcases h with rfl | rfl
  · exact .inl rfl
  · exact .inr rfl

theorem tryPushFront_profiles {cfg : Cfg} {s : NStr} {ch : Char} :
    PanicOr (s.tryPushFront cfg.debug ch) (s.tryPushFront cfg.release ch) := by
  unfold NStr.tryPushFront
  split
  · refine .bind addU8_profiles fun l => ?_
    split
    · refine .map ?_
      unfold InlineString.pushFront
      dsimp only
      split
      · exact .bind subT_profiles fun _ => .bind subT_profiles fun _ => .inr rfl
      · exact .inr rfl
    · exact .inr rfl
  · exact .inr rfl

theorem pushFront_profiles {cfg : Cfg} {s : NStr} {ch : Char} : PanicOr (s.pushFront cfg.debug ch) (s.pushFront cfg.release ch) :=
  .mapErr tryPushFront_profiles

theorem tryPush_profiles {cfg : Cfg} {s : NStr} {ch : Char} : PanicOr (s.tryPush cfg.debug ch) (s.tryPush cfg.release ch) := by
  unfold NStr.tryPush
  split
  · refine .bind addU8_profiles fun l => ?_
    split
    · refine .map ?_
      unfold InlineString.push
      dsimp only
      split
      · exact .bind subT_profiles fun _ => .bind (.inr rfl) fun _ => .bind subT_profiles fun _ => .inr rfl
      · exact .inr rfl
    · exact .inr rfl
  · exact .inr rfl

theorem push_profiles {cfg : Cfg} {s : NStr} {ch : Char} : PanicOr (s.push cfg.debug ch) (s.push cfg.release ch) :=
  .mapErr tryPush_profiles

theorem tryPushStr_profiles {cfg : Cfg} {s : NStr} {u : List Char} : PanicOr (s.tryPushStr cfg.debug u) (s.tryPushStr cfg.release u) := by
  unfold NStr.tryPushStr
  split
  · dsimp only
    split
    · refine .map ?_
      unfold InlineString.pushStr
      dsimp only
      split
      · exact .bind subT_profiles fun _ => .bind (.inr rfl) fun _ => .bind subT_profiles fun _ => .inr rfl
      · exact .inr rfl
    · exact .inr rfl
  · exact .inr rfl

theorem ofChar_profiles {ε : Type} {cfg : Cfg} {ch : Char} : PanicOr (NStr.ofChar (ε := ε) cfg.debug ch) (NStr.ofChar cfg.release ch) := by
  unfold NStr.ofChar
  rcases push_profiles (cfg := cfg) (s := NStr.new) (ch := ch) with h | h
  · rw [h]; exact .inl rfl
  · rw [h]; exact .inr rfl

theorem dynSubtract_profiles {σ : Type} {cfg : Cfg} {T : IntTy} {c : DynColl σ} {first : Bool} {rem : Nat} {w : σ} :
    PanicOr (dynSubtract cfg.debug T c first rem w) (dynSubtract cfg.release T c first rem w) := by
  unfold dynSubtract
  refine PanicOr.bind (.inr rfl) fun a => ?_
  dsimp only
  split
  · refine PanicOr.bind (.inr rfl) fun a => ?_
    split
    · exact .inr rfl
    · refine PanicOr.bind ?_ fun a => .inr rfl
      unfold decrement
      split
      · exact .inl rfl
      · exact .inr rfl
  · exact .inr rfl

theorem dynLoop_profiles {σ : Type} {cfg : Cfg} {T : IntTy} {c : DynColl σ} {n : Nat} : ∀ (fuel count rem : Nat) (first : Bool) (s : NStr) (w : σ),
    PanicOr (dynLoop cfg.debug T c n fuel count rem first s w) (dynLoop cfg.release T c n fuel count rem first s w) := by
  intro fuel
  induction fuel with
  | zero => intros; exact .inr rfl
  | succ fuel ih =>
    intro count rem first s w
    rw [dynLoop, dynLoop]
    split
    · refine PanicOr.bind dynSubtract_profiles fun a => ?_
      refine PanicOr.bind (.inr rfl) fun idx => ?_
      refine PanicOr.bind (.inr rfl) fun a => ?_
      refine PanicOr.bind (.mapErr pushFront_profiles) fun s => ?_
      refine PanicOr.bind (.inr rfl) fun rem => ?_
      refine PanicOr.bind (.inr rfl) fun a => ?_
      rw [show T.tryFrom cfg.release = T.tryFrom cfg.debug from rfl]
      dsimp only
      split
      · exact ih _ _ _ _ _
      · exact .inr rfl
    · exact .inr rfl

theorem dynTryFormat_profiles {σ : Type} {cfg : Cfg} {T : IntTy} {fuel n : Nat} : ∀ (depth : Nat) (d : DynSys σ) (w : σ),
    PanicOr (dynTryFormat cfg.debug T fuel depth d n w) (dynTryFormat cfg.release T fuel depth d n w) := by
  intro depth
  induction depth with
  | zero => intros; exact .inr rfl
  | succ depth ih =>
    intro d w
    rw [dynTryFormat, dynTryFormat]
    dsimp only
    refine PanicOr.bind (.inr rfl) fun a => ?_
    rw [show T.tryFrom cfg.release = T.tryFrom cfg.debug from rfl]
    split
    · exact .bind (.inr rfl) fun _ => .bind ofChar_profiles fun _ => .inr rfl
    · refine PanicOr.bind (.inr rfl) fun a => ?_
      split
      · refine PanicOr.bind (.inr rfl) fun _ => ?_
        refine PanicOr.bind (.inr rfl) fun e => ?_
        split
        · exact .inr rfl
        · exact ih _ _
      · exact dynLoop_profiles _ _ _ _ _ _

/-! ## Constant collections -/

theorem dynLoop_constant {cfg : Cfg} {T : IntTy} {n : Nat} {c : Coll} : ∀ (fuel count rem : Nat) (first : Bool) (s : NStr),
    dynLoop cfg T (constant c) n fuel count rem first s () = (digitLoop cfg T c n fuel count rem first s).map (·, ()) := by
  intro fuel
  induction fuel with
  | zero => intros; rfl
  | succ fuel ih =>
    intro count rem first s
    rw [dynLoop, digitLoop]
    split
    · have hsub : dynSubtract cfg T (constant c) first rem () =
          (if !c.hasZero && (!c.zeroBased || !first) then
            if !c.hasZero && rem == 0 then .err .noZeroSymbol else subT cfg T rem 1
          else Res.ok rem).map (·, ()) := by
        unfold dynSubtract dynCondition constant
        cases hz : c.hasZero
        · cases hc : (!c.zeroBased || !first)
          · simp [Res.call, Res.bind, Res.map, hc]
          · simp only [Res.call, Res.bind, Res.map, hc, Bool.false_eq_true, ↓reduceIte, Bool.not_false, Bool.true_and]
            split
            · rfl
            · next h =>
              have h : ¬ rem = 0 := by simpa using h
              have h1 : 1 ≤ rem := Nat.pos_of_ne_zero h
              simp only [decrement, if_neg h, subT, h1, ↓reduceIte]
        · simp [Res.call, Res.bind, Res.map]
      rw [hsub]
      generalize (if !c.hasZero && (!c.zeroBased || !first) then
            if !c.hasZero && rem == 0 then .err .noZeroSymbol else subT cfg T rem 1
          else Res.ok (ε := Error) rem) = r
      cases r with
      | ok rem =>
        simp only [Res.bind, Res.map]
        cases remT (ε := Error) rem count with
        | ok idx =>
          simp only [constant]
          cases c.digit (asUsize cfg idx) with
          | none => rfl
          | some ch =>
            simp only [Res.ofIndex, Res.bind, Res.call]
            cases (s.pushFront cfg ch).withNominal n with
            | ok s =>
              simp only
              cases divT (ε := Error) rem count with
              | ok rem =>
                simp only
                cases T.tryFrom cfg c.len with
                | none => rfl
                | some count => exact ih _ _ _ _
              | _ => rfl
            | _ => rfl
        | _ => rfl
      | _ => rfl
    · rfl

theorem dynTryFormat_constant {cfg : Cfg} {T : IntTy} {fuel n : Nat} : ∀ (depth : Nat) (d : DigitSys),
    dynTryFormat cfg T fuel depth (constantSys d) n () = (digitTryFormat cfg T fuel depth d n).map (·, ()) := by
  intro depth
  induction depth with
  | zero => intros; rfl
  | succ depth ih =>
    intro d
    rw [dynTryFormat, digitTryFormat]
    dsimp only
    show (Res.ok ((d.level 0).len, ())).call.bind _ = _
    simp only [Res.call, Res.bind]
    cases T.tryFrom cfg (d.level 0).len with
    | none =>
      show (((Res.ofIndex ((d.level 0).digit (asUsize cfg n))).bind fun ch => Res.ok (ch, ())).call).bind _ = _
      cases (d.level 0).digit (asUsize cfg n) with
      | none => rfl
      | some ch =>
        simp only [Res.ofIndex, Res.bind, Res.call]
        cases NStr.ofChar (ε := Error) cfg ch <;> rfl
    | some count =>
      dsimp only
      have hout : dynOutOfRange ((constantSys d).level 0) n count () = .ok
          ((d.level 0).fixed && (if (d.level 0).zeroBased then decide (n ≥ count) else decide (n > count)), ()) := by
        unfold dynOutOfRange
        simp only [constantSys, constant, Res.call, Res.bind]
        cases (d.level 0).fixed <;> simp
      rw [hout]
      simp only
      generalize ((d.level 0).fixed && (if (d.level 0).zeroBased then decide (n ≥ count) else decide (n > count))) = out
      cases out
      · exact dynLoop_constant _ _ _ _ _
      · have he : ((constantSys d).fallback.level 0).isEmpty () = .ok (((d.fallback.level 0).len == 0), ()) := rfl
        have hd : ((constantSys d).fallback.level 0).default () = .ok ((), ()) := rfl
        rw [hd]
        simp only
        rw [he]
        simp only
        generalize ((d.fallback.level 0).len == 0) = b
        cases b
        · exact ih d.fallback
        · rfl

end Nominals
