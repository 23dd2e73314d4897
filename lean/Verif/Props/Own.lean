import Verif.Spec.Own
import Verif.Props.Built

/-!
# Property C93: systems of the user's own, whose answers may change

The vocabulary (`Typed`, `standsFor`, `watched`, `labels`, `pointers`) is in `Verif/Spec/Own.lean`.
-/

namespace Nominals.Props

open Nominals Nominals.Spec

theorem standsFor_error {e : Error} {t : List Char} : standsFor (.error e) t ↔ t = Nat.toDigits 10 (about e) := by
  cases e with
  | noZeroSymbol =>
    have : Nat.toDigits 10 0 = ['0'] := by decide
    simp only [standsFor, about, this]
  | outOfMemory k => exact Iff.rfl
  | outOfBounds k => exact Iff.rfl

theorem unwrapReturned_ok {σ : Type} {cfg : Cfg} {T : IntTy} {s : DynNominal σ} (ht : Typed cfg T s) {n : Nat} {w w' : σ} {r : Except Error NStr}
    (h : s.tryFormat n w = .ok (r, w')) : ∃ u t, unwrapReturned cfg T r = .ok u ∧ standsFor r t ∧ u.asStr = some t ∧ Reachable cfg u ∧
      (r = .ok u ∨ u.isInline = true) := by
  have hr := ht n w r w' h
  cases r with
  | ok u =>
    obtain ⟨t, h1, _⟩ := reachable_holds hr
    exact ⟨u, t, rfl, h1.asStr, h1.asStr, hr, .inl rfl⟩
  | error e =>
    have hf : T.Fits cfg (about e) := by
      cases e with
      | noZeroSymbol => exact Nat.two_pow_pos _
      | outOfMemory k => exact hr
      | outOfBounds k => exact hr
    have hv := C41_into_decimal (cfg := cfg) e hf
    have hg := unwrapOrDecimal_good (cfg := cfg) (T := T) (r := .err e) .err
    unfold unwrapOrDecimal at hg
    unfold unwrapReturned
    simp only at hg ⊢
    generalize e.intoDecimal cfg T = x at hv hg ⊢
    cases x with
    | ok u =>
      simp only [view, Res.bind] at hv
      cases ha : u.asStr with
      | none => rw [ha] at hv; cases hv
      | some t =>
        rw [ha] at hv
        simp only [Res.ok.injEq, Prod.mk.injEq] at hv
        exact ⟨u, t, rfl, standsFor_error.mpr hv.1, ha, hg u rfl, .inr hv.2⟩
    | err e => cases hv
    | panic => cases hv
    | ub => cases hv
    | timeout => cases hv

/-- C93. For every system of the user's own that does not override `format_nominal`: if `try_format_nominal` returns, so does `to_nominal`,
with the text that was returned, or with the number of the error in decimal, and the program is in the state in which that one call has
left it. -/
theorem C93_text {σ : Type} (cfg : Cfg) (T : IntTy) (s : DynNominal σ) (ho : s.formatOverride = none) (ht : Typed cfg T s) (n : Nat) (w w' : σ)
    (r : Except Error NStr) (h : s.tryFormat n w = .ok (r, w')) :
    ∃ u t, dynToNominal cfg T n s w = .ok (u, w') ∧ standsFor r t ∧ u.asStr = some t ∧ Reachable cfg u ∧ (r = .ok u ∨ u.isInline = true) := by
  obtain ⟨u, t, h1, h2⟩ := unwrapReturned_ok ht h
  refine ⟨u, t, ?_, h2⟩
  unfold dynToNominal DynNominal.format
  rw [ho]
  simp only [h, Res.bind_ok, h1]

/-- A system that counts its calls, and from the second call on complains about the number 9, whatever it is asked. -/
def moody : DynNominal Nat where
  tryFormat _ w := .ok (if w = 0 then .ok NStr.new else .error (.outOfBounds 9), w + 1)

theorem moody_typed (cfg : Cfg) (T : IntTy) : Typed cfg T moody := by
  intro n w r w' h
  simp only [moody, Res.ok.injEq, Prod.mk.injEq] at h
  obtain ⟨rfl, _⟩ := h
  by_cases h0 : w = 0
  · simp only [h0, ↓reduceIte]
    exact .new
  · simp only [h0, ↓reduceIte]
    have : 2 ^ 8 ≤ 2 ^ T.bits cfg := Nat.pow_le_pow_right (by decide) (by cases T <;> simp [IntTy.bits] <;> cases cfg.ptr <;> decide)
    exact Nat.lt_of_lt_of_le (by decide) this

/-- The hypotheses hold for this system; the number printed is that of the error, not the one asked about. -/
example : moody.formatOverride = none ∧ Typed ⟨false, .w32, true⟩ .u8 moody ∧
    (dynToNominal ⟨false, .w32, true⟩ .u8 5 moody 0).bind (fun (u, w) => .ok (u.asStr, w)) = (.ok (some [], 1) : Res Empty _) ∧
    (dynToNominal ⟨false, .w32, true⟩ .u8 5 moody 1).bind (fun (u, w) => .ok (u.asStr, w)) = (.ok (some ['9'], 2) : Res Empty _) :=
  ⟨rfl, moody_typed _ _, by decide +kernel, by decide +kernel⟩

/-- C93. `to_nominal` panics if and only if `try_format_nominal` does, and does not return if and only if `try_format_nominal` does not. -/
theorem C93_silence {σ : Type} (cfg : Cfg) (T : IntTy) (s : DynNominal σ) (ho : s.formatOverride = none) (ht : Typed cfg T s) (n : Nat) (w : σ) :
    (dynToNominal cfg T n s w = .panic ↔ s.tryFormat n w = .panic) ∧ (dynToNominal cfg T n s w = .timeout ↔ s.tryFormat n w = .timeout) := by
  cases h : s.tryFormat n w with
  | ok p =>
    obtain ⟨u, t, h1, _⟩ := C93_text cfg T s ho ht n w p.2 p.1 h
    rw [h1]
    simp
  | err e => exact e.elim
  | panic => simp [dynToNominal, DynNominal.format, ho, h, Res.bind]
  | ub => simp [dynToNominal, DynNominal.format, ho, h, Res.bind]
  | timeout => simp [dynToNominal, DynNominal.format, ho, h, Res.bind]

/-- A system that panics on 13 only. -/
example : let s : DynNominal Unit := ⟨fun n w => if n = 13 then .panic else .ok (.error (.outOfBounds n), w), none⟩
    dynToNominal ⟨true, .w64, true⟩ .u8 13 s () = .panic ∧
    (dynToNominal ⟨true, .w64, true⟩ .u8 12 s ()).bind (fun (u, w) => .ok (u.asStr, w)) = (.ok (some ['1', '2'], ()) : Res Empty _) :=
  ⟨rfl, by decide +kernel⟩

theorem watched_format {σ : Type} (cfg : Cfg) (T : IntTy) (s : DynNominal σ) (ho : s.formatOverride = none) (n : Nat) (w : σ) (log : List Nat) :
    dynToNominal cfg T n (watched s) (w, log) = (dynToNominal cfg T n s w).bind fun (u, w) => .ok (u, (w, log ++ [n])) := by
  unfold dynToNominal DynNominal.format
  rw [ho]
  simp only [watched]
  cases s.tryFormat n w with
  | ok p =>
    simp only [Res.bind_ok]
    cases unwrapReturned cfg T p.1 <;> rfl
  | _ => rfl

/-- C93. `to_nominal` asks the system exactly once, about the number it was called for, and its result does not depend on being watched. -/
theorem C93_once {σ : Type} (cfg : Cfg) (T : IntTy) (s : DynNominal σ) (ho : s.formatOverride = none) (n : Nat) (w w' : σ) (u : NStr)
    (log log' : List Nat) :
    dynToNominal cfg T n (watched s) (w, log) = .ok (u, (w', log')) ↔ dynToNominal cfg T n s w = .ok (u, w') ∧ log' = log ++ [n] := by
  rw [watched_format cfg T s ho]
  cases dynToNominal cfg T n s w with
  | ok p =>
    obtain ⟨v, x⟩ := p
    simp only [Res.bind_ok, Res.ok.injEq, Prod.mk.injEq]
    constructor
    · rintro ⟨rfl, rfl, rfl⟩
      exact ⟨⟨rfl, rfl⟩, rfl⟩
    · rintro ⟨⟨rfl, rfl⟩, rfl⟩
      exact ⟨rfl, rfl, rfl⟩
  | _ => simp [Res.bind]

/-- Also when the answer is an error and is replaced by a decimal numeral. -/
example : (dynToNominal ⟨true, .w64, true⟩ .u8 5 (watched moody) (1, [3])).bind (fun (u, w) => .ok (u.asStr, w)) =
    (.ok (some ['9'], (2, [3, 5])) : Res Empty _) := by decide +kernel

/-- C93. Labels for a list of numbers: the system is asked about each number once, in order, and there is one label for each; with a system
whose `try_format_nominal` always returns there always is such a list, each label a proper string. -/
theorem C93_labels {σ : Type} (cfg : Cfg) (T : IntTy) (s : DynNominal σ) (ho : s.formatOverride = none) (ns : List Nat) (w : σ) :
    (∀ us w' log log', labels cfg T (watched s) ns (w, log) = .ok (us, (w', log')) ↔
      labels cfg T s ns w = .ok (us, w') ∧ log' = log ++ ns) ∧
    (∀ us w', labels cfg T s ns w = .ok (us, w') → us.length = ns.length) ∧
    (Typed cfg T s → (∀ n w, ∃ r w', s.tryFormat n w = .ok (r, w')) →
      ∃ us w', labels cfg T s ns w = .ok (us, w') ∧ ∀ u ∈ us, Reachable cfg u) := by
  induction ns generalizing w with
  | nil =>
    refine ⟨fun us w' log log' => ?_, fun us w' h => ?_, fun _ _ => ⟨[], w, rfl, by simp⟩⟩
    · simp only [labels, Res.ok.injEq, Prod.mk.injEq, List.append_nil]
      constructor
      · rintro ⟨rfl, rfl, rfl⟩
        exact ⟨⟨rfl, rfl⟩, rfl⟩
      · rintro ⟨⟨rfl, rfl⟩, rfl⟩
        exact ⟨rfl, rfl, rfl⟩
    · simp only [labels, Res.ok.injEq, Prod.mk.injEq] at h
      rw [← h.1]
      rfl
  | cons n ns ih =>
    refine ⟨fun us w' log log' => ?_, fun us w' h => ?_, fun ht hr => ?_⟩
    · simp only [labels, watched_format cfg T s ho]
      cases dynToNominal cfg T n s w with
      | ok p =>
        obtain ⟨v, x⟩ := p
        simp only [Res.bind_ok]
        have ih := (ih x).1
        constructor
        · intro h
          cases hl : labels cfg T (watched s) ns (x, log ++ [n]) with
          | ok q =>
            obtain ⟨vs, y, l⟩ := q
            obtain ⟨h1, h2⟩ := (ih vs y _ _).mp hl
            rw [hl] at h
            simp only [Res.bind_ok, Res.ok.injEq, Prod.mk.injEq] at h
            obtain ⟨rfl, rfl, rfl⟩ := h
            rw [h1]
            exact ⟨rfl, by rw [h2, List.append_assoc]; rfl⟩
          | _ => rw [hl] at h; cases h
        · rintro ⟨h, rfl⟩
          cases hl : labels cfg T s ns x with
          | ok q =>
            obtain ⟨vs, y⟩ := q
            rw [hl] at h
            simp only [Res.bind_ok, Res.ok.injEq, Prod.mk.injEq] at h
            obtain ⟨rfl, rfl⟩ := h
            have := (ih vs y (log ++ [n]) (log ++ [n] ++ ns)).mpr ⟨hl, rfl⟩
            rw [this, List.append_assoc]
            rfl
          | _ => rw [hl] at h; cases h
      | _ => simp [Res.bind]
    · simp only [labels] at h
      cases hd : dynToNominal cfg T n s w with
      | ok p =>
        obtain ⟨v, x⟩ := p
        rw [hd] at h
        simp only [Res.bind_ok] at h
        cases hl : labels cfg T s ns x with
        | ok q =>
          obtain ⟨vs, y⟩ := q
          rw [hl] at h
          simp only [Res.bind_ok, Res.ok.injEq, Prod.mk.injEq] at h
          rw [← h.1, List.length_cons, List.length_cons, (ih x).2.1 vs y hl]
        | _ => rw [hl] at h; cases h
      | _ => rw [hd] at h; cases h
    · obtain ⟨r, w1, h1⟩ := hr n w
      obtain ⟨u, t, h2, _, _, h3, _⟩ := C93_text cfg T s ho ht n w w1 r h1
      obtain ⟨us, w2, h4, h5⟩ := (ih w1).2.2 ht hr
      refine ⟨u :: us, w2, ?_, ?_⟩
      · simp only [labels, h2, Res.bind_ok, h4]
      · intro v hv
        rcases List.mem_cons.mp hv with rfl | hv
        · exact h3
        · exact h5 v hv

/-- Three labels of the system above: the first is empty, the others complain. -/
example : (labels ⟨true, .w64, true⟩ .u8 (watched moody) [7, 8, 7] (0, [])).bind (fun (us, w) => .ok (us.map NStr.asStr, w)) =
    (.ok ([some [], some ['9'], some ['9']], (3, [7, 8, 7])) : Res Empty _) ∧ ∀ n w, ∃ r w', moody.tryFormat n w = .ok (r, w') :=
  ⟨by decide +kernel, fun _ w => ⟨_, w + 1, rfl⟩⟩

/-- C93. A pointer, or a pointer to a pointer, and so on, behaves as the system itself does without its `format_nominal`. -/
theorem C93_pointers {σ : Type} (cfg : Cfg) (T : IntTy) (s : DynNominal σ) (k n : Nat) (w : σ) :
    (pointers s k).tryFormat n w = s.tryFormat n w ∧
    dynToNominal cfg T n (pointers s (k + 1)) w = dynToNominal cfg T n ⟨s.tryFormat, none⟩ w := by
  have h : ∀ k n w, (pointers s k).tryFormat n w = s.tryFormat n w := by
    intro k
    induction k with
    | zero => intro n w; rfl
    | succ k ih => intro n w; exact ih n w
  refine ⟨h k n w, ?_⟩
  simp only [dynToNominal, DynNominal.format, pointers, DynNominal.boxed, h]

/-- A system whose `format_nominal` panics is harmless behind two pointers. -/
example : let s : DynNominal Unit := ⟨fun n w => .ok (.error (.outOfBounds n), w), some fun _ _ => .panic⟩
    dynToNominal ⟨true, .w64, true⟩ .u8 4 s () = .panic ∧
    (dynToNominal ⟨true, .w64, true⟩ .u8 4 (pointers s 2) ()).bind (fun (u, w) => .ok (u.asStr, w)) = (.ok (some ['4'], ()) : Res Empty _) :=
  ⟨rfl, by decide +kernel⟩

/-- C93. Systems without state are the special case of C41 and C44: the same result, and nothing else happens. -/
theorem C93_unchanging (cfg : Cfg) (T : IntTy) (s : NominalSystem) (n : Nat) :
    dynToNominal cfg T n (unchanging cfg T s) () = (toNominal cfg T n s).map fun u => (u, ()) := by
  unfold dynToNominal DynNominal.format toNominal NominalSystem.format unchanging
  cases s.formatOverride with
  | some f => rfl
  | none =>
    simp only [Option.map_none]
    cases s.tryFormat cfg T n with
    | ok t => rfl
    | err e =>
      simp only [Res.bind_ok, unwrapReturned, unwrapOrDecimal]
      cases e.intoDecimal cfg T <;> rfl
    | _ => rfl

/-- Georgian has no zero. -/
example : (dynToNominal ⟨true, .w64, true⟩ .u8 0 (unchanging ⟨true, .w64, true⟩ .u8 Named.georgian.system) ()).bind (fun (u, w) => .ok (u.asStr, w)) =
    (.ok (some ['0'], ()) : Res Empty _) := by decide +kernel

end Nominals.Props
