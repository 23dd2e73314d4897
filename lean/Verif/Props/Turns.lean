import Verif.Spec.Turns
import Verif.Props.Fallback

/-!
# Property C96: several systems in turn

Vocabulary: `Verif/Spec/Turns.lean`, `Verif/Spec/Catalogue.lean` (`repertoire` in `Verif/Props/Repertoire.lean`).
-/

namespace Nominals.Props

open Nominals.Spec

theorem view_err {r : Res Error NStr} {e : Error} : view r = .err e ↔ r = .err e := by
  constructor
  · intro h
    unfold view at h
    cases r with
    | ok st => simp only [Res.bind] at h; split at h <;> cases h
    | err e' => cases h; rfl
    | _ => cases h
  · rintro rfl; rfl

/-- C96. The systems are asked in order and the first that does not answer with an error decides: its text, or its panic. If all of them fail,
the error is the one of the last. -/
theorem C96_first {cfg : Cfg} {T : IntTy} {n : Nat} (s : NominalSystem) (others : List NominalSystem) :
    (∀ before r after, s :: others = before ++ r :: after → (∀ q ∈ before, ∃ e, tryToNominal cfg T n q = .err e) →
      (∀ e, tryToNominal cfg T n r ≠ .err e) → tryToNominal cfg T n (inTurn s others) = tryToNominal cfg T n r) ∧
    (∀ before r, s :: others = before ++ [r] → (∀ q ∈ before, ∃ e, tryToNominal cfg T n q = .err e) →
      ∀ e, tryToNominal cfg T n r = .err e → tryToNominal cfg T n (inTurn s others) = .err e) := by
  induction others generalizing s with
  | nil =>
    constructor
    · intro before r after h hb hr
      cases before with
      | nil => cases h; rfl
      | cons b before => cases before <;> cases h
    · intro before r h hb e he
      cases before with
      | nil => cases h; exact he
      | cons b before => cases before <;> cases h
  | cons o others ih =>
    constructor
    · intro before r after h hb hr
      cases before with
      | nil =>
        cases h
        simp only [tryToNominal, inTurn] at hr ⊢
      | cons b before =>
        simp only [List.cons_append, List.cons.injEq] at h
        obtain ⟨rfl, h⟩ := h
        obtain ⟨e, he⟩ := hb s (by simp)
        rw [← (ih o).1 before r after h (fun q hq => hb q (by simp [hq])) hr]
        simp only [tryToNominal, inTurn] at he ⊢
        rw [he]
    · intro before r h hb e' he'
      cases before with
      | nil => cases h
      | cons b before =>
        simp only [List.cons_append, List.cons.injEq] at h
        obtain ⟨rfl, h⟩ := h
        obtain ⟨e, he⟩ := hb s (by simp)
        rw [← (ih o).2 before r h (fun q hq => hb q (by simp [hq])) e' he']
        simp only [tryToNominal, inTurn] at he ⊢
        rw [he]

/-- 51 is beyond `CircledNumber` and `DoubleCircledNumber`, so the third system decides; 0 is in none of the three and the error is that of the
last. -/
example : view (tryToNominal ⟨true, .w64, true⟩ .u8 51
      (inTurn Named.circledNumber.system [Named.doubleCircledNumber.system, Named.georgian.system])) = .ok (['ნ', 'ა'], true) ∧
    view (tryToNominal ⟨true, .w64, true⟩ .u8 0
      (inTurn Named.circledNumber.system [Named.doubleCircledNumber.system, Named.georgian.system])) = .ok (['\u24ea'], true) ∧
    view (tryToNominal ⟨true, .w64, true⟩ .u8 0 (inTurn Named.doubleCircledNumber.system [Named.georgian.system])) = .err .noZeroSymbol := by
  decide +kernel

/-- Where the outcome comes from. -/
theorem inTurn_from {cfg : Cfg} {T : IntTy} {n : Nat} (s : NominalSystem) (others : List NominalSystem) :
    (∃ r ∈ s :: others, tryToNominal cfg T n (inTurn s others) = tryToNominal cfg T n r) ∧
    ((∃ e, tryToNominal cfg T n (inTurn s others) = .err e) → ∀ r ∈ s :: others, ∃ e, tryToNominal cfg T n r = .err e) := by
  induction others generalizing s with
  | nil =>
    refine ⟨⟨s, by simp, rfl⟩, fun h r hr => ?_⟩
    simp only [List.mem_singleton] at hr
    subst hr
    exact h
  | cons o others ih =>
    cases hs : s.tryFormat cfg T n with
    | err e =>
      have he : tryToNominal cfg T n (inTurn s (o :: others)) = tryToNominal cfg T n (inTurn o others) := by
        simp only [tryToNominal, inTurn, hs]
      rw [he]
      obtain ⟨⟨r, hr, h1⟩, h2⟩ := ih o
      refine ⟨⟨r, by simp at hr ⊢; exact .inr hr, h1⟩, fun h q hq => ?_⟩
      rcases List.mem_cons.mp hq with rfl | hq
      · exact ⟨e, hs⟩
      · exact h2 h q hq
    | _ =>
      have he : tryToNominal cfg T n (inTurn s (o :: others)) = tryToNominal cfg T n s := by
        simp only [tryToNominal, inTurn, hs]
      rw [he]
      refine ⟨⟨s, by simp, rfl⟩, fun ⟨e, h⟩ => ?_⟩
      rw [tryToNominal, hs] at h
      cases h

theorem named_about {cfg : Cfg} {T : IntTy} {n : Nat} {s : Named} (hn : T.Fits cfg n) {e : Error}
    (h : view (tryToNominal cfg T n s.system) = .err e) : about e = n := by
  have := C42_named s hn h
  cases e with
  | noZeroSymbol => exact Eq.symm this
  | outOfMemory k => exact this
  | outOfBounds k => exact this

/-- The outcome of the first of the named systems that can write `n` in a build. -/
def firstText (alloc : Bool) (n : Nat) (l : List Named) : Option (List Char × Bool) :=
  l.findSome? fun r =>
    match present alloc n (answer r n) with
    | .ok x => some x
    | _ => none

theorem turn_view {cfg : Cfg} {T : IntTy} {n : Nat} (s : Named) (others : List Named) (hn : T.Fits cfg n) :
    (∀ x, firstText cfg.alloc n (s :: others) = some x → view (tryToNominal cfg T n (inTurn s.system (others.map Named.system))) = .ok x) ∧
    (firstText cfg.alloc n (s :: others) = none →
      ∃ e, view (tryToNominal cfg T n (inTurn s.system (others.map Named.system))) = .err e ∧ about e = n) := by
  induction others generalizing s with
  | nil =>
    have hc := C51_catalogue s hn
    have he : tryToNominal cfg T n (inTurn s.system (List.map Named.system [])) = tryToNominal cfg T n s.system := rfl
    rw [he]
    simp only [firstText, List.findSome?_cons, List.findSome?_nil, ← hc]
    rcases C41_always_succeeds s hn with ⟨x, h, _⟩ | ⟨e, h, _⟩
    · rw [h]
      exact ⟨fun y hy => by simpa using hy, fun h => by simp at h⟩
    · rw [h]
      exact ⟨fun y hy => by simp at hy, fun _ => ⟨e, rfl, named_about hn h⟩⟩
  | cons o others ih =>
    have hc := C51_catalogue s hn
    rcases C41_always_succeeds s hn with ⟨x, h, _⟩ | ⟨e, h, _⟩
    · have hne : ∀ e, tryToNominal cfg T n s.system ≠ .err e := by
        intro e he
        rw [he] at h
        cases h
      have := (C96_first (cfg := cfg) (T := T) (n := n) s.system ((o :: others).map Named.system)).1 [] s.system _ rfl (by simp) hne
      rw [this, h]
      rw [hc] at h
      simp only [firstText, List.findSome?_cons, h]
      exact ⟨fun y hy => by simpa using hy, fun h => by simp at h⟩
    · have he : tryToNominal cfg T n (inTurn s.system ((o :: others).map Named.system)) =
          tryToNominal cfg T n (inTurn o.system (others.map Named.system)) := by
        have h' := view_err.mp h
        simp only [tryToNominal] at h'
        simp only [tryToNominal, List.map_cons, inTurn, h']
      rw [he]
      rw [hc] at h
      have hf : firstText cfg.alloc n (s :: o :: others) = firstText cfg.alloc n (o :: others) := by
        simp only [firstText]
        rw [List.findSome?_cons, h]
      rw [hf]
      exact ih o

/-- C96. Named systems in turn: `to_nominal` gives the text of the first one that can write the number in this build, and the decimal numeral
if none can. -/
theorem C96_named {cfg : Cfg} {T : IntTy} {n : Nat} (s : Named) (others : List Named) (hn : T.Fits cfg n) :
    view (toNominal cfg T n (inTurn s.system (others.map Named.system))) =
      match (s :: others).findSome? fun r =>
        match present cfg.alloc n (answer r n) with
        | .ok x => some x
        | _ => none with
      | some x => .ok x
      | none => .ok (Nat.toDigits 10 n, true) := by
  obtain ⟨h1, h2⟩ := turn_view s others hn
  have ho : (inTurn s.system (others.map Named.system)).formatOverride = none := by cases others <;> rfl
  obtain ⟨k1, k2⟩ := C41_any_system (cfg := cfg) (T := T) (n := n) _ ho
  unfold firstText at h1 h2
  split
  · exact k1 _ (h1 _ ‹_›)
  · obtain ⟨e, he, ha⟩ := h2 ‹_›
    have := k2 e (view_err.mp he) (by rw [ha]; exact hn)
    rw [ha] at this
    exact this

/-- `CircledNumber` up to 50, letters beyond. -/
example : view (toNominal ⟨true, .w64, true⟩ .u8 50 (inTurn Named.circledNumber.system [Named.letterLower.system])) = .ok (['㊿'], true) ∧
    view (toNominal ⟨true, .w64, true⟩ .u8 51 (inTurn Named.circledNumber.system [Named.letterLower.system])) = .ok (['a', 'z'], true) ∧
    view (tryToNominal ⟨true, .w64, true⟩ .u8 0 (inTurn Named.doubleCircledNumber.system [Named.georgian.system])) = .err .noZeroSymbol ∧
    view (toNominal ⟨true, .w64, true⟩ .u8 0 (inTurn Named.doubleCircledNumber.system [Named.georgian.system])) = .ok (['0'], true) := by
  decide +kernel

theorem pairwise_apart {α : Type} {R : α → α → Prop} (hR : ∀ a b, R a b → R b a) {l : List α} (h : l.Pairwise R) :
    ∀ a ∈ l, ∀ b ∈ l, a ≠ b → R a b := by
  induction l with
  | nil => intro a ha; cases ha
  | cons x l ih =>
    obtain ⟨h1, h2⟩ := List.pairwise_cons.mp h
    intro a ha b hb hab
    rcases List.mem_cons.mp ha with rfl | ha' <;> rcases List.mem_cons.mp hb with rfl | hb'
    · exact absurd rfl hab
    · exact h1 b hb'
    · exact hR _ _ (h1 a ha')
    · exact ih h2 a ha' b hb' hab

theorem turn_cases {cfg : Cfg} {T : IntTy} {n : Nat} (s : Named) (others : List Named) (hn : T.Fits cfg n) {t : List Char} {i : Bool}
    (h : view (toNominal cfg T n (inTurn s.system (others.map Named.system))) = .ok (t, i)) :
    (∃ r ∈ s :: others, answer r n = .text t) ∨
    t = Nat.toDigits 10 n ∧ ∀ r ∈ s :: others, ∃ e, view (tryToNominal cfg T n r.system) = .err e := by
  rw [C96_named s others hn] at h
  split at h
  · rename_i x hx
    cases h
    obtain ⟨r, hr, h'⟩ := List.exists_of_findSome?_eq_some hx
    refine .inl ⟨r, hr, ?_⟩
    split at h'
    · rename_i y hy
      cases h'
      exact present_text hy
    · cases h'
  · rename_i hx
    cases h
    refine .inr ⟨rfl, fun r hr => ?_⟩
    have := List.findSome?_eq_none_iff.mp hx r hr
    rcases C41_always_succeeds r hn with ⟨x, h, _⟩ | ⟨e, h, _⟩
    · rw [C51_catalogue r hn] at h
      rw [h] at this
      cases this
    · exact ⟨e, h⟩

theorem turn_no_mixup {cfg' : Cfg} {T' : IntTy} {n m : Nat} {l : List Named} (hn : n < 2 ^ 128) (hm : T'.Fits cfg' m) {r : Named} (hr : r ∈ l)
    (ha : answer r n = .text (Nat.toDigits 10 m)) (hf : ∀ r ∈ l, ∃ e, view (tryToNominal cfg' T' m r.system) = .err e) : False := by
  have hne : Nat.toDigits 10 m ≠ [] := toDigits_ne_nil (by omega)
  cases hl : Nat.toDigits 10 m with
  | nil => exact hne hl
  | cons c u =>
    have h1 : c.isDigit = true := decimal_isDigit (n := m) c (by rw [hl]; simp)
    have h2 := answer_mem r hn ha c (by rw [hl]; simp)
    cases ho : ownsAsciiDigits r with
    | false =>
      rw [repertoire_no_digit r ho c h2] at h1
      cases h1
    | true =>
      obtain ⟨e, he⟩ := hf r hr
      exact owns_never_fails ho hm e he

/-- C96. If no character belongs to two of the systems, then no two numbers get the same label, across integer types and builds, the decimal
fallback included. -/
theorem C96_injective {cfg cfg' : Cfg} {T T' : IntTy} {n m : Nat} (s : Named) (others : List Named) (hn : T.Fits cfg n) (hm : T'.Fits cfg' m)
    (hd : (s :: others).Pairwise fun a b => ∀ c ∈ repertoire a, c ∉ repertoire b) {t : List Char} {i j : Bool}
    (h1 : view (toNominal cfg T n (inTurn s.system (others.map Named.system))) = .ok (t, i))
    (h2 : view (toNominal cfg' T' m (inTurn s.system (others.map Named.system))) = .ok (t, j)) : n = m := by
  have hn' := Nominals.fits_lt hn
  have hm' := Nominals.fits_lt hm
  rcases turn_cases s others hn h1 with ⟨r, a1, a2⟩ | ⟨a1, a2⟩ <;> rcases turn_cases s others hm h2 with ⟨q, b1, b2⟩ | ⟨b1, b2⟩
  · by_cases hrq : r = q
    · subst hrq
      exact answer_injective r hn' hm' a2 b2
    · have := pairwise_apart (fun a b h c hc hc' => h c hc' hc) hd r a1 q b1 hrq
      cases t with
      | nil => exact (answer_ne_nil r hn' a2).elim
      | cons c t => exact absurd (answer_mem q hm' b2 c (by simp)) (this c (answer_mem r hn' a2 c (by simp)))
  · subst b1
    exact (turn_no_mixup hn' hm a1 a2 b2).elim
  · subst a1
    exact (turn_no_mixup hm' hn b1 b2 a2).elim
  · exact toDigits_map_injective (b := 10) (f := id) (by omega) (by decide) (by simp [← a1, ← b1])

/-- The condition can be met. -/
example : ([.circledNumber, .letterLower, .georgian] : List Named).Pairwise fun a b => ∀ c ∈ repertoire a, c ∉ repertoire b := by
  decide +kernel

/-- It cannot be dropped: Roman numerals first, letters for those that are too long for a build without `alloc`; then 1665 and 156,347,277 are
both "mdclxv". -/
example : view (toNominal ⟨false, .w32, true⟩ .u32 1665 (inTurn Named.romanLower.system [Named.letterLower.system])) =
      .ok (['m', 'd', 'c', 'l', 'x', 'v'], true) ∧
    view (toNominal ⟨false, .w32, true⟩ .u32 156347277 (inTurn Named.romanLower.system [Named.letterLower.system])) =
      .ok (['m', 'd', 'c', 'l', 'x', 'v'], true) := by
  decide +kernel

end Nominals.Props
