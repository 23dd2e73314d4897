import Verif.Proofs.Built
import Verif.Proofs.Dyn

/-!
# Builds with and without overflow checks
-/

namespace Nominals

open Spec

/-- Both outcomes are the same, and a value returned has property `P`. -/
def Twin {ε α : Type} (P : α → Prop) (r r' : Res ε α) : Prop := r = r' ∧ r.Good P

section
variable {ε α β : Type} {P : α → Prop} {Q : β → Prop}

theorem Twin.ok {a : α} (h : P a) : Twin P (Res.ok a : Res ε α) (.ok a) := ⟨rfl, .ok h⟩
theorem Twin.err {e : ε} : Twin P (Res.err e : Res ε α) (.err e) := ⟨rfl, .err⟩
theorem Twin.panic : Twin P (Res.panic : Res ε α) .panic := ⟨rfl, .panic⟩
theorem Twin.ub : Twin P (Res.ub : Res ε α) .ub := ⟨rfl, .ub⟩
theorem Twin.timeout : Twin P (Res.timeout : Res ε α) .timeout := ⟨rfl, .timeout⟩

theorem Twin.bind {r r' : Res ε α} {f g : α → Res ε β} (h : Twin P r r') (hf : ∀ a, P a → Twin Q (f a) (g a)) :
    Twin Q (r.bind f) (r'.bind g) := by
  obtain ⟨rfl, h⟩ := h
  cases r with
  | ok a => exact hf a (h a rfl)
  | err e => exact .err
  | panic => exact .panic
  | ub => exact .ub
  | timeout => exact .timeout

theorem Twin.any {r : Res ε α} {f g : α → Res ε β} (hf : ∀ a, Twin Q (f a) (g a)) : Twin Q (r.bind f) (r.bind g) :=
  Twin.bind (P := fun _ => True) ⟨rfl, fun _ _ => trivial⟩ fun a _ => hf a

theorem Twin.mapErr {ε' : Type} {r r' : Res ε α} {g : ε → ε'} (h : Twin P r r') : Twin P (r.mapErr g) (r'.mapErr g) := by
  obtain ⟨rfl, h⟩ := h
  exact ⟨rfl, h.mapErr⟩

theorem Twin.map {r r' : Res ε α} {f : α → β} (h : Twin P r r') (hf : ∀ a, P a → Q (f a)) : Twin Q (r.map f) (r'.map f) := by
  obtain ⟨rfl, h⟩ := h
  exact ⟨rfl, h.map hf⟩

theorem Twin.when {c : Prop} [Decidable c] {r r' q q' : Res ε α} (h : c → Twin P r r') (h' : ¬ c → Twin P q q') :
    Twin P (if c then r else q) (if c then r' else q') := by
  split
  · exact h ‹_›
  · exact h' ‹_›

theorem Twin.ite {c : Prop} [Decidable c] {r r' q q' : Res ε α} (h : Twin P r r') (h' : Twin P q q') :
    Twin P (if c then r else q) (if c then r' else q') := .when (fun _ => h) fun _ => h'

end

theorem tryFrom_profiles (cfg : Cfg) (T : IntTy) : T.tryFrom cfg.release = T.tryFrom cfg.debug := rfl

theorem subT_twin {ε : Type} {cfg : Cfg} {T : IntTy} {a b : Nat} (h : b ≤ a) :
    Twin (fun _ => True) (subT (ε := ε) cfg.debug T a b) (subT cfg.release T a b) := by
  rw [subT_le h, subT_le h]
  exact .ok trivial

/-! ## One operation -/

theorem PanicOr.eq {ε α : Type} {r r' : Res ε α} (h : PanicOr r r') (hp : r ≠ .panic) : r = r' := h.resolve_left hp

theorem callOutcome_ne_panic {r : Res (OutOfMemoryError × NStr) NStr} {x : NStr × Bool} (h : callOutcome r = .ok x) : r ≠ .panic := by
  rintro rfl
  cases h

theorem tryPush_same {cfg : Cfg} {s : NStr} (h : Reachable cfg.debug s) (c : Char) : s.tryPush cfg.debug c = s.tryPush cfg.release c := by
  obtain ⟨s2, ok, h1, _⟩ := Props.C03_operations_are_defined h (.push c)
  exact tryPush_profiles.eq (callOutcome_ne_panic h1)

theorem tryPushStr_same {cfg : Cfg} {s : NStr} (h : Reachable cfg.debug s) (u : List Char) :
    s.tryPushStr cfg.debug u = s.tryPushStr cfg.release u := by
  obtain ⟨s2, ok, h1, _⟩ := Props.C03_operations_are_defined h (.pushStr u)
  exact tryPushStr_profiles.eq (callOutcome_ne_panic h1)

theorem tryPushFront_same {cfg : Cfg} {s : NStr} (h : Reachable cfg.debug s) (c : Char) :
    s.tryPushFront cfg.debug c = s.tryPushFront cfg.release c := by
  obtain ⟨s2, ok, h1, _⟩ := Props.C03_operations_are_defined h (.pushFront c)
  exact tryPushFront_profiles.eq (callOutcome_ne_panic h1)

theorem push_twin {cfg : Cfg} {s : NStr} (h : Reachable cfg.debug s) (c : Char) :
    Twin (Reachable cfg.debug) (s.push cfg.debug c) (s.push cfg.release c) :=
  ⟨by rw [NStr.push, NStr.push, tryPush_same h], push_good h c⟩

theorem pushStr_twin {cfg : Cfg} {s : NStr} (h : Reachable cfg.debug s) (u : List Char) :
    Twin (Reachable cfg.debug) (s.pushStr cfg.debug u) (s.pushStr cfg.release u) :=
  ⟨by rw [NStr.pushStr, NStr.pushStr, tryPushStr_same h], pushStr_good h u⟩

theorem pushFront_twin {cfg : Cfg} {s : NStr} (h : Reachable cfg.debug s) (c : Char) :
    Twin (Reachable cfg.debug) (s.pushFront cfg.debug c) (s.pushFront cfg.release c) :=
  ⟨by rw [NStr.pushFront, NStr.pushFront, tryPushFront_same h], pushFront_good h c⟩

theorem ofChar_twin {ε : Type} {cfg : Cfg} (c : Char) :
    Twin (Reachable cfg.debug) (NStr.ofChar (ε := ε) cfg.debug c) (NStr.ofChar cfg.release c) :=
  ⟨by rw [NStr.ofChar, NStr.ofChar, (push_twin .new c).1], ofChar_good c⟩

theorem ofStr_twin {ε : Type} {cfg : Cfg} (t : List Char) :
    Twin (Reachable cfg.debug) (NStr.ofStr (ε := ε) cfg.debug t) (NStr.ofStr cfg.release t) := ⟨rfl, ofStr_good t⟩

/-! ## The formatters -/

theorem digitLoop_twin {cfg : Cfg} {T : IntTy} {c : Coll} {nominal : Nat} (fuel count remaining : Nat) (first : Bool) {f : NStr}
    (hf : Reachable cfg.debug f) : Twin (Reachable cfg.debug) (digitLoop cfg.debug T c nominal fuel count remaining first f) (digitLoop cfg.release T c nominal fuel count remaining first f) := by
  induction fuel generalizing count remaining first f with
  | zero => exact .timeout
  | succ fuel ih =>
    unfold digitLoop
    rw [tryFrom_profiles]
    refine .ite (.bind (P := fun _ => True) (.when (fun hz => .when (fun _ => .err) fun h => subT_twin ?_) fun _ => .ok trivial) fun _ _ =>
      .any fun _ => .any fun ch => .bind (.mapErr (pushFront_twin hf ch)) fun f' hf' => .any fun _ => ?_) (.ok hf)
    · simp only [Bool.and_eq_true, Bool.not_eq_true', beq_iff_eq, not_and] at hz h
      have := h hz.1
      omega
    split
    · exact ih _ _ _ hf'
    · exact .err

theorem digitTryFormat_twin {cfg : Cfg} {T : IntTy} (fuel depth : Nat) (d : DigitSys) (n : Nat) :
    Twin (Reachable cfg.debug) (digitTryFormat cfg.debug T fuel depth d n) (digitTryFormat cfg.release T fuel depth d n) := by
  induction depth generalizing d with
  | zero => exact .timeout
  | succ depth ih =>
    unfold digitTryFormat
    rw [tryFrom_profiles]
    simp only
    split
    · exact .any fun ch => ofChar_twin ch
    · exact .ite (.ite .err (ih _)) (digitLoop_twin _ _ _ _ .newReverse)

theorem enumTryFormat_twin (e : EnumSet) {cfg : Cfg} {T : IntTy} (n : Nat) : Twin (Reachable cfg.debug) (e.tryFormat cfg.debug T n) (e.tryFormat cfg.release T n) := by
  unfold EnumSet.tryFormat
  rw [show tryIntoUsize cfg.release = tryIntoUsize cfg.debug from rfl]
  split
  · exact .err
  · next i hi =>
    have hn : i = n := by
      unfold tryIntoUsize at hi
      split at hi
      · exact (Option.some.inj hi).symm
      · cases hi
    refine .when (fun _ => .err) fun h => .bind (subT_twin ?_) fun _ _ => ?_
    · simp only [Bool.and_eq_true, Bool.not_eq_true', beq_iff_eq, not_and] at h
      split
      · omega
      · next hz => have := h (by simpa using hz); omega
    split
    · exact ofStr_twin _
    · exact .err

theorem additiveWhile_twin {cfg : Cfg} {nominal : Nat} {symbol : List Char} {T : IntTy} {value : Nat} (fuel remaining : Nat) {f : NStr} (hf : Reachable cfg.debug f) :
    Twin (fun p => Reachable cfg.debug p.2) (additiveWhile cfg.debug T nominal symbol value fuel remaining f) (additiveWhile cfg.release T nominal symbol value fuel remaining f) := by
  induction fuel generalizing remaining f with
  | zero => exact .timeout
  | succ fuel ih =>
    unfold additiveWhile
    exact .when (fun h => .bind (subT_twin h) fun _ _ => .bind (.mapErr (pushStr_twin hf _)) fun f' hf' => ih _ hf') fun _ => .ok hf

theorem additiveFor_twin {cfg : Cfg} {T : IntTy} {nominal : Nat} (l : List (List Char × Nat)) (remaining : Nat) {f : NStr} (hf : Reachable cfg.debug f) :
    Twin (Reachable cfg.debug) (additiveFor cfg.debug T nominal l remaining f) (additiveFor cfg.release T nominal l remaining f) := by
  induction l generalizing remaining f with
  | nil => exact .ok hf
  | cons p l ih =>
    unfold additiveFor
    rw [tryFrom_profiles]
    refine .ite (.ok hf) ?_
    split
    · exact ih _ hf
    · exact .bind (additiveWhile_twin _ _ hf) fun p hp => ih _ hp

theorem additiveTryFormat_twin (a : AdditiveSet) {cfg : Cfg} {T : IntTy} (n : Nat) : Twin (Reachable cfg.debug) (a.tryFormat cfg.debug T n) (a.tryFormat cfg.release T n) := by
  unfold AdditiveSet.tryFormat
  refine .ite ?_ (additiveFor_twin _ _ .new)
  split
  · exact ofStr_twin _
  · exact .err

theorem hebrewWhile_twin {cfg : Cfg} {nominal : Nat} {symbol : Char} {T : IntTy} {value : Nat} (fuel remaining : Nat) {f : NStr} (hf : Reachable cfg.debug f) :
    Twin (fun x => Reachable cfg.debug x.string) (hebrewWhile cfg.debug T nominal symbol value fuel remaining f) (hebrewWhile cfg.release T nominal symbol value fuel remaining f) := by
  induction fuel generalizing remaining f with
  | zero => exact .timeout
  | succ fuel ih =>
    unfold hebrewWhile
    refine .when (fun h => .ite (.bind (.mapErr (pushStr_twin hf _)) fun f' hf' => .ok hf')
      (.ite (.bind (.mapErr (pushStr_twin hf _)) fun f' hf' => .ok hf') ?_)) fun _ => .ok hf
    refine .bind (P := Reachable cfg.debug) (.ite (.mapErr (push_twin hf _)) (.ok hf)) fun f1 h1 => .bind (subT_twin h) fun _ _ =>
      .bind (.mapErr (push_twin h1 _)) fun f2 h2 => .ite (.bind (.mapErr (push_twin h2 _)) fun f3 h3 => .ok h3) (ih _ h2)

theorem hebrewFor_twin {cfg : Cfg} {T : IntTy} {nominal : Nat} (l : List (Char × Nat)) (remaining : Nat) {f : NStr} (hf : Reachable cfg.debug f) :
    Twin (Reachable cfg.debug) (hebrewFor cfg.debug T nominal l remaining f) (hebrewFor cfg.release T nominal l remaining f) := by
  induction l generalizing remaining f with
  | nil => exact .ok hf
  | cons p l ih =>
    unfold hebrewFor
    rw [tryFrom_profiles]
    split
    · exact ih _ hf
    · refine .bind (hebrewWhile_twin _ _ hf) fun x hx => ?_
      cases x with
      | next r f => exact ih _ hx
      | breakSymbolLoop f => exact .ok hx

theorem hebrewTryFormat_twin {cfg : Cfg} {T : IntTy} (n : Nat) : Twin (Reachable cfg.debug) (hebrewTryFormat cfg.debug T n) (hebrewTryFormat cfg.release T n) :=
  .ite .err (hebrewFor_twin _ _ .new)

theorem ethiopicLoop_twin {cfg : Cfg} (fuel index remaining : Nat) {f : NStr} (hf : Reachable cfg.debug f) :
    Twin (Reachable cfg.debug) (ethiopicLoop cfg.debug fuel index remaining f) (ethiopicLoop cfg.release fuel index remaining f) := by
  induction fuel generalizing index remaining f with
  | zero => exact .timeout
  | succ fuel ih =>
    unfold ethiopicLoop
    refine .ite (.ok hf) (.any fun _ => .any fun _ => .any fun _ => .any fun _ => ?_)
    refine .bind (P := Reachable cfg.debug) (.ite (.ite (pushFront_twin hf _) (.ite (pushFront_twin hf _) (.ok hf))) (.ok hf)) fun f1 h1 => ?_
    refine .bind (P := Reachable cfg.debug) (.ite ?_ (.ok h1)) fun f2 h2 => ih _ _ h2
    refine .bind (P := Reachable cfg.debug) (.ite (.any fun _ => pushFront_twin h1 _) (.ok h1)) fun f3 h3 => ?_
    exact .ite (.any fun _ => pushFront_twin h3 _) (.ok h3)

theorem ethiopicTryFormat_twin {cfg : Cfg} {T : IntTy} (n : Nat) : Twin (Reachable cfg.debug) (ethiopicTryFormat cfg.debug T n) (ethiopicTryFormat cfg.release T n) :=
  .ite .err (.mapErr (ethiopicLoop_twin _ _ _ .newReverse))

theorem pushAt_twin {cfg : Cfg} {chars : List Char} {i : Nat} {f : NStr} (hf : Reachable cfg.debug f) : Twin (Reachable cfg.debug) (pushAt cfg.debug chars i f) (pushAt cfg.release chars i f) :=
  .any fun _ => push_twin hf _

theorem chineseInner_twin {cfg : Cfg} (formal : Bool) (characters : List Char) (n : Nat) (noPrefix zero : Bool) :
    Twin (fun p => Reachable cfg.debug p.1) (chineseInner cfg.debug formal characters n noPrefix zero) (chineseInner cfg.release formal characters n noPrefix zero) := by
  unfold chineseInner
  simp only
  have one : ∀ {i : Nat} {b : Bool} {f : NStr}, Reachable cfg.debug f →
      Twin (fun p => Reachable cfg.debug p.1) ((pushAt cfg.debug characters i f).bind fun f => Res.ok (f, b)) ((pushAt cfg.release characters i f).bind fun f => Res.ok (f, b)) :=
    fun hf => .bind (pushAt_twin hf) fun f h => .ok h
  have two : ∀ {i j : Nat} {b : Bool} {f : NStr}, Reachable cfg.debug f →
      Twin (fun p => Reachable cfg.debug p.1) ((pushAt cfg.debug characters i f).bind fun f => (pushAt cfg.debug characters j f).bind fun f => Res.ok (f, b)) ((pushAt cfg.release characters i f).bind fun f => (pushAt cfg.release characters j f).bind fun f => Res.ok (f, b)) :=
    fun hf => .bind (pushAt_twin hf) fun f h => one h
  refine .bind (P := fun p => Reachable cfg.debug p.1) (.ite (.ite (one .new) (.ok .new)) (two .new)) fun p hp => ?_
  refine .bind (P := fun p => Reachable cfg.debug p.1) (.ite (.ite (one hp) (.ok hp)) (two hp)) fun p hp => ?_
  refine .bind (P := fun p => Reachable cfg.debug p.1) (.ite (.ite (one hp) (.ok hp))
    (.bind (P := Reachable cfg.debug) (.ite (pushAt_twin hp) (.ok hp)) fun f hf => one hf)) fun p hp => ?_
  exact .ite (one hp) (.ok hp)

theorem shortBody_twin {cfg : Cfg} (characters large : List Char) (rank scale remaining : Nat) {f : NStr} (hf : Reachable cfg.debug f) (z : Bool) :
    Twin (fun p => Reachable cfg.debug p.2.1) (shortBody cfg.debug characters large rank scale remaining f z) (shortBody cfg.release characters large rank scale remaining f z) := by
  unfold shortBody
  refine .any fun _ => .ite .err (.any fun _ => .ite (.ite (.bind (.mapErr (pushAt_twin hf)) fun f h => .ok h) (.ok hf)) ?_)
  exact .bind (.mapErr (pushAt_twin hf)) fun f h => .bind (.mapErr (pushAt_twin h)) fun f h => .ok h

theorem shortLoop_twin {cfg : Cfg} {T : IntTy} (characters large : List Char) (rank scale remaining : Nat) {f : NStr} (hf : Reachable cfg.debug f) (z : Bool) :
    Twin (fun p => Reachable cfg.debug p.2.1) (shortLoop cfg.debug T characters large rank scale remaining f z) (shortLoop cfg.release T characters large rank scale remaining f z) := by
  induction rank generalizing scale remaining f z with
  | zero =>
    unfold shortLoop
    exact .ite (.ok hf) (shortBody_twin _ _ _ _ _ hf _)
  | succ rank ih =>
    unfold shortLoop
    refine .ite (.ok hf) (.bind (shortBody_twin _ _ _ _ _ hf _) fun p hp => .any fun _ => ?_)
    rw [tryFrom_profiles]
    split
    · exact .panic
    · exact ih _ _ hp _

theorem formatShortRankAt_twin {cfg : Cfg} {T : IntTy} (formal : Bool) (characters large : List Char) (n rank scale : Nat) :
    Twin (Reachable cfg.debug) (formatShortRankAt cfg.debug T formal characters large n rank scale) (formatShortRankAt cfg.release T formal characters large n rank scale) := by
  unfold formatShortRankAt
  refine .bind (shortLoop_twin _ _ _ _ _ .new _) fun p hp => .ite (.bind (.mapErr (chineseInner_twin _ _ _ _ _)) fun q _ => ?_) (.ok hp)
  simp only
  split
  · exact .mapErr (pushStr_twin hp _)
  · exact .ub

theorem formatShortRank_twin {cfg : Cfg} {T : IntTy} (formal : Bool) (characters large : List Char) (n rank : Nat) :
    Twin (Reachable cfg.debug) (formatShortRank cfg.debug T formal characters large n rank) (formatShortRank cfg.release T formal characters large n rank) := by
  induction rank with
  | zero =>
    unfold formatShortRank
    refine .any fun _ => ?_
    rw [tryFrom_profiles]
    split
    · exact .panic
    · exact formatShortRankAt_twin _ _ _ _ _ _
  | succ rank ih =>
    unfold formatShortRank
    refine .any fun _ => ?_
    rw [tryFrom_profiles]
    split
    · exact ih
    · exact formatShortRankAt_twin _ _ _ _ _ _

theorem scaledRankBody_twin {cfg : Cfg} (large : List Char) (scales : List (Option Nat)) (rank : Nat) {next next' : ScaledFn}
    (hn : ∀ n a b, Twin (fun p => Reachable cfg.debug p.1) (next n a b) (next' n a b)) (n : Nat) (a b : Bool) :
    Twin (fun p => Reachable cfg.debug p.1) (scaledRankBody cfg.debug large scales rank next n a b) (scaledRankBody cfg.release large scales rank next' n a b) := by
  unfold scaledRankBody
  split
  · exact hn _ _ _
  · refine .any fun _ => .any fun _ => .any fun _ => ?_
    refine .bind (P := fun p => Reachable cfg.debug p.1) (.ite (.ok .new) (.bind (hn _ _ _) fun p hp =>
      .ite (.bind (.mapErr (pushAt_twin hp)) fun f h => .ok h) (.ok hp))) fun p hp => .ite (.ok hp) (.bind (hn _ _ _) fun q hq => ?_)
    simp only
    split
    · exact .bind (.mapErr (pushStr_twin hp _)) fun f h => .ok h
    · exact .ub

theorem scaledNext_twin {cfg : Cfg} (formal : Bool) (characters large : List Char) (scales : List (Option Nat)) (rank n : Nat) (a b : Bool) :
    Twin (fun p => Reachable cfg.debug p.1) (scaledNext cfg.debug formal characters large scales rank n a b) (scaledNext cfg.release formal characters large scales rank n a b) := by
  induction rank generalizing n a b with
  | zero => exact .mapErr (chineseInner_twin _ _ _ _ _)
  | succ rank ih => exact scaledRankBody_twin _ _ _ ih _ _ _

theorem formatScaled_twin {cfg : Cfg} {T : IntTy} (formal : Bool) (scales : List Nat) (characters large : List Char) (n : Nat) :
    Twin (Reachable cfg.debug) (formatScaled cfg.debug T formal scales characters large n) (formatScaled cfg.release T formal scales characters large n) := by
  unfold formatScaled
  rw [tryFrom_profiles]
  exact .map (scaledRankBody_twin _ _ _ (scaledNext_twin _ _ _ _ _) _ _ _) fun _ h => h

theorem formatChinese_twin {cfg : Cfg} {T : IntTy} (formal : Bool) (characters large : List Char) (n : Nat) (scale : ChineseScale) :
    Twin (Reachable cfg.debug) (formatChinese cfg.debug T formal characters large n scale)
      (formatChinese cfg.release T formal characters large n scale) := by
  have small : Twin (Reachable cfg.debug)
      (((chineseInner cfg.debug formal characters n true false).mapErr fun _ => Error.outOfMemory n).map Prod.fst)
      (((chineseInner cfg.release formal characters n true false).mapErr fun _ => Error.outOfMemory n).map Prod.fst) :=
    .map (.mapErr (chineseInner_twin _ _ _ _ _)) fun _ h => h
  have big : Twin (Reachable cfg.debug) (scale.format cfg.debug T formal characters large n)
      (scale.format cfg.release T formal characters large n) := by
    cases scale
    · exact formatShortRank_twin _ _ _ _ _
    all_goals exact formatScaled_twin _ _ _ _ _
  unfold formatChinese
  refine .ite (.any fun _ => ofChar_twin _) ?_
  rw [tryFrom_profiles]
  simp only
  split
  · exact .ite (.mapErr big) small
  · exact small

theorem decimalFormat_twin {cfg : Cfg} {T : IntTy} (depth n : Nat) :
    Twin (Reachable cfg.debug) (decimalFormat cfg.debug T depth n) (decimalFormat cfg.release T depth n) := by
  refine ⟨?_, decimalFormat_good _ _⟩
  induction depth generalizing n with
  | zero => rfl
  | succ depth ih =>
    unfold decimalFormat
    rw [show decimal.tryFormat cfg.release T n = decimal.tryFormat cfg.debug T n from (digitTryFormat_twin _ _ _ _).1.symm]
    split
    · rfl
    · exact (ofChar_twin _).1
    · exact ih _
    · exact ih _
    all_goals rfl

theorem intoDecimal_profiles {cfg : Cfg} {T : IntTy} (e : Error) : e.intoDecimal cfg.debug T = e.intoDecimal cfg.release T := by
  cases e with
  | noZeroSymbol => exact (ofChar_twin (cfg := cfg) '0').1
  | _ => exact (decimalFormat_twin _ _).1

theorem unwrapOrDecimal_profiles {cfg : Cfg} {T : IntTy} (r : Res Error NStr) :
    unwrapOrDecimal cfg.debug T r = unwrapOrDecimal cfg.release T r := by
  cases r with
  | err e => exact intoDecimal_profiles e
  | _ => rfl

end Nominals
