import Verif.Model.DigitalDyn
import Verif.Model.Lib

/-!
# How the formatters fill their strings

Every formatter either starts with `new()` and appends, or starts with `new_reverse()` and prepends, or converts a `&str`. What holds of
such strings (`Fills`) holds of everything the formatters return.
-/

namespace Nominals

/-- Whatever `r` returns has property `P`. -/
def Res.Good {ε α : Type} (P : α → Prop) (r : Res ε α) : Prop := ∀ a, r = .ok a → P a

section
variable {ε α β : Type} {P : α → Prop} {Q : β → Prop}

theorem Res.Good.ok {a : α} (h : P a) : (Res.ok a : Res ε α).Good P := fun _ e => by cases e; exact h
theorem Res.Good.err {e : ε} : (Res.err e : Res ε α).Good P := fun _ e => by cases e
theorem Res.Good.panic : (Res.panic : Res ε α).Good P := fun _ e => by cases e
theorem Res.Good.ub : (Res.ub : Res ε α).Good P := fun _ e => by cases e
theorem Res.Good.timeout : (Res.timeout : Res ε α).Good P := fun _ e => by cases e

theorem Res.Good.bind {r : Res ε α} {f : α → Res ε β} (h : r.Good P) (hf : ∀ a, P a → (f a).Good Q) : (r.bind f).Good Q := by
  cases r with
  | ok a => exact hf a (h a rfl)
  | err e => exact .err
  | panic => exact .panic
  | ub => exact .ub
  | timeout => exact .timeout

theorem Res.Good.any {r : Res ε α} {f : α → Res ε β} (hf : ∀ a, (f a).Good Q) : (r.bind f).Good Q :=
  Res.Good.bind (P := fun _ => True) (fun _ _ => trivial) fun a _ => hf a

theorem Res.Good.mapErr {ε' : Type} {r : Res ε α} {g : ε → ε'} (h : r.Good P) : (r.mapErr g).Good P := by
  cases r with
  | ok a => exact fun b e => by cases e; exact h a rfl
  | err e => exact fun _ e => by cases e
  | panic => exact .panic
  | ub => exact .ub
  | timeout => exact .timeout

theorem Res.Good.map {r : Res ε α} {f : α → β} (h : r.Good P) (hf : ∀ a, P a → Q (f a)) : (r.map f).Good Q := by
  cases r with
  | ok a => exact fun b e => by cases e; exact hf a (h a rfl)
  | err e => exact fun _ e => by cases e
  | panic => exact .panic
  | ub => exact .ub
  | timeout => exact .timeout

theorem Res.Good.ite {c : Prop} [Decidable c] {r r' : Res ε α} (h : r.Good P) (h' : r'.Good P) : (if c then r else r').Good P := by
  split
  · exact h
  · exact h'

end

/-- `F` holds of what is appended to `new()`, `R` of what is prepended to `new_reverse()`, `P` of these and of converted texts. -/
structure Fills (cfg : Cfg) (F R P : NStr → Prop) : Prop where
  new : F NStr.new
  newReverse : R NStr.newReverse
  push {s : NStr} (h : F s) (c : Char) : (s.push cfg c).Good F
  pushStr {s : NStr} (h : F s) (u : List Char) : (s.pushStr cfg u).Good F
  pushFront {s : NStr} (h : R s) (c : Char) : (s.pushFront cfg c).Good R
  ofStr {ε : Type} (t : List Char) : (NStr.ofStr (ε := ε) cfg t).Good P
  forward {s : NStr} : F s → P s
  reverse {s : NStr} : R s → P s

variable {cfg : Cfg} {F R P : NStr → Prop}

theorem ofChar_fills (K : Fills cfg F R P) {ε : Type} (c : Char) : (NStr.ofChar (ε := ε) cfg c).Good P := by
  unfold NStr.ofChar
  split
  · next s h => exact .ok (K.forward (K.push K.new c s h))
  all_goals first | exact .panic | exact .ub | exact .timeout

theorem Res.Good.imp {ε α : Type} {r : Res ε α} {P Q : α → Prop} (h : r.Good P) (hi : ∀ a, P a → Q a) : r.Good Q := fun a e => hi a (h a e)

/-! ## The formatters -/

theorem digitLoop_fills (K : Fills cfg F R P) {T : IntTy} {c : Coll} {nominal : Nat} (fuel count remaining : Nat) (first : Bool) {f : NStr}
    (hf : R f) : (digitLoop cfg T c nominal fuel count remaining first f).Good (R) := by
  induction fuel generalizing count remaining first f with
  | zero => exact .timeout
  | succ fuel ih =>
    unfold digitLoop
    refine .ite (.any fun _ => .any fun _ => .any fun ch => .bind (.mapErr (K.pushFront hf ch)) fun f' hf' => .any fun _ => ?_) (.ok hf)
    split
    · exact ih _ _ _ hf'
    · exact .err

theorem digitTryFormat_fills (K : Fills cfg F R P) {T : IntTy} (fuel depth : Nat) (d : DigitSys) (n : Nat) :
    (digitTryFormat cfg T fuel depth d n).Good (P) := by
  induction depth generalizing d with
  | zero => exact .timeout
  | succ depth ih =>
    unfold digitTryFormat
    simp only
    split
    · exact .any fun ch => ofChar_fills K ch
    · exact .ite (.ite .err (ih _)) (.imp (digitLoop_fills K _ _ _ _ K.newReverse) fun _ => K.reverse)

theorem dynLoop_fills (K : Fills cfg F R P) {σ : Type} {T : IntTy} {c : DynColl σ} {nominal : Nat} (fuel count remaining : Nat) (first : Bool)
    {f : NStr} (hf : R f) (w : σ) :
    (dynLoop cfg T c nominal fuel count remaining first f w).Good fun p => R p.1 := by
  induction fuel generalizing count remaining first f w with
  | zero => exact .timeout
  | succ fuel ih =>
    unfold dynLoop
    refine .ite (.any fun _ => .any fun _ => .any fun ch => .bind (.mapErr (K.pushFront hf ch.1)) fun f' hf' => .any fun _ => .any fun _ => ?_) (.ok hf)
    simp only
    split
    · exact ih _ _ _ hf' _
    · exact .err

theorem dynTryFormat_fills (K : Fills cfg F R P) {σ : Type} {T : IntTy} (fuel depth : Nat) (d : DynSys σ) (n : Nat) (w : σ) :
    (dynTryFormat cfg T fuel depth d n w).Good fun p => P p.1 := by
  induction depth generalizing d w with
  | zero => exact .timeout
  | succ depth ih =>
    unfold dynTryFormat
    refine .any fun _ => ?_
    simp only
    split
    · exact .any fun ch => .bind (ofChar_fills K ch.1) fun s hs => .ok hs
    · exact .any fun _ => .ite (.any fun _ => .any fun _ => .ite .err (ih _ _)) (.imp (dynLoop_fills K _ _ _ _ K.newReverse _) fun _ => K.reverse)

theorem enumTryFormat_fills (K : Fills cfg F R P) (e : EnumSet) {T : IntTy} (n : Nat) : (e.tryFormat cfg T n).Good (P) := by
  unfold EnumSet.tryFormat
  split
  · exact .err
  · refine .ite .err (.any fun _ => ?_)
    split
    · exact K.ofStr _
    · exact .err

theorem additiveWhile_fills (K : Fills cfg F R P) {nominal : Nat} {symbol : List Char} {value : Nat} (fuel remaining : Nat) {f : NStr} (hf : F f) :
    (additiveWhile cfg T nominal symbol value fuel remaining f).Good fun p => F p.2 := by
  induction fuel generalizing remaining f with
  | zero => exact .timeout
  | succ fuel ih =>
    unfold additiveWhile
    exact .ite (.any fun _ => .bind (.mapErr (K.pushStr hf _)) fun f' hf' => ih _ hf') (.ok hf)

theorem additiveFor_fills (K : Fills cfg F R P) {T : IntTy} {nominal : Nat} (l : List (List Char × Nat)) (remaining : Nat) {f : NStr} (hf : F f) :
    (additiveFor cfg T nominal l remaining f).Good (F) := by
  induction l generalizing remaining f with
  | nil => exact .ok hf
  | cons p l ih =>
    unfold additiveFor
    refine .ite (.ok hf) ?_
    split
    · exact ih _ hf
    · exact .bind (additiveWhile_fills K _ _ hf) fun p hp => ih _ hp

theorem additiveTryFormat_fills (K : Fills cfg F R P) (a : AdditiveSet) {T : IntTy} (n : Nat) : (a.tryFormat cfg T n).Good (P) := by
  unfold AdditiveSet.tryFormat
  refine .ite ?_ (.imp (additiveFor_fills K _ _ K.new) fun _ => K.forward)
  split
  · exact K.ofStr _
  · exact .err

/-- The string in the two ways out of the Hebrew `while`. -/
def HebrewExit.string : HebrewExit → NStr
  | .next _ f => f
  | .breakSymbolLoop f => f

theorem hebrewWhile_fills (K : Fills cfg F R P) {nominal : Nat} {symbol : Char} {value : Nat} (fuel remaining : Nat) {f : NStr} (hf : F f) :
    (hebrewWhile cfg T nominal symbol value fuel remaining f).Good fun x => F x.string := by
  induction fuel generalizing remaining f with
  | zero => exact .timeout
  | succ fuel ih =>
    unfold hebrewWhile
    refine .ite (.ite (.bind (.mapErr (K.pushStr hf _)) fun f' hf' => .ok hf') (.ite (.bind (.mapErr (K.pushStr hf _)) fun f' hf' => .ok hf') ?_)) (.ok hf)
    refine .bind (P := F) (.ite (.mapErr (K.push hf _)) (.ok hf)) fun f1 h1 => .any fun _ =>
      .bind (.mapErr (K.push h1 _)) fun f2 h2 => .ite (.bind (.mapErr (K.push h2 _)) fun f3 h3 => .ok h3) (ih _ h2)

theorem hebrewFor_fills (K : Fills cfg F R P) {T : IntTy} {nominal : Nat} (l : List (Char × Nat)) (remaining : Nat) {f : NStr} (hf : F f) :
    (hebrewFor cfg T nominal l remaining f).Good (F) := by
  induction l generalizing remaining f with
  | nil => exact .ok hf
  | cons p l ih =>
    unfold hebrewFor
    split
    · exact ih _ hf
    · refine .bind (hebrewWhile_fills K _ _ hf) fun x hx => ?_
      cases x with
      | next r f => exact ih _ hx
      | breakSymbolLoop f => exact .ok hx

theorem hebrewTryFormat_fills (K : Fills cfg F R P) {T : IntTy} (n : Nat) : (hebrewTryFormat cfg T n).Good (P) :=
  .ite .err (.imp (hebrewFor_fills K _ _ K.new) fun _ => K.forward)

theorem ethiopicLoop_fills (K : Fills cfg F R P) (fuel index remaining : Nat) {f : NStr} (hf : R f) :
    (ethiopicLoop cfg fuel index remaining f).Good (R) := by
  induction fuel generalizing index remaining f with
  | zero => exact .timeout
  | succ fuel ih =>
    unfold ethiopicLoop
    refine .ite (.ok hf) (.any fun _ => .any fun _ => .any fun _ => .any fun _ => ?_)
    refine .bind (P := R) (.ite (.ite (K.pushFront hf _) (.ite (K.pushFront hf _) (.ok hf))) (.ok hf)) fun f1 h1 => ?_
    refine .bind (P := R) (.ite ?_ (.ok h1)) fun f2 h2 => ih _ _ h2
    refine .bind (P := R) (.ite (.any fun _ => K.pushFront h1 _) (.ok h1)) fun f3 h3 => ?_
    exact .ite (.any fun _ => K.pushFront h3 _) (.ok h3)

theorem ethiopicTryFormat_fills (K : Fills cfg F R P) {T : IntTy} (n : Nat) : (ethiopicTryFormat cfg T n).Good (P) :=
  .ite .err (.mapErr (.imp (ethiopicLoop_fills K _ _ _ K.newReverse) fun _ => K.reverse))

theorem pushAt_fills (K : Fills cfg F R P) {chars : List Char} {i : Nat} {f : NStr} (hf : F f) : (pushAt cfg chars i f).Good (F) :=
  .any fun _ => K.push hf _

theorem chineseInner_fills (K : Fills cfg F R P) (formal : Bool) (characters : List Char) (n : Nat) (noPrefix zero : Bool) :
    (chineseInner cfg formal characters n noPrefix zero).Good fun p => F p.1 := by
  unfold chineseInner
  simp only
  have one : ∀ {i : Nat} {b : Bool} {f : NStr}, F f →
      ((pushAt cfg characters i f).bind fun f => Res.ok (f, b)).Good fun p => F p.1 :=
    fun hf => .bind (pushAt_fills K hf) fun f h => .ok h
  have two : ∀ {i j : Nat} {b : Bool} {f : NStr}, F f →
      ((pushAt cfg characters i f).bind fun f => (pushAt cfg characters j f).bind fun f => Res.ok (f, b)).Good fun p => F p.1 :=
    fun hf => .bind (pushAt_fills K hf) fun f h => one h
  refine .bind (P := fun p => F p.1) (.ite (.ite (one K.new) (.ok K.new)) (two K.new)) fun p hp => ?_
  refine .bind (P := fun p => F p.1) (.ite (.ite (one hp) (.ok hp)) (two hp)) fun p hp => ?_
  refine .bind (P := fun p => F p.1) (.ite (.ite (one hp) (.ok hp))
    (.bind (P := F) (.ite (pushAt_fills K hp) (.ok hp)) fun f hf => one hf)) fun p hp => ?_
  exact .ite (one hp) (.ok hp)

theorem shortBody_fills (K : Fills cfg F R P) (characters large : List Char) (rank scale remaining : Nat) {f : NStr} (hf : F f) (z : Bool) :
    (shortBody cfg characters large rank scale remaining f z).Good fun p => F p.2.1 := by
  unfold shortBody
  refine .any fun _ => .ite .err (.any fun _ => .ite (.ite (.bind (.mapErr (pushAt_fills K hf)) fun f h => .ok h) (.ok hf)) ?_)
  exact .bind (.mapErr (pushAt_fills K hf)) fun f h => .bind (.mapErr (pushAt_fills K h)) fun f h => .ok h

theorem shortLoop_fills (K : Fills cfg F R P) {T : IntTy} (characters large : List Char) (rank scale remaining : Nat) {f : NStr} (hf : F f) (z : Bool) :
    (shortLoop cfg T characters large rank scale remaining f z).Good fun p => F p.2.1 := by
  induction rank generalizing scale remaining f z with
  | zero =>
    unfold shortLoop
    exact .ite (.ok hf) (shortBody_fills K _ _ _ _ _ hf _)
  | succ rank ih =>
    unfold shortLoop
    refine .ite (.ok hf) (.bind (shortBody_fills K _ _ _ _ _ hf _) fun p hp => .any fun _ => ?_)
    split
    · exact .panic
    · exact ih _ _ hp _

theorem formatShortRankAt_fills (K : Fills cfg F R P) {T : IntTy} (formal : Bool) (characters large : List Char) (n rank scale : Nat) :
    (formatShortRankAt cfg T formal characters large n rank scale).Good (F) := by
  unfold formatShortRankAt
  refine .bind (shortLoop_fills K _ _ _ _ _ K.new _) fun p hp => .ite (.any fun q => ?_) (.ok hp)
  simp only
  split
  · exact .mapErr (K.pushStr hp _)
  · exact .ub

theorem formatShortRank_fills (K : Fills cfg F R P) {T : IntTy} (formal : Bool) (characters large : List Char) (n rank : Nat) :
    (formatShortRank cfg T formal characters large n rank).Good (F) := by
  induction rank with
  | zero =>
    unfold formatShortRank
    refine .any fun _ => ?_
    split
    · exact .panic
    · exact formatShortRankAt_fills K _ _ _ _ _ _
  | succ rank ih =>
    unfold formatShortRank
    refine .any fun _ => ?_
    split
    · exact ih
    · exact formatShortRankAt_fills K _ _ _ _ _ _

theorem scaledRankBody_fills (K : Fills cfg F R P) (large : List Char) (scales : List (Option Nat)) (rank : Nat) {next : ScaledFn}
    (hn : ∀ n a b, (next n a b).Good fun p => F p.1) (n : Nat) (a b : Bool) :
    (scaledRankBody cfg large scales rank next n a b).Good fun p => F p.1 := by
  unfold scaledRankBody
  split
  · exact hn _ _ _
  · refine .any fun _ => .any fun _ => .any fun _ => ?_
    refine .bind (P := fun p => F p.1) (.ite (.ok K.new) (.bind (hn _ _ _) fun p hp =>
      .ite (.bind (.mapErr (pushAt_fills K hp)) fun f h => .ok h) (.ok hp))) fun p hp => .ite (.ok hp) (.bind (hn _ _ _) fun q hq => ?_)
    simp only
    split
    · exact .bind (.mapErr (K.pushStr hp _)) fun f h => .ok h
    · exact .ub

theorem scaledNext_fills (K : Fills cfg F R P) (formal : Bool) (characters large : List Char) (scales : List (Option Nat)) (rank n : Nat) (a b : Bool) :
    (scaledNext cfg formal characters large scales rank n a b).Good fun p => F p.1 := by
  induction rank generalizing n a b with
  | zero => exact .mapErr (chineseInner_fills K _ _ _ _ _)
  | succ rank ih => exact scaledRankBody_fills K _ _ _ ih _ _ _

theorem formatScaled_fills (K : Fills cfg F R P) {T : IntTy} (formal : Bool) (scales : List Nat) (characters large : List Char) (n : Nat) :
    (formatScaled cfg T formal scales characters large n).Good (F) :=
  .map (scaledRankBody_fills K _ _ _ (scaledNext_fills K _ _ _ _ _) _ _ _) fun _ h => h

theorem formatChinese_fills (K : Fills cfg F R P) {T : IntTy} (formal : Bool) (characters large : List Char) (n : Nat) (scale : ChineseScale) :
    (formatChinese cfg T formal characters large n scale).Good (P) := by
  have small : ((chineseInner cfg formal characters n true false).mapErr fun _ => Error.outOfMemory n).map Prod.fst |>.Good (P) :=
    .map (.mapErr (chineseInner_fills K _ _ _ _ _)) fun _ h => K.forward h
  have big : (scale.format cfg T formal characters large n).Good (P) := by
    cases scale
    · exact .imp (formatShortRank_fills K _ _ _ _ _) fun _ => K.forward
    all_goals exact .imp (formatScaled_fills K _ _ _ _ _) fun _ => K.forward
  unfold formatChinese
  refine .ite (.any fun _ => ofChar_fills K _) ?_
  simp only
  split
  · exact .ite (.mapErr big) small
  · exact small

theorem decimalFormat_fills (K : Fills cfg F R P) {T : IntTy} (depth n : Nat) : (decimalFormat cfg T depth n).Good (P) := by
  induction depth generalizing n with
  | zero => exact .timeout
  | succ depth ih =>
    unfold decimalFormat
    split
    · next s h => exact .ok (digitTryFormat_fills K _ _ _ _ s h)
    · exact ofChar_fills K _
    · exact ih _
    · exact ih _
    · exact .panic
    · exact .ub
    · exact .timeout

theorem unwrapOrDecimal_fills (K : Fills cfg F R P) {T : IntTy} {r : Res Error NStr} (h : r.Good (P)) :
    (unwrapOrDecimal cfg T r).Good (P) := by
  unfold unwrapOrDecimal
  split
  · next s => exact .ok (h s rfl)
  · next e =>
    unfold Error.intoDecimal
    split
    · exact ofChar_fills K _
    · exact decimalFormat_fills K _ _
    · exact decimalFormat_fills K _ _
  · exact .panic
  · exact .ub
  · exact .timeout


end Nominals
