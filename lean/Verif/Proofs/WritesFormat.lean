import Verif.Model.WritesFormat
import Verif.Proofs.Writes

/-!
# The logged formatters: without the log
-/

namespace Nominals

section
variable {ε ε' α β : Type}

@[simp] theorem Writes.bind_snd' (r : Writes ε α) (f : α → Writes ε β) : (r.bind f).2 = r.2.bind fun a => (f a).2 := Writes.bind_snd r f
@[simp] theorem Writes.mapErr_snd (r : Writes ε α) (f : ε → ε') : (r.mapErr f).2 = r.2.mapErr f := rfl
@[simp] theorem Writes.mapErr_fst (r : Writes ε α) (f : ε → ε') : (r.mapErr f).1 = r.1 := rfl
@[simp] theorem Writes.map_snd (r : Writes ε α) (f : α → β) : (r.map f).2 = r.2.map f := rfl
@[simp] theorem Writes.map_fst (r : Writes ε α) (f : α → β) : (r.map f).1 = r.1 := rfl
@[simp] theorem Writes.withNominal_snd (r : Writes OutOfMemoryError α) (n : Nat) : (r.withNominal n).2 = r.2.withNominal n := rfl
@[simp] theorem Writes.withNominal_fst (r : Writes OutOfMemoryError α) (n : Nat) : (r.withNominal n).1 = r.1 := rfl
@[simp] theorem Writes.toChinese_snd (r : Writes OutOfMemoryError α) : r.toChinese.2 = r.2.toChinese := rfl
@[simp] theorem Writes.toChinese_fst (r : Writes OutOfMemoryError α) : r.toChinese.1 = r.1 := rfl
@[simp] theorem Writes.ite_snd {c : Prop} [Decidable c] (a b : Writes ε α) : (if c then a else b).2 = if c then a.2 else b.2 := by
  split <;> rfl

end

namespace NStr

@[simp] theorem pushW_snd (cfg : Cfg) (s : NStr) (c : Char) : (s.pushW cfg c).2 = s.push cfg c := by
  rw [pushW, push, Writes.mapErr_snd, tryPushW_snd]
@[simp] theorem pushStrW_snd (cfg : Cfg) (s : NStr) (u : List Char) : (s.pushStrW cfg u).2 = s.pushStr cfg u := by
  rw [pushStrW, pushStr, Writes.mapErr_snd, tryPushStrW_snd]
@[simp] theorem pushFrontW_snd (cfg : Cfg) (s : NStr) (c : Char) : (s.pushFrontW cfg c).2 = s.pushFront cfg c := by
  rw [pushFrontW, pushFront, Writes.mapErr_snd, tryPushFrontW_snd]

@[simp] theorem ofStrW_snd {ε : Type} (cfg : Cfg) (t : List Char) : (ofStrW (ε := ε) cfg t).2 = ofStr cfg t := by
  unfold ofStrW ofStr
  simp only
  split
  · simp
  · rfl

@[simp] theorem ofCharW_snd {ε : Type} (cfg : Cfg) (c : Char) : (ofCharW (ε := ε) cfg c).2 = ofChar cfg c := by
  unfold ofCharW ofChar
  simp only [pushW_snd]
  rfl

end NStr

theorem digitLoopW_snd (cfg : Cfg) (T : IntTy) (c : Coll) (nominal fuel count remaining : Nat) (first : Bool) (f : NStr) :
    (digitLoopW cfg T c nominal fuel count remaining first f).2 = digitLoop cfg T c nominal fuel count remaining first f := by
  induction fuel generalizing count remaining first f with
  | zero => rfl
  | succ fuel ih =>
    unfold digitLoopW digitLoop
    simp only [Writes.ite_snd, Writes.bind_snd', Writes.quiet_snd, Writes.withNominal_snd, NStr.pushFrontW_snd]
    split
    · congr 1; funext a; congr 1; funext b; congr 1; funext d; congr 1; funext e; congr 1; funext g
      cases T.tryFrom cfg c.len with
      | none => rfl
      | some n => exact ih _ _ _ _
    · rfl

theorem digitTryFormatW_snd (cfg : Cfg) (T : IntTy) (fuel depth : Nat) (d : DigitSys) (n : Nat) :
    (digitTryFormatW cfg T fuel depth d n).2 = digitTryFormat cfg T fuel depth d n := by
  induction depth generalizing d with
  | zero => rfl
  | succ depth ih =>
    unfold digitTryFormatW digitTryFormat
    simp only
    cases T.tryFrom cfg (d.level 0).len with
    | none => simp only [Writes.bind_snd', Writes.quiet_snd, NStr.ofCharW_snd]
    | some m => simp only [Writes.ite_snd, Writes.quiet_snd, digitLoopW_snd, ih]

theorem EnumSet.tryFormatW_snd (e : EnumSet) (cfg : Cfg) (T : IntTy) (n : Nat) : (e.tryFormatW cfg T n).2 = e.tryFormat cfg T n := by
  unfold EnumSet.tryFormatW EnumSet.tryFormat
  cases tryIntoUsize cfg n with
  | none => rfl
  | some m =>
    simp only [Writes.ite_snd, Writes.bind_snd', Writes.quiet_snd]
    split
    · rfl
    · congr 1; funext i
      cases e.symbols[i]? with
      | none => rfl
      | some s => exact NStr.ofStrW_snd _ _

theorem additiveWhileW_snd (cfg : Cfg) (T : IntTy) (nominal : Nat) (symbol : List Char) (value fuel remaining : Nat) (f : NStr) :
    (additiveWhileW cfg T nominal symbol value fuel remaining f).2 = additiveWhile cfg T nominal symbol value fuel remaining f := by
  induction fuel generalizing remaining f with
  | zero => rfl
  | succ fuel ih =>
    unfold additiveWhileW additiveWhile
    simp only [Writes.ite_snd, Writes.bind_snd', Writes.quiet_snd, Writes.withNominal_snd, NStr.pushStrW_snd, ih]

theorem additiveForW_snd (cfg : Cfg) (T : IntTy) (nominal : Nat) (l : List (List Char × Nat)) (remaining : Nat) (f : NStr) :
    (additiveForW cfg T nominal l remaining f).2 = additiveFor cfg T nominal l remaining f := by
  induction l generalizing remaining f with
  | nil => rfl
  | cons p l ih =>
    obtain ⟨symbol, value⟩ := p
    unfold additiveForW additiveFor
    simp only [Writes.ite_snd, Writes.quiet_snd]
    split
    · rfl
    · cases T.tryFrom cfg value with
      | none => exact ih _ _
      | some v => simp only [Writes.bind_snd', additiveWhileW_snd, ih]

theorem AdditiveSet.tryFormatW_snd (a : AdditiveSet) (cfg : Cfg) (T : IntTy) (n : Nat) : (a.tryFormatW cfg T n).2 = a.tryFormat cfg T n := by
  unfold AdditiveSet.tryFormatW AdditiveSet.tryFormat
  simp only [Writes.ite_snd, additiveForW_snd]
  cases a.zero with
  | none => rfl
  | some z => simp only [NStr.ofStrW_snd]

theorem hebrewWhileW_snd (cfg : Cfg) (T : IntTy) (nominal : Nat) (symbol : Char) (value fuel remaining : Nat) (f : NStr) :
    (hebrewWhileW cfg T nominal symbol value fuel remaining f).2 = hebrewWhile cfg T nominal symbol value fuel remaining f := by
  induction fuel generalizing remaining f with
  | zero => rfl
  | succ fuel ih =>
    unfold hebrewWhileW hebrewWhile
    simp only [Writes.ite_snd, Writes.bind_snd', Writes.quiet_snd, Writes.withNominal_snd, NStr.pushStrW_snd, NStr.pushW_snd, ih]

theorem hebrewForW_snd (cfg : Cfg) (T : IntTy) (nominal : Nat) (l : List (Char × Nat)) (remaining : Nat) (f : NStr) :
    (hebrewForW cfg T nominal l remaining f).2 = hebrewFor cfg T nominal l remaining f := by
  induction l generalizing remaining f with
  | nil => rfl
  | cons p l ih =>
    obtain ⟨symbol, value⟩ := p
    unfold hebrewForW hebrewFor
    cases T.tryFrom cfg value with
    | none => exact ih _ _
    | some v =>
      simp only [Writes.bind_snd', hebrewWhileW_snd]
      congr 1; funext x
      cases x with
      | next r f => exact ih _ _
      | breakSymbolLoop f => rfl

theorem hebrewTryFormatW_snd (cfg : Cfg) (T : IntTy) (n : Nat) : (hebrewTryFormatW cfg T n).2 = hebrewTryFormat cfg T n := by
  unfold hebrewTryFormatW hebrewTryFormat
  simp only [Writes.ite_snd, Writes.quiet_snd, hebrewForW_snd]

theorem ethiopicLoopW_snd (cfg : Cfg) (fuel index remaining : Nat) (f : NStr) :
    (ethiopicLoopW cfg fuel index remaining f).2 = ethiopicLoop cfg fuel index remaining f := by
  induction fuel generalizing index remaining f with
  | zero => rfl
  | succ fuel ih =>
    unfold ethiopicLoopW ethiopicLoop
    simp only [Writes.ite_snd, Writes.bind_snd', Writes.quiet_snd, NStr.pushFrontW_snd, ih]

theorem ethiopicTryFormatW_snd (cfg : Cfg) (T : IntTy) (n : Nat) : (ethiopicTryFormatW cfg n).2 = ethiopicTryFormat cfg T n := by
  unfold ethiopicTryFormatW ethiopicTryFormat formatEthiopic
  simp only [Writes.ite_snd, Writes.quiet_snd, Writes.mapErr_snd, ethiopicLoopW_snd]

@[simp] theorem pushAtW_snd (cfg : Cfg) (chars : List Char) (i : Nat) (f : NStr) : (pushAtW cfg chars i f).2 = pushAt cfg chars i f := by
  unfold pushAtW pushAt
  simp only [Writes.bind_snd', Writes.quiet_snd, NStr.pushW_snd]

theorem chineseInnerW_snd (cfg : Cfg) (formal : Bool) (characters : List Char) (n : Nat) (p z : Bool) :
    (chineseInnerW cfg formal characters n p z).2 = chineseInner cfg formal characters n p z := by
  unfold chineseInnerW chineseInner
  simp only [Writes.ite_snd, Writes.bind_snd', Writes.quiet_snd, pushAtW_snd]

theorem shortBodyW_snd (cfg : Cfg) (characters large : List Char) (rank scale remaining : Nat) (f : NStr) (z : Bool) :
    (shortBodyW cfg characters large rank scale remaining f z).2 = shortBody cfg characters large rank scale remaining f z := by
  unfold shortBodyW shortBody
  simp only [Writes.ite_snd, Writes.bind_snd', Writes.quiet_snd, Writes.toChinese_snd, pushAtW_snd]

theorem shortLoopW_snd (cfg : Cfg) (T : IntTy) (characters large : List Char) (rank scale remaining : Nat) (f : NStr) (z : Bool) :
    (shortLoopW cfg T characters large rank scale remaining f z).2 = shortLoop cfg T characters large rank scale remaining f z := by
  induction rank generalizing scale remaining f z with
  | zero =>
    unfold shortLoopW shortLoop
    simp only [Writes.ite_snd, Writes.quiet_snd, shortBodyW_snd]
  | succ rank ih =>
    unfold shortLoopW shortLoop
    simp only [Writes.ite_snd, Writes.bind_snd', Writes.quiet_snd, shortBodyW_snd]
    split
    · rfl
    · congr 1; funext x; congr 1; funext sc
      cases T.tryFrom cfg sc with
      | none => rfl
      | some v => exact ih _ _ _ _

theorem appendPartW_snd (cfg : Cfg) (f part : NStr) : (appendPartW cfg f part).2 =
    match part.asStr with
    | some t => (f.pushStr cfg t).toChinese
    | none => .ub := by
  unfold appendPartW
  cases part.asStr <;> simp

theorem formatShortRankAtW_snd (cfg : Cfg) (T : IntTy) (formal : Bool) (characters large : List Char) (n rank scale : Nat) :
    (formatShortRankAtW cfg T formal characters large n rank scale).2 = formatShortRankAt cfg T formal characters large n rank scale := by
  unfold formatShortRankAtW formatShortRankAt
  simp only [Writes.ite_snd, Writes.bind_snd', Writes.quiet_snd, shortLoopW_snd, chineseInnerW_snd, appendPartW_snd, Writes.toChinese_snd]
  rfl

theorem formatShortRankW_snd (cfg : Cfg) (T : IntTy) (formal : Bool) (characters large : List Char) (n rank : Nat) :
    (formatShortRankW cfg T formal characters large n rank).2 = formatShortRank cfg T formal characters large n rank := by
  induction rank with
  | zero =>
    unfold formatShortRankW formatShortRank
    simp only [Writes.bind_snd', Writes.quiet_snd]
    congr 1; funext sc
    cases T.tryFrom cfg sc with
    | none => rfl
    | some v => exact formatShortRankAtW_snd _ _ _ _ _ _ _ _
  | succ rank ih =>
    unfold formatShortRankW formatShortRank
    simp only [Writes.bind_snd', Writes.quiet_snd]
    congr 1; funext sc
    cases T.tryFrom cfg sc with
    | none => exact ih
    | some v => exact formatShortRankAtW_snd _ _ _ _ _ _ _ _

theorem scaledRankBodyW_snd (cfg : Cfg) (large : List Char) (scales : List (Option Nat)) (rank : Nat) {nextW : ScaledFnW} {next : ScaledFn}
    (h : ∀ n p z, (nextW n p z).2 = next n p z) (n : Nat) (p z : Bool) :
    (scaledRankBodyW cfg large scales rank nextW n p z).2 = scaledRankBody cfg large scales rank next n p z := by
  unfold scaledRankBodyW scaledRankBody
  cases scales[rank]?.join with
  | none => exact h _ _ _
  | some scale =>
    simp only [Writes.ite_snd, Writes.bind_snd', Writes.quiet_snd, appendPartW_snd, Writes.toChinese_snd, pushAtW_snd, h]
    rfl

theorem scaledNextW_snd (cfg : Cfg) (formal : Bool) (characters large : List Char) (scales : List (Option Nat)) (rank n : Nat) (p z : Bool) :
    (scaledNextW cfg formal characters large scales rank n p z).2 = scaledNext cfg formal characters large scales rank n p z := by
  induction rank generalizing n p z with
  | zero =>
    unfold scaledNextW scaledNext
    simp only [Writes.toChinese_snd, chineseInnerW_snd]
  | succ rank ih =>
    unfold scaledNextW scaledNext
    exact scaledRankBodyW_snd _ _ _ _ ih _ _ _

theorem formatScaledW_snd (cfg : Cfg) (T : IntTy) (formal : Bool) (scales : List Nat) (characters large : List Char) (n : Nat) :
    (formatScaledW cfg T formal scales characters large n).2 = formatScaled cfg T formal scales characters large n := by
  unfold formatScaledW formatScaled
  simp only [Writes.map_snd]
  rw [scaledRankBodyW_snd _ _ _ _ (scaledNextW_snd _ _ _ _ _ _)]

theorem formatChineseW_snd (cfg : Cfg) (T : IntTy) (formal : Bool) (characters large : List Char) (n : Nat) (scale : ChineseScale) :
    (formatChineseW cfg T formal characters large n scale).2 = formatChinese cfg T formal characters large n scale := by
  have hs : (scale.formatW cfg T formal characters large n).2 = scale.format cfg T formal characters large n := by
    cases scale
    · exact formatShortRankW_snd _ _ _ _ _ _ _
    all_goals exact formatScaledW_snd _ _ _ _ _ _ _
  unfold formatChineseW formatChinese
  simp only [Writes.ite_snd, Writes.bind_snd', Writes.quiet_snd, NStr.ofCharW_snd]
  split
  · rfl
  · cases T.tryFrom cfg 10000 with
    | none => simp only [Writes.map_snd, Writes.mapErr_snd, chineseInnerW_snd]
    | some v =>
      simp only [Writes.ite_snd, Writes.map_snd, Writes.mapErr_snd, chineseInnerW_snd, hs]
      rfl

theorem additiveTryFormatW_snd (symbols : List (List Char × Nat)) (cfg : Cfg) (T : IntTy) (n : Nat) :
    (additiveTryFormatW symbols cfg T n).2 = additiveTryFormat symbols cfg T n := by
  unfold additiveTryFormatW additiveTryFormat
  simp only [Writes.bind_snd', Writes.quiet_snd, AdditiveSet.tryFormatW_snd]

theorem Named.tryFormatW_snd (s : Named) (cfg : Cfg) (T : IntTy) (n : Nat) : (s.tryFormatW cfg T n).2 = s.system.tryFormat cfg T n := by
  cases s with
  | circledNumber => exact EnumSet.tryFormatW_snd _ _ T _
  | doubleCircledNumber => exact EnumSet.tryFormatW_snd _ _ T _
  | romanLower => exact additiveTryFormatW_snd _ _ _ _
  | romanUpper => exact additiveTryFormatW_snd _ _ _ _
  | armenianUpper => exact additiveTryFormatW_snd _ _ _ _
  | armenianLower => exact additiveTryFormatW_snd _ _ _ _
  | georgian => exact additiveTryFormatW_snd _ _ _ _
  | japaneseFormal => exact additiveTryFormatW_snd _ _ _ _
  | japaneseInformal => exact additiveTryFormatW_snd _ _ _ _
  | hangeulFormal => exact additiveTryFormatW_snd _ _ _ _
  | hanjaInformal => exact additiveTryFormatW_snd _ _ _ _
  | hanjaFormal => exact additiveTryFormatW_snd _ _ _ _
  | hebrew => exact hebrewTryFormatW_snd _ _ _
  | ethiopic => exact ethiopicTryFormatW_snd _ T _
  | chinese k o => exact formatChineseW_snd _ _ _ _ _ _ _
  | _ => exact digitTryFormatW_snd _ _ _ _ _ _

end Nominals
