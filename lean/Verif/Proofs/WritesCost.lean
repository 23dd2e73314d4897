import Verif.Proofs.WritesFormat
import Verif.Props.Strings

/-!
# How many cells the logged formatters write
-/

namespace Nominals

open Spec

/-- Relations between the number of cells written so far and the text: its length while it is in the buffer, `none` when it is on the heap. -/
abbrev Rel := Nat → Option Nat → Prop

/-- After `n` cells have been written before: `Q` holds of what `r` delivers and the number of all cells, and the number of all cells is
possible in `R` in any case. -/
def Writes.From {ε α : Type} (R : Rel) (n : Nat) (Q : Nat → α → Prop) (r : Writes ε α) : Prop :=
  (∀ a, r.2 = .ok a → Q (n + r.1.length) a) ∧ ∃ o, R (n + r.1.length) o

section
variable {ε ε' α β : Type} {R : Rel} {n : Nat} {P : Nat → α → Prop} {Q : Nat → β → Prop}

theorem Writes.From.bind {r : Writes ε α} {f : α → Writes ε β} (h : r.From R n P) (hf : ∀ m a, P m a → (f a).From R m Q) : (r.bind f).From R n Q := by
  obtain ⟨l, r⟩ := r
  cases r with
  | ok a =>
    have := hf _ a (h.1 a rfl)
    unfold From at this ⊢
    simpa only [Writes.bind, List.length_append, ← Nat.add_assoc] using this
  | _ => exact ⟨fun b hb => (by cases hb), h.2⟩

theorem Writes.From.quiet {r : Res ε α} {f : α → Writes ε β} (hn : ∃ o, R n o) (hf : ∀ a, (f a).From R n Q) : (r.quiet.bind f).From R n Q :=
  Writes.From.bind (P := fun m _ => m = n) ⟨fun _ _ => rfl, hn⟩ fun _ a h => h ▸ hf a

theorem Writes.From.ok {a : α} (hn : ∃ o, R n o) (h : P n a) : (Res.ok a : Res ε α).quiet.From R n P := ⟨fun b hb => (by cases hb; exact h), hn⟩

theorem Writes.From.err {e : ε} (hn : ∃ o, R n o) : (Res.err e : Res ε α).quiet.From R n P := ⟨fun b hb => (by cases hb), hn⟩
theorem Writes.From.panic (hn : ∃ o, R n o) : (Res.panic : Res ε α).quiet.From R n P := ⟨fun b hb => (by cases hb), hn⟩
theorem Writes.From.ub (hn : ∃ o, R n o) : (Res.ub : Res ε α).quiet.From R n P := ⟨fun b hb => (by cases hb), hn⟩
theorem Writes.From.timeout (hn : ∃ o, R n o) : (Res.timeout : Res ε α).quiet.From R n P := ⟨fun b hb => (by cases hb), hn⟩

theorem Writes.From.ite {c : Prop} [Decidable c] {r r' : Writes ε α} (h : r.From R n P) (h' : r'.From R n P) : (if c then r else r').From R n P := by
  split
  · exact h
  · exact h'

theorem Writes.From.mapErr {r : Writes ε α} {f : ε → ε'} (h : r.From R n P) : (r.mapErr f).From R n P := by
  refine ⟨fun a ha => ?_, h.2⟩
  obtain ⟨l, r⟩ := r
  cases r with
  | ok b => cases ha; exact h.1 a rfl
  | _ => cases ha

theorem Writes.From.withNominal {r : Writes OutOfMemoryError α} {k : Nat} (h : r.From R n P) : (r.withNominal k).From R n P :=
  Writes.From.mapErr (f := fun _ => Error.outOfMemory k) h

theorem Writes.From.toChinese {r : Writes OutOfMemoryError α} (h : r.From R n P) : r.toChinese.From R n P :=
  Writes.From.mapErr (f := fun _ => ChineseFormatError.outOfMemory) h

theorem Writes.From.map {r : Writes ε α} {f : α → β} (h : r.From R n P) (hf : ∀ m a, P m a → Q m (f a)) : (r.map f).From R n Q := by
  refine ⟨fun b hb => ?_, h.2⟩
  obtain ⟨l, r⟩ := r
  cases r with
  | ok a => cases hb; exact hf _ a (h.1 a rfl)
  | _ => cases hb

theorem Writes.From.imp {r : Writes ε α} {P' : Nat → α → Prop} (h : r.From R n P) (hi : ∀ m a, P m a → P' m a) : r.From R n P' :=
  ⟨fun a ha => hi _ a (h.1 a ha), h.2⟩

end

/-- `s` holds a text; while it is inline, its direction is `rev`; the number `n` of cells written is in relation `R` to the length of the text. -/
def Part (rev : Bool) (R : Rel) (n : Nat) (s : NStr) : Prop :=
  ∃ t, s.Is t ∧ (∀ a, s = .inline a → a.isReverse = rev) ∧ R n (if s.isInline then some (utf8Len t) else none)

theorem Part.any {rev : Bool} {R : Rel} {n : Nat} {s : NStr} (h : Part rev R n s) : ∃ o, R n o := ⟨_, h.choose_spec.2.2⟩

/-- `R` allows to write a cell per byte of text, and none on the heap. -/
structure PerByte (R : Rel) : Prop where
  zero : R 0 (some 0)
  add : ∀ n l z, l + z ≤ 62 → R n (some l) → R (n + z) (some (l + z))
  leave : ∀ n l, R n (some l) → R n none

/-- One cell per byte of text, as long as it is in the buffer. -/
def Each : Rel
  | n, some l => n = l ∧ l ≤ 62
  | n, none => n ≤ 62

theorem Each.le {n : Nat} : (∃ o, Each n o) → n ≤ 62
  | ⟨some _, h⟩ => h.1 ▸ h.2
  | ⟨none, h⟩ => h

theorem perByte_each : PerByte Each := ⟨⟨rfl, by omega⟩, fun _ _ _ hz h => ⟨by rw [h.1], hz⟩, fun _ _ h => h.1 ▸ h.2⟩

/-- At most `k` cells per byte of text, as long as it is in the buffer. -/
def Times (k : Nat) : Rel
  | n, some l => n ≤ k * l
  | _, none => True

theorem Times.any {k n : Nat} : ∃ o, Times k n o := ⟨none, trivial⟩

theorem perByte_le (k : Nat) (hk : 1 ≤ k) : PerByte (Times k) := by
  refine ⟨Nat.zero_le _, fun n l z _ h => ?_, fun _ _ _ => trivial⟩
  have h' : n ≤ k * l := h
  show n + z ≤ k * (l + z)
  rw [Nat.mul_add]
  have := Nat.mul_le_mul_right z hk
  omega

theorem part_new {R : Rel} (hR : PerByte R) : Part false R 0 .new :=
  ⟨[], NStr.new_is, fun a h => (by cases h; rfl), hR.zero⟩

theorem part_newReverse {R : Rel} (hR : PerByte R) : Part true R 0 .newReverse :=
  ⟨[], NStr.newReverse_is, fun a h => (by cases h; rfl), hR.zero⟩

theorem Spec.Push.on_len (p : Push) (t : List Char) : utf8Len (p.op.on t) = utf8Len t + p.size := by
  cases p <;> simp [Push.op, Op.on, Push.size, Nat.add_comm]

theorem Spec.Push.op_call (cfg : Cfg) (s : NStr) (p : Push) : p.op.call cfg s = callOutcome (p.call cfg s) := by
  cases p <;> rfl

theorem Spec.Push.logged_snd (cfg : Cfg) (s : NStr) (p : Push) : (p.logged cfg s).2 = p.call cfg s := by
  cases p with
  | back c => exact NStr.tryPushW_snd cfg s c
  | str u => exact NStr.tryPushStrW_snd cfg s u
  | front c => exact NStr.tryPushFrontW_snd cfg s c

theorem Spec.Push.ext {cfg : Cfg} {s : NStr} {t : List Char} (h : s.Holds t) (p : Push) : NStr.Ext cfg s (p.op.on t) (p.call cfg s) := by
  cases p with
  | back c => exact NStr.tryPush_ext h c
  | str u => exact NStr.tryPushStr_ext h u
  | front c => exact NStr.tryPushFront_ext h c

theorem cells_length (reverse : Bool) (len : Nat) (p : Push) : (cells reverse len p).length = cost reverse len p := by
  unfold cells cost
  split
  · rfl
  · cases p.atEnd <;> cases reverse <;> simp [Nat.add_comm]

theorem cells_over {reverse : Bool} {len : Nat} {p : Push} (h : 62 < len + p.size) : cells reverse len p = [] := if_pos h

theorem cells_fits {reverse : Bool} {len : Nat} {p : Push} (h : len + p.size ≤ 62) : cells reverse len p =
    match p.atEnd, reverse with
    | true, false => List.range' len p.size
    | false, true => List.range' (62 - len - p.size) p.size
    | true, true => List.range' (62 - len - p.size) len ++ List.range' (62 - p.size) p.size
    | false, false => List.range' p.size len ++ List.range' 0 p.size := if_neg (by omega)

theorem logged_cells {cfg : Cfg} {s : InlineString} {t : List Char} (h : s.Holds t) (p : Push) :
    (p.logged cfg (.inline s)).1 = cells s.isReverse (utf8Len t) p := by
  have hl : s.len.toNat = utf8Len t := h.1
  have hle := InlineString.Holds.le h
  have add : ∀ c : Char, addU8 (ε := OutOfMemoryError × NStr) cfg s.len (UInt8.ofNat c.utf8Size) = .ok (UInt8.ofNat (utf8Len t + c.utf8Size)) ∧
      (UInt8.ofNat (utf8Len t + c.utf8Size)).toNat = utf8Len t + c.utf8Size := by
    intro c
    have h4 := utf8Size_le c
    have hk1 : (UInt8.ofNat c.utf8Size).toNat = c.utf8Size := by simp; omega
    have hadd : s.len + UInt8.ofNat c.utf8Size = UInt8.ofNat (utf8Len t + c.utf8Size) := by
      apply UInt8.toNat_inj.mp
      rw [UInt8.toNat_add, hl, hk1]
      simp
    refine ⟨?_, by simp; omega⟩
    rw [addU8, hl, hk1, if_pos (by omega), hadd]
  cases p with
  | back c =>
    obtain ⟨h1, h2⟩ := add c
    simp only [Push.logged, NStr.tryPushW, h1]
    rw [Writes.bind_fst (a := UInt8.ofNat (utf8Len t + c.utf8Size)) rfl]
    simp only [Writes.quiet_fst, List.nil_append, h2, INLINE_CAPACITY]
    by_cases hf : utf8Len t + c.utf8Size ≤ 62
    · rw [if_pos hf, cells_fits hf, Writes.map, InlineString.pushW_fst h c hf]
      cases s.isReverse <;> rfl
    · rw [if_neg hf, cells_over (Nat.lt_of_not_le hf)]; rfl
  | str u =>
    simp only [Push.logged, NStr.tryPushStrW, hl, utf8Encode_length, INLINE_CAPACITY]
    by_cases hf : utf8Len t + utf8Len u ≤ 62
    · rw [if_pos (by omega), cells_fits hf, Writes.map, InlineString.pushStrW_fst h u hf]
      cases s.isReverse <;> rfl
    · rw [if_neg (by omega), cells_over (Nat.lt_of_not_le hf)]; rfl
  | front c =>
    obtain ⟨h1, h2⟩ := add c
    simp only [Push.logged, NStr.tryPushFrontW, h1]
    rw [Writes.bind_fst (a := UInt8.ofNat (utf8Len t + c.utf8Size)) rfl]
    simp only [Writes.quiet_fst, List.nil_append, h2, INLINE_CAPACITY]
    by_cases hf : utf8Len t + c.utf8Size ≤ 62
    · rw [if_pos hf, cells_fits hf, Writes.map, InlineString.pushFrontW_fst h c hf]
      cases s.isReverse <;> rfl
    · rw [if_neg hf, cells_over (Nat.lt_of_not_le hf)]; rfl

/-- The log of a push that does not stay in the buffer is empty. -/
theorem logged_over {cfg : Cfg} {s : NStr} {t : List Char} (h : s.Is t) (p : Push) (ho : s.isInline = false ∨ 62 < utf8Len t + p.size) :
    (p.logged cfg s).1 = [] := by
  cases s with
  | heap u => cases p <;> rfl
  | inline a =>
    rw [logged_cells h.1 p, cells_over]
    rcases ho with ho | ho
    · cases ho
    · exact ho

/-- A push at the free end, as an extension of what is there. -/
theorem Part.logged {cfg : Cfg} {rev : Bool} {R : Rel} (hR : PerByte R) {n : Nat} {s : NStr} (h : Part rev R n s) (p : Push)
    (hp : p.atEnd = !rev) : (p.logged cfg s).From R n (Part rev R) := by
  have hany := h.any
  obtain ⟨t, ht, ha, hr⟩ := h
  have hx := Push.ext (cfg := cfg) ht.1 p
  have hlen := Push.on_len p t
  have hov := logged_over (cfg := cfg) ht p
  have heap : ∀ u, Part rev R n (.heap u) ↔ u = u ∧ 62 < utf8Len u ∧ R n none := by
    intro u
    constructor
    · rintro ⟨v, hv, -, h⟩
      have h1 : u = v := hv.1
      have h2 := hv.2
      simp [NStr.isInline] at h2
      exact ⟨rfl, h1 ▸ h2, h⟩
    · rintro ⟨-, h1, h2⟩
      exact ⟨u, ⟨rfl, by simp [NStr.isInline]; omega⟩, fun a e => (by cases e), h2⟩
  have key : ∀ s', (p.logged cfg s).2 = .ok s' → Part rev R (n + (p.logged cfg s).1.length) s' := by
    intro s' hs'
    rw [Push.logged_snd] at hs'
    rw [hs'] at hx
    cases hx with
    | fits _ h1 h2 h3 h4 =>
      cases s with
      | heap u => cases h1
      | inline a =>
        rw [logged_cells ht.1 p, cells_length, cost, if_neg (by omega), ha a rfl, if_neg (by rw [hp]; cases rev <;> simp)]
        refine ⟨p.op.on t, ⟨h4, by rw [h3]; exact (decide_eq_true h2).symm⟩, ?_, ?_⟩
        · rintro b rfl
          obtain ⟨a', hs, hrev⟩ := Props.call_isReverse (cfg := cfg) ht.1 p.op (b := true) (by rw [Push.op_call, hs']; rfl)
          cases hs
          exact hrev.trans (ha a rfl)
        · rw [h3, if_pos rfl, hlen]
          exact hR.add _ _ _ (by omega) hr
    | spills h1 h2 h3 =>
      rw [hov (.inr (by omega))]
      refine (heap _).mpr ⟨rfl, h2, ?_⟩
      rw [h1, if_pos rfl] at hr
      exact hR.leave _ _ hr
    | heap h1 =>
      rw [hov (.inl h1)]
      have h62 := ht.2
      rw [h1] at h62
      have : 62 < utf8Len t := by simpa using h62.symm
      rw [h1] at hr
      exact (heap _).mpr ⟨rfl, by omega, hr⟩
  refine ⟨key, ?_⟩
  cases hc : p.call cfg s with
  | ok s' => exact (key s' (by rw [Push.logged_snd, hc])).any
  | err e =>
    rw [hc] at hx
    cases hx
    rw [hov (.inr (by omega))]
    exact hany
  | _ => rw [hc] at hx; cases hx

section
variable {cfg : Cfg} {R : Rel} {n : Nat} {s : NStr}

theorem Part.push (hR : PerByte R) (h : Part false R n s) (c : Char) : (s.pushW cfg c).From R n (Part false R) :=
  .mapErr (h.logged hR (.back c) rfl)

theorem Part.pushStr (hR : PerByte R) (h : Part false R n s) (u : List Char) : (s.pushStrW cfg u).From R n (Part false R) :=
  .mapErr (h.logged hR (.str u) rfl)

theorem Part.pushFront (hR : PerByte R) (h : Part true R n s) (c : Char) : (s.pushFrontW cfg c).From R n (Part true R) :=
  .mapErr (h.logged hR (.front c) rfl)

end

/-! ## The formatters that write every byte once -/

/-- Written cell by cell: either direction. -/
def Once (n : Nat) (s : NStr) : Prop := ∃ rev, Part rev Each n s

theorem each_zero : ∃ o, Each 0 o := ⟨some 0, rfl, by omega⟩

theorem ofCharW_once {ε : Type} {cfg : Cfg} (c : Char) : (NStr.ofCharW (ε := ε) cfg c).From Each 0 Once := by
  have h := Part.push perByte_each (part_new perByte_each) (cfg := cfg) c
  refine ⟨fun s hs => ?_, h.2⟩
  unfold NStr.ofCharW at hs ⊢
  simp only at hs ⊢
  split at hs
  · next s' hs' => cases hs; exact ⟨false, h.1 s hs'⟩
  all_goals cases hs

theorem ofStrW_once {ε : Type} {cfg : Cfg} (t : List Char) : (NStr.ofStrW (ε := ε) cfg t).From Each 0 Once := by
  by_cases hf : utf8Len t ≤ 62
  · obtain ⟨s, h1, h2⟩ := ofStr_is (ε := ε) cfg t (.inr hf)
    obtain ⟨b, hb⟩ : ∃ b, zipWrite (List.replicate INLINE_CAPACITY none) 0 (utf8Encode t).length (utf8Encode t) = some b := by
      unfold zipWrite
      rw [if_pos (by simp [INLINE_CAPACITY]; omega)]
      exact ⟨_, rfl⟩
    have hw : NStr.ofStrW (ε := ε) cfg t = (List.range' 0 (utf8Len t), .ok (.inline { length := UInt8.ofNat (utf8Len t), bytes := b })) := by
      unfold NStr.ofStrW
      simp only
      rw [if_pos (by simp [INLINE_CAPACITY]; omega), zipWriteW_some hb]
      simp [Writes.bind, Res.quiet]
    have hs := NStr.ofStrW_snd (ε := ε) cfg t
    rw [h1, hw] at hs
    cases hs
    rw [hw]
    refine ⟨fun a ha => ?_, some (utf8Len t), by simp, hf⟩
    cases ha
    refine ⟨false, t, h2, ?_, by simp, hf⟩
    rintro a ha
    cases ha
    have key : ∀ k : Fin 128, (UInt8.ofNat k.val &&& 0x80 != 0) = false := by decide +kernel
    exact key ⟨utf8Len t, by omega⟩
  · have hw : NStr.ofStrW (ε := ε) cfg t = (if cfg.alloc then Res.ok (.heap t) else .panic).quiet := by
      unfold NStr.ofStrW
      simp only
      rw [if_neg (by simp [INLINE_CAPACITY]; omega)]
      rfl
    rw [hw]
    refine ⟨fun a ha => ?_, each_zero⟩
    unfold Res.quiet at ha ⊢
    simp only at ha
    split at ha
    · cases ha
      exact ⟨false, t, ⟨rfl, by simp [NStr.isInline]; omega⟩, fun a e => (by cases e), by simp [NStr.isInline, Each]⟩
    · cases ha

theorem digitLoopW_once {cfg : Cfg} {T : IntTy} {c : Coll} {nominal : Nat} (fuel count remaining : Nat) (first : Bool) {n : Nat} {f : NStr}
    (hf : Part true Each n f) : (digitLoopW cfg T c nominal fuel count remaining first f).From Each n (Part true Each) := by
  induction fuel generalizing count remaining first n f with
  | zero => exact .timeout hf.any
  | succ fuel ih =>
    unfold digitLoopW
    refine .ite (.quiet hf.any fun _ => .quiet hf.any fun _ => .quiet hf.any fun ch =>
      .bind (.withNominal (hf.pushFront perByte_each ch)) fun m f' hf' => .quiet hf'.any fun _ => ?_) (.ok hf.any hf)
    split
    · exact ih _ _ _ hf'
    · exact .err hf'.any

theorem digitTryFormatW_once {cfg : Cfg} {T : IntTy} (fuel depth : Nat) (d : DigitSys) (n : Nat) :
    (digitTryFormatW cfg T fuel depth d n).From Each 0 Once := by
  induction depth generalizing d with
  | zero => exact .timeout each_zero
  | succ depth ih =>
    unfold digitTryFormatW
    simp only
    split
    · exact .quiet each_zero fun ch => ofCharW_once ch
    · exact .ite (.ite (.err each_zero) (ih _)) (.imp (digitLoopW_once _ _ _ _ (part_newReverse perByte_each)) fun _ _ h => ⟨_, h⟩)

theorem enumTryFormatW_once (e : EnumSet) {cfg : Cfg} {T : IntTy} (n : Nat) : (e.tryFormatW cfg T n).From Each 0 Once := by
  unfold EnumSet.tryFormatW
  split
  · exact .err each_zero
  · refine .ite (.err each_zero) (.quiet each_zero fun _ => ?_)
    split
    · exact ofStrW_once _
    · exact .err each_zero

theorem additiveWhileW_once {cfg : Cfg} {T : IntTy} {nominal : Nat} {symbol : List Char} {value : Nat} (fuel remaining : Nat) {n : Nat} {f : NStr}
    (hf : Part false Each n f) : (additiveWhileW cfg T nominal symbol value fuel remaining f).From Each n fun m p => Part false Each m p.2 := by
  induction fuel generalizing remaining n f with
  | zero => exact .timeout hf.any
  | succ fuel ih =>
    unfold additiveWhileW
    exact .ite (.quiet hf.any fun _ => .bind (.withNominal (hf.pushStr perByte_each _)) fun m f' hf' => ih _ hf') (.ok hf.any hf)

theorem additiveForW_once {cfg : Cfg} {T : IntTy} {nominal : Nat} (l : List (List Char × Nat)) (remaining : Nat) {n : Nat} {f : NStr}
    (hf : Part false Each n f) : (additiveForW cfg T nominal l remaining f).From Each n (Part false Each) := by
  induction l generalizing remaining n f with
  | nil => exact .ok hf.any hf
  | cons p l ih =>
    unfold additiveForW
    refine .ite (.ok hf.any hf) ?_
    split
    · exact ih _ hf
    · exact .bind (additiveWhileW_once _ _ hf) fun m p hp => ih _ hp

theorem additiveTryFormatW_once (a : AdditiveSet) {cfg : Cfg} {T : IntTy} (n : Nat) : (a.tryFormatW cfg T n).From Each 0 Once := by
  unfold AdditiveSet.tryFormatW
  refine .ite ?_ (.imp (additiveForW_once _ _ (part_new perByte_each)) fun _ _ h => ⟨_, h⟩)
  split
  · exact ofStrW_once _
  · exact .err each_zero

/-- The string in the two ways out of the Hebrew `while`. -/
def HebrewExit.formatted : HebrewExit → NStr
  | .next _ f => f
  | .breakSymbolLoop f => f

theorem hebrewWhileW_once {cfg : Cfg} {T : IntTy} {nominal : Nat} {symbol : Char} {value : Nat} (fuel remaining : Nat) {n : Nat} {f : NStr}
    (hf : Part false Each n f) : (hebrewWhileW cfg T nominal symbol value fuel remaining f).From Each n fun m x => Part false Each m x.formatted := by
  induction fuel generalizing remaining n f with
  | zero => exact .timeout hf.any
  | succ fuel ih =>
    unfold hebrewWhileW
    have hR := perByte_each
    refine .ite (.ite (.bind (.withNominal (hf.pushStr hR _)) fun m f' hf' => .ok hf'.any hf')
      (.ite (.bind (.withNominal (hf.pushStr hR _)) fun m f' hf' => .ok hf'.any hf') ?_)) (.ok hf.any hf)
    refine .bind (P := Part false Each) (.ite (.withNominal (hf.push hR _)) (.ok hf.any hf)) fun m1 f1 h1 => .quiet h1.any fun _ =>
      .bind (.withNominal (h1.push hR _)) fun m2 f2 h2 => .ite (.bind (.withNominal (h2.push hR _)) fun m3 f3 h3 => .ok h3.any h3) (ih _ h2)

theorem hebrewForW_once {cfg : Cfg} {T : IntTy} {nominal : Nat} (l : List (Char × Nat)) (remaining : Nat) {n : Nat} {f : NStr}
    (hf : Part false Each n f) : (hebrewForW cfg T nominal l remaining f).From Each n (Part false Each) := by
  induction l generalizing remaining n f with
  | nil => exact .ok hf.any hf
  | cons p l ih =>
    unfold hebrewForW
    split
    · exact ih _ hf
    · refine .bind (hebrewWhileW_once _ _ hf) fun m x hx => ?_
      cases x with
      | next r f => exact ih _ hx
      | breakSymbolLoop f => exact .ok hx.any hx

theorem hebrewTryFormatW_once {cfg : Cfg} {T : IntTy} (n : Nat) : (hebrewTryFormatW cfg T n).From Each 0 Once :=
  .ite (.err each_zero) (.imp (hebrewForW_once _ _ (part_new perByte_each)) fun _ _ h => ⟨_, h⟩)

theorem ethiopicLoopW_once {cfg : Cfg} (fuel index remaining : Nat) {n : Nat} {f : NStr} (hf : Part true Each n f) :
    (ethiopicLoopW cfg fuel index remaining f).From Each n (Part true Each) := by
  induction fuel generalizing index remaining n f with
  | zero => exact .timeout hf.any
  | succ fuel ih =>
    unfold ethiopicLoopW
    have hR := perByte_each
    refine .ite (.ok hf.any hf) (.quiet hf.any fun _ => .quiet hf.any fun _ => .quiet hf.any fun _ => .quiet hf.any fun _ => ?_)
    refine .bind (P := Part true Each) (.ite (.ite (hf.pushFront hR _) (.ite (hf.pushFront hR _) (.ok hf.any hf))) (.ok hf.any hf)) fun m1 f1 h1 => ?_
    refine .bind (P := Part true Each) (.ite ?_ (.ok h1.any h1)) fun m2 f2 h2 => ih _ _ h2
    refine .bind (P := Part true Each) (.ite (.quiet h1.any fun _ => h1.pushFront hR _) (.ok h1.any h1)) fun m3 f3 h3 => ?_
    exact .ite (.quiet h3.any fun _ => h3.pushFront hR _) (.ok h3.any h3)

theorem ethiopicTryFormatW_once {cfg : Cfg} (n : Nat) : (ethiopicTryFormatW cfg n).From Each 0 Once :=
  .ite (.err each_zero) (.mapErr (.imp (ethiopicLoopW_once _ _ _ (part_newReverse perByte_each)) fun _ _ h => ⟨_, h⟩))

/-! ## Chinese: parts are copied -/

section
variable {cfg : Cfg} {R : Rel} (hR : PerByte R) {n : Nat}
include hR

theorem pushAtW_part {chars : List Char} {i : Nat} {f : NStr} (hf : Part false R n f) : (pushAtW cfg chars i f).From R n (Part false R) :=
  .quiet hf.any fun _ => hf.push hR _

theorem chineseInnerW_part (formal : Bool) (characters : List Char) (nominal : Nat) (noPrefix zero : Bool) :
    (chineseInnerW cfg formal characters nominal noPrefix zero).From R 0 fun m p => Part false R m p.1 := by
  unfold chineseInnerW
  simp only
  have one : ∀ {n i : Nat} {b : Bool} {f : NStr}, Part false R n f →
      ((pushAtW cfg characters i f).bind fun f => (Res.ok (f, b)).quiet).From R n fun m p => Part false R m p.1 :=
    fun hf => .bind (pushAtW_part hR hf) fun m f h => .ok h.any h
  have two : ∀ {n i j : Nat} {b : Bool} {f : NStr}, Part false R n f →
      ((pushAtW cfg characters i f).bind fun f => (pushAtW cfg characters j f).bind fun f => (Res.ok (f, b)).quiet).From R n
        fun m p => Part false R m p.1 :=
    fun hf => .bind (pushAtW_part hR hf) fun m f h => one h
  have h0 := part_new hR
  refine .bind (P := fun m p => Part false R m p.1) (.ite (.ite (one h0) (.ok h0.any h0)) (two h0)) fun m p hp => ?_
  refine .bind (P := fun m p => Part false R m p.1) (.ite (.ite (one hp) (.ok hp.any hp)) (two hp)) fun m p hp => ?_
  refine .bind (P := fun m p => Part false R m p.1) (.ite (.ite (one hp) (.ok hp.any hp))
    (.bind (P := Part false R) (.ite (pushAtW_part hR hp) (.ok hp.any hp)) fun m f hf => one hf)) fun m p hp => ?_
  exact .ite (one hp) (.ok hp.any hp)

theorem shortBodyW_part (characters large : List Char) (rank scale remaining : Nat) {f : NStr} (hf : Part false R n f) (z : Bool) :
    (shortBodyW cfg characters large rank scale remaining f z).From R n fun m p => Part false R m p.2.1 := by
  unfold shortBodyW
  refine .quiet hf.any fun _ => .ite (.err hf.any) (.quiet hf.any fun _ =>
    .ite (.ite (.bind (.toChinese (pushAtW_part hR hf)) fun m f h => .ok h.any h) (.ok hf.any hf)) ?_)
  exact .bind (.toChinese (pushAtW_part hR hf)) fun m f h => .bind (.toChinese (pushAtW_part hR h)) fun m f h => .ok h.any h

theorem shortLoopW_part {T : IntTy} (characters large : List Char) (rank scale remaining : Nat) {f : NStr} (hf : Part false R n f) (z : Bool) :
    (shortLoopW cfg T characters large rank scale remaining f z).From R n fun m p => Part false R m p.2.1 := by
  induction rank generalizing scale remaining n f z with
  | zero =>
    unfold shortLoopW
    exact .ite (.ok hf.any hf) (shortBodyW_part hR _ _ _ _ _ hf _)
  | succ rank ih =>
    unfold shortLoopW
    refine .ite (.ok hf.any hf) (.bind (shortBodyW_part hR _ _ _ _ _ hf _) fun m p hp => .quiet hp.any fun _ => ?_)
    split
    · exact .panic hp.any
    · exact ih _ _ hp _

end

/-- Where the relation to the length of the text is not used, any other that allows everything on the heap will do. -/
theorem Writes.From.times {ε α : Type} {R : Rel} {k n : Nat} {P : Nat → α → Prop} {r : Writes ε α} (h : r.From R n P) : r.From (Times k) n P :=
  ⟨h.1, Times.any⟩

theorem Times.le {n n' k k' : Nat} {o : Option Nat} (h : ∀ l, o = some l → n ≤ k * l → n' ≤ k' * l) : Times k n o → Times k' n' o := by
  cases o with
  | none => exact fun _ => trivial
  | some l => exact h l rfl

theorem Part.mono {k k' n : Nat} (h : k ≤ k') {s : NStr} (hs : Part false (Times k) n s) : Part false (Times k') n s := by
  obtain ⟨t, h1, h2, h3⟩ := hs
  exact ⟨t, h1, h2, Times.le (fun l _ hl => Nat.le_trans hl (Nat.mul_le_mul_right _ h)) h3⟩

/-- At most `k` cells per byte of text, not counting `n` others. -/
def Plus (n k : Nat) : Rel
  | m, some l => m ≤ n + k * l
  | _, none => True

/-- Appending a part that took `m - n` cells of its own, at most `k` per byte. -/
theorem appendPartW_part {cfg : Cfg} {k n m : Nat} {f part : NStr} (hf : Part false (Times (k + 1)) n f)
    (hp : Part false (Plus n k) m part) : (appendPartW cfg f part).From (Times (k + 1)) m (Part false (Times (k + 1))) := by
  obtain ⟨t, ht, ha, hr⟩ := hf
  obtain ⟨u, hu, hb, hq⟩ := hp
  have hs : part.asStr = some u := hu.1.asStr
  unfold appendPartW
  rw [hs]
  refine .toChinese (.mapErr ⟨?_, Times.any⟩)
  intro s' hs'
  have hx := NStr.tryPushStr_ext (cfg := cfg) ht.1 u
  rw [NStr.tryPushStrW_snd] at hs'
  rw [hs'] at hx
  have hlen : utf8Len (t ++ u) = utf8Len t + utf8Len u := by simp
  refine ⟨t ++ u, ?_⟩
  cases hx with
  | fits _ h1 h2 h3 h4 =>
    refine ⟨⟨h4, by rw [h3]; exact (decide_eq_true h2).symm⟩, ?_, ?_⟩
    · rintro b rfl
      obtain ⟨a, hs, hrev⟩ := Props.call_isReverse (cfg := cfg) ht.1 (.pushStr u) (b := true) (by simp only [Op.call, hs']; rfl)
      exact hrev.trans (ha a hs)
    · have hpi : part.isInline = true := by rw [hu.2]; exact decide_eq_true (by omega)
      rw [hpi, if_pos rfl] at hq
      rw [h1, if_pos rfl] at hr
      rw [h3, if_pos rfl, hlen]
      have hlog' : (f.tryPushStrW cfg u).1.length = utf8Len u := by
        cases f with
        | heap v => cases h1
        | inline a =>
          have := congrArg List.length (logged_cells (cfg := cfg) ht.1 (.str u))
          rw [cells_length, cost, if_neg (by show ¬ 62 < utf8Len t + utf8Len u; omega), ha a rfl, if_neg (by simp [Push.atEnd])] at this
          exact this
      rw [hlog']
      have hn' : n ≤ (k + 1) * utf8Len t := hr
      have hm : m ≤ n + k * utf8Len u := hq
      show m + utf8Len u ≤ (k + 1) * (utf8Len t + utf8Len u)
      rw [Nat.mul_add, Nat.add_mul k 1 (utf8Len u)]
      omega
  | spills h1 h2 h3 => exact ⟨⟨rfl, by simp [NStr.isInline]; omega⟩, fun a e => (by cases e), trivial⟩
  | heap h1 =>
    have h62 := ht.2
    rw [h1] at h62
    have : 62 < utf8Len t := by simpa using h62.symm
    exact ⟨⟨rfl, by simp [NStr.isInline]; omega⟩, fun a e => (by cases e), trivial⟩

/-- A computation that starts from nothing, after `n` cells have been written elsewhere. -/
theorem Writes.From.later {ε α : Type} {f : α → NStr} {k k' : Nat} {r : Writes ε α}
    (h : r.From (Times k) 0 fun m a => Part false (Times k) m (f a)) (n : Nat) : r.From (Times k') n fun m a => Part false (Plus n k) m (f a) := by
  refine ⟨fun a ha => ?_, Times.any⟩
  obtain ⟨t, h1, h2, h3⟩ := h.1 a ha
  refine ⟨t, h1, h2, ?_⟩
  revert h3
  split
  · intro h3
    have : 0 + r.1.length ≤ k * utf8Len t := h3
    show n + r.1.length ≤ n + k * utf8Len t
    omega
  · exact fun _ => trivial

theorem formatShortRankAtW_part {cfg : Cfg} {T : IntTy} (formal : Bool) (characters large : List Char) (n rank scale : Nat) :
    (formatShortRankAtW cfg T formal characters large n rank scale).From (Times 2) 0 (Part false (Times 2)) := by
  unfold formatShortRankAtW
  refine .bind (shortLoopW_part (perByte_le 2 (by omega)) _ _ _ _ _ (part_new (perByte_le 2 (by omega))) _) fun m p hp => .ite ?_ (.ok hp.any hp)
  refine .bind (.toChinese (Writes.From.later (k := 1) (chineseInnerW_part (perByte_le 1 (by omega)) _ _ _ _ _) m)) fun m' q hq => ?_
  exact appendPartW_part hp hq

theorem formatShortRankW_part {cfg : Cfg} {T : IntTy} (formal : Bool) (characters large : List Char) (n rank : Nat) :
    (formatShortRankW cfg T formal characters large n rank).From (Times 2) 0 (Part false (Times 2)) := by
  induction rank with
  | zero =>
    unfold formatShortRankW
    refine .quiet Times.any fun _ => ?_
    split
    · exact .panic Times.any
    · exact formatShortRankAtW_part _ _ _ _ _ _
  | succ rank ih =>
    unfold formatShortRankW
    refine .quiet Times.any fun _ => ?_
    split
    · exact ih
    · exact formatShortRankAtW_part _ _ _ _ _ _

theorem scaledRankBodyW_part {cfg : Cfg} (large : List Char) (scales : List (Option Nat)) (rank : Nat) {next : ScaledFnW} {k : Nat} (hk : 1 ≤ k)
    (hn : ∀ n a b, (next n a b).From (Times k) 0 fun m p => Part false (Times k) m p.1) (n : Nat) (a b : Bool) :
    (scaledRankBodyW cfg large scales rank next n a b).From (Times k) 0
      fun m p => Part false (Times (if rank < scales.length then k + 1 else k)) m p.1 := by
  have hk' := perByte_le (k + 1) (by omega)
  unfold scaledRankBodyW
  cases hs : scales[rank]?.join with
  | none =>
    refine .imp (hn _ _ _) fun m p h => Part.mono ?_ h
    split <;> omega
  | some scale =>
    have hr : rank < scales.length := by
      apply Classical.byContradiction
      intro h
      rw [List.getElem?_eq_none (by omega)] at hs
      cases hs
    rw [if_pos hr]
    refine .quiet Times.any fun _ => .quiet Times.any fun _ => .quiet Times.any fun _ => ?_
    refine .bind (P := fun m p => Part false (Times (k + 1)) m p.1) (.ite (.ok Times.any (part_new hk')) (.bind (hn _ _ _) fun m p hp =>
      .ite (.bind (.toChinese (pushAtW_part hk' (hp.mono (by omega))).times) fun m f h => .ok Times.any h) (.ok Times.any (hp.mono (by omega)))))
      fun m p hp => .ite (.ok Times.any hp) ?_
    refine .bind (Writes.From.later (hn _ _ _) m) fun m' q hq => ?_
    exact .bind (appendPartW_part hp hq).times fun m f h => .ok Times.any h

theorem scaledNextW_part {cfg : Cfg} (formal : Bool) (characters large : List Char) (scales : List (Option Nat)) (rank n : Nat) (a b : Bool) :
    (scaledNextW cfg formal characters large scales rank n a b).From (Times (1 + min rank scales.length)) 0
      fun m p => Part false (Times (1 + min rank scales.length)) m p.1 := by
  induction rank generalizing n a b with
  | zero => exact .toChinese (.imp (chineseInnerW_part (perByte_le 1 (by omega)) _ _ _ _ _).times fun m p h => Part.mono (by omega) h)
  | succ rank ih =>
    refine .imp (scaledRankBodyW_part _ _ _ (by omega) ih _ _ _).times fun m p h => h.mono ?_
    split <;> omega

theorem formatScaledW_part {cfg : Cfg} {T : IntTy} (formal : Bool) (scales : List Nat) (characters large : List Char) (n : Nat) (hl : scales.length ≤ 10) :
    (formatScaledW cfg T formal scales characters large n).From (Times (1 + scales.length)) 0 (Part false (Times (1 + scales.length))) := by
  refine .map (scaledRankBodyW_part _ _ _ (by omega) (scaledNextW_part _ _ _ _ _) _ _ _).times fun m p h => h.mono ?_
  rw [List.length_map]
  split <;> omega

end Nominals
