import Verif.Proofs.WritesCost
import Verif.Props.Built

/-!
# C98: which cells of its buffer a string writes
-/

namespace Nominals.Props

open Nominals Nominals.Spec

/-- C98, part 1: the log is what it claims to be. Whatever the string, without the log the logged pushes are the pushes of the model, and a
push leaves every cell of the buffer alone that is not in its log. -/
theorem C98_log {cfg : Cfg} (s : NStr) (p : Push) :
    (p.logged cfg s).2 = p.call cfg s ∧
    ∀ a b, s = .inline a → p.call cfg s = .ok (.inline b) → ∀ i, i ∉ (p.logged cfg s).1 → b.bytes[i]? = a.bytes[i]? := by
  refine ⟨Push.logged_snd cfg s p, ?_⟩
  rintro a b rfl hc i hi
  rw [← Push.logged_snd] at hc
  have inl : ∀ {q : Writes (OutOfMemoryError × NStr) InlineString}, q.Sound InlineString.bytes a.bytes →
      (q.map NStr.inline).2 = .ok (.inline b) → i ∉ (q.map NStr.inline).1 → b.bytes[i]? = a.bytes[i]? := by
    intro q hq h hi
    obtain ⟨l, q⟩ := q
    cases q with
    | ok x => cases h; exact hq b rfl i hi
    | _ => cases h
  have out : ∀ {g : List Char → List Char}, (if cfg.alloc then (match a.asStr with | some t => Res.ok (NStr.heap (g t)) | none => .ub)
      else Res.err (OutOfMemoryError.mk, NStr.inline a)) ≠ Res.ok (NStr.inline b) := by
    intro g h
    split at h
    · split at h <;> cases h
    · cases h
  cases p with
  | back c =>
    simp only [Push.logged, NStr.tryPushW] at hc hi
    cases ha : addU8 (ε := OutOfMemoryError × NStr) cfg a.len (UInt8.ofNat c.utf8Size) with
    | ok n =>
      rw [ha, Writes.bind_snd] at hc
      rw [ha, Writes.bind_fst (a := n) rfl] at hi
      simp only [Writes.quiet_snd, Res.bind] at hc
      simp only [Writes.quiet_fst, List.nil_append] at hi
      split at hc
      · next hf => rw [if_pos hf] at hi; exact inl (InlineString.pushW_sound _ _ _ _ _ _) hc hi
      · exact absurd hc (out (g := fun t => t ++ [c]))
    | _ => rw [ha] at hc; cases hc
  | str u =>
    simp only [Push.logged, NStr.tryPushStrW] at hc hi
    split at hc
    · next hf => rw [if_pos hf] at hi; exact inl (InlineString.pushStrW_sound _ _ _ _) hc hi
    · exact absurd hc (out (g := fun t => t ++ u))
  | front c =>
    simp only [Push.logged, NStr.tryPushFrontW] at hc hi
    cases ha : addU8 (ε := OutOfMemoryError × NStr) cfg a.len (UInt8.ofNat c.utf8Size) with
    | ok n =>
      rw [ha, Writes.bind_snd] at hc
      rw [ha, Writes.bind_fst (a := n) rfl] at hi
      simp only [Writes.quiet_snd, Res.bind] at hc
      simp only [Writes.quiet_fst, List.nil_append] at hi
      split at hc
      · next hf => rw [if_pos hf] at hi; exact inl (InlineString.pushFrontW_sound _ _ _ _ _ _) hc hi
      · exact absurd hc (out (g := fun t => c :: t))
    | _ => rw [ha] at hc; cases hc

/-- Prepending 'a' to the reverse string "b" writes cell 60 only. -/
example : ((Push.front 'a').logged ⟨false, .w32, true⟩ (.inline ⟨0x81, List.replicate 61 none ++ [some 98]⟩)) =
    ([60], .ok (.inline ⟨0x82, List.replicate 60 none ++ [some 97, some 98]⟩)) := by decide +kernel

/-- C98, part 2. One push onto a string obtained through the API writes exactly the cells `cells`, in this order, and so exactly `cost` cells: as
many as the push has bytes at the free end of the buffer (at most four for `try_push_front` on a `new_reverse()` string and `try_push` on a
`new()` string, however long the text is), as many as the whole new text at the other end, and none when the text moves to the heap or the
push fails. -/
theorem C98_push {cfg : Cfg} {s : InlineString} {t : List Char} (h : Reachable cfg (.inline s)) (ht : s.asStr = some t) (p : Push) :
    (p.logged cfg (.inline s)).1 = cells s.isReverse (utf8Len t) p ∧
    (p.logged cfg (.inline s)).1.length = cost s.isReverse (utf8Len t) p ∧
    (∀ c, p = .front c → s.isReverse = true → (p.logged cfg (.inline s)).1.length ≤ 4) ∧
    (∀ c, p = .back c → s.isReverse = false → (p.logged cfg (.inline s)).1.length ≤ 4) := by
  have e := logged_cells (cfg := cfg) (reachable_text h ht : s.Holds t) p
  rw [e, cells_length]
  refine ⟨rfl, rfl, ?_, ?_⟩
  · rintro c rfl hr
    have := utf8Size_le c
    simp only [cost, hr, Push.size, Push.atEnd]
    split
    · omega
    · simp; omega
  · rintro c rfl hr
    have := utf8Size_le c
    simp only [cost, hr, Push.size, Push.atEnd]
    split
    · omega
    · simp; omega

/-- Ten bytes in a string created with `new()`: an eleventh at the end writes one cell, at the front eleven. -/
example : cost false 10 (.back 'x') = 1 ∧ cost false 10 (.front 'x') = 11 ∧ cost true 10 (.front 'x') = 1 ∧ cost true 10 (.str ['x', 'y']) = 12 ∧
    cost true 62 (.front 'x') = 0 := by decide

/-- C98, part 3. Several pushes that fit write `totalCost` cells in all. -/
theorem C98_total {cfg : Cfg} {s : InlineString} {t : List Char} (h : Reachable cfg (.inline s)) (ht : s.asStr = some t) (ps : List Push)
    (hf : utf8Len t + totalSize ps ≤ 62) :
    (pushAll cfg (.inline s) ps).1.length = totalCost s.isReverse (utf8Len t) ps := by
  induction ps generalizing s t with
  | nil => rfl
  | cons p ps ih =>
    have hh : s.Holds t := reachable_text h ht
    simp only [totalSize, List.map_cons, List.sum_cons] at hf ih
    obtain ⟨s', h1, h2, h3⟩ := call_refines (cfg := cfg) (s := .inline s) hh p.op
    rw [show (!(NStr.inline s).isInline) = false from rfl] at h1 h2 h3
    have hlen := Push.on_len p t
    simp only [absStep, Bool.false_eq_true, ↓reduceIte, show utf8Len (p.op.on t) ≤ 62 by omega] at h1 h2 h3
    cases s' with
    | heap u => simp [NStr.isInline] at h3
    | inline s' =>
      have hr := h.call h1
      obtain ⟨_, hs, hrev⟩ := call_isReverse (s := .inline s) hh p.op h1
      cases hs
      have ht' : s'.asStr = some (p.op.on t) := InlineString.Holds.asStr h2
      rw [Push.op_call, ← Push.logged_snd] at h1
      rw [pushAll]
      simp only
      rw [Writes.bind_fst (a := (NStr.inline s', true)) h1, List.length_append, ih hr ht' (by rw [hlen]; omega), hlen, hrev,
        logged_cells hh, cells_length, totalCost]

/-- Three pushes onto `ab` in a string created with `new()`: one cell, then four, then two. -/
example : (pushAll ⟨false, .w32, true⟩ (.inline ⟨0x02, [some 97, some 98] ++ List.replicate 60 none⟩) [.back 'c', .front 'x', .str ['y', 'z']]).1.length =
    1 + 4 + 2 := by decide +kernel

/-- C98, part 4. Filled from its free end, a string writes every byte once: the total is the size of what was pushed. Filled from the other
end, one-byte characters pushed onto an empty string cost `1 + 2 + ... + k`. -/
theorem C98_direction (ps : List Push) (reverse : Bool) (len : Nat) (hf : len + totalSize ps ≤ 62) :
    ((∀ p ∈ ps, p.atEnd = !reverse) → totalCost reverse len ps = totalSize ps) ∧
    ((∀ p ∈ ps, p.atEnd = reverse ∧ p.size = 1) → 2 * totalCost reverse len ps = ps.length * (2 * len + ps.length + 1)) := by
  induction ps generalizing len with
  | nil => exact ⟨fun _ => rfl, fun _ => by simp [totalCost]⟩
  | cons p ps ih =>
    simp only [totalSize, List.map_cons, List.sum_cons] at hf ih ⊢
    obtain ⟨i1, i2⟩ := ih (len + p.size) (by omega)
    constructor
    · intro h
      rw [totalCost, i1 fun q hq => h q (.tail _ hq), cost, if_neg (by omega), h p (.head _)]
      rw [if_neg (by cases reverse <;> simp)]
    · intro h
      have hp := h p (.head _)
      rw [totalCost, cost, if_neg (by omega), if_pos hp.1, Nat.mul_add, i2 fun q hq => h q (.tail _ hq), hp.2, List.length_cons]
      grind

/-- The 62 digits of a `Binary` numeral: 62 cells with `new_reverse()`, 1953 with `new()`. -/
example : totalCost true 0 (List.replicate 62 (.front '1')) = 62 ∧ totalCost false 0 (List.replicate 62 (.front '1')) = 1953 := by decide +kernel

/-! ## The formatters -/

/-- C98, part 5: without the log, the logged formatters are the formatters of the model. -/
theorem C98_formatters_log {cfg : Cfg} {T : IntTy} {n : Nat} :
    (∀ s : Named, (s.tryFormatW cfg T n).2 = tryToNominal cfg T n s.system) ∧
    (∀ (d : DigitSys) fuel depth, (digitTryFormatW cfg T fuel depth d n).2 = digitTryFormat cfg T fuel depth d n) ∧
    (∀ a : AdditiveSet, (a.tryFormatW cfg T n).2 = a.tryFormat cfg T n) ∧
    (∀ e : EnumSet, (e.tryFormatW cfg T n).2 = e.tryFormat cfg T n) :=
  ⟨fun s => s.tryFormatW_snd cfg T n, fun _ _ _ => digitTryFormatW_snd _ _ _ _ _ _, fun _ => AdditiveSet.tryFormatW_snd _ _ _ _,
    fun e => EnumSet.tryFormatW_snd e cfg T n⟩

example : ((Named.hebrew.tryFormatW ⟨true, .w64, true⟩ .u16 315).2.map NStr.asStr) = .ok (some ['ש', 'ט', '״', 'ו']) := by decide +kernel

theorem Once.of {ε : Type} {r : Writes ε NStr} (h : r.From Each 0 Once) :
    r.1.length ≤ 62 ∧ ∀ a t, r.2 = .ok (.inline a) → a.asStr = some t → r.1.length = utf8Len t := by
  refine ⟨by have := Each.le h.2; omega, fun a t ha ht => ?_⟩
  obtain ⟨rev, u, h1, -, h3⟩ := h.1 _ ha
  have hu : a.asStr = some u := InlineString.Holds.asStr h1.1
  rw [hu] at ht
  cases ht
  have : 0 + r.1.length = utf8Len t := h3.1
  omega

theorem named_once (s : Named) (hs : ∀ k o, s ≠ .chinese k o) {cfg : Cfg} {T : IntTy} (n : Nat) : (s.tryFormatW cfg T n).From Each 0 Once := by
  have add : ∀ l, (Nominals.additiveTryFormatW l cfg T n).From Each 0 Once := fun l => .quiet each_zero fun a => additiveTryFormatW_once a n
  cases s with
  | circledNumber => exact enumTryFormatW_once _ (T := T) _
  | doubleCircledNumber => exact enumTryFormatW_once _ (T := T) _
  | romanLower => exact add romanLowerTable
  | romanUpper => exact add romanUpperTable
  | armenianUpper => exact add armenianUpperTable
  | armenianLower => exact add armenianLowerTable
  | georgian => exact add georgianTable
  | japaneseFormal => exact add japaneseFormalTable
  | japaneseInformal => exact add japaneseInformalTable
  | hangeulFormal => exact add hangeulFormalTable
  | hanjaInformal => exact add hanjaInformalTable
  | hanjaFormal => exact add hanjaFormalTable
  | hebrew => exact hebrewTryFormatW_once n
  | ethiopic => exact ethiopicTryFormatW_once n
  | chinese k o => exact absurd rfl (hs k o)
  | _ => exact digitTryFormatW_once _ _ _ _

/-- C98, part 6. In all named systems but the Chinese ones, and in the digit collections with their fallbacks, additive sets and enumerated
sets of a user, formatting a number whose text stays in the buffer writes every byte of the text exactly once. Whatever the outcome, no more
cells are written than the buffer has. -/
theorem C98_formatters {cfg : Cfg} {T : IntTy} {n : Nat} :
    (∀ s : Named, (∀ k o, s ≠ .chinese k o) → (s.tryFormatW cfg T n).1.length ≤ 62 ∧
      ∀ a t, (s.tryFormatW cfg T n).2 = .ok (.inline a) → a.asStr = some t → (s.tryFormatW cfg T n).1.length = utf8Len t) ∧
    (∀ (d : DigitSys) fuel depth, (digitTryFormatW cfg T fuel depth d n).1.length ≤ 62 ∧
      ∀ a t, (digitTryFormatW cfg T fuel depth d n).2 = .ok (.inline a) → a.asStr = some t →
        (digitTryFormatW cfg T fuel depth d n).1.length = utf8Len t) ∧
    (∀ s : AdditiveSet, (s.tryFormatW cfg T n).1.length ≤ 62 ∧
      ∀ a t, (s.tryFormatW cfg T n).2 = .ok (.inline a) → a.asStr = some t → (s.tryFormatW cfg T n).1.length = utf8Len t) ∧
    (∀ e : EnumSet, (e.tryFormatW cfg T n).1.length ≤ 62 ∧
      ∀ a t, (e.tryFormatW cfg T n).2 = .ok (.inline a) → a.asStr = some t → (e.tryFormatW cfg T n).1.length = utf8Len t) :=
  ⟨fun s hs => Once.of (named_once s hs n), fun d _ _ => Once.of (digitTryFormatW_once _ _ d n),
    fun s => Once.of (additiveTryFormatW_once s n), fun e => Once.of (enumTryFormatW_once e n)⟩

/-- The Roman 7 is written from the front, the Ethiopic 111 from the back. -/
example : (Named.romanUpper.tryFormatW ⟨true, .w64, true⟩ .u8 7).1 = [0, 1, 2] ∧
    (Named.ethiopic.tryFormatW ⟨false, .w32, true⟩ .u8 111).1 = [59, 60, 61, 56, 57, 58, 53, 54, 55] := by decide +kernel

theorem formatChineseW_part {cfg : Cfg} {T : IntTy} (formal : Bool) (characters large : List Char) (n : Nat) (scale : ChineseScale) :
    (formatChineseW cfg T formal characters large n scale).From (Times (chineseCopies scale)) 0
      fun m x => ∃ rev, Part rev (Times (chineseCopies scale)) m x := by
  have h1 : 1 ≤ chineseCopies scale := by cases scale <;> decide
  have eqTimes : ∀ m x, Once m x → ∃ rev, Part rev (Times (chineseCopies scale)) m x := by
    rintro m x ⟨rev, t, h, h', h3⟩
    refine ⟨rev, t, h, h', ?_⟩
    revert h3
    split
    · intro h3
      have h4 : m = utf8Len t := h3.1
      have h2 := Nat.mul_le_mul_right (utf8Len t) h1
      show m ≤ _
      omega
    · exact fun _ => trivial
  have small : (((chineseInnerW cfg formal characters n true false).mapErr fun _ => Error.outOfMemory n).map Prod.fst).From
      (Times (chineseCopies scale)) 0 fun m x => ∃ rev, Part rev (Times (chineseCopies scale)) m x :=
    .map (.mapErr (chineseInnerW_part (perByte_le _ h1) _ _ _ _ _)) fun m p h => ⟨_, h⟩
  unfold formatChineseW
  simp only
  refine .ite (.quiet Times.any fun ch => .imp (ofCharW_once ch).times eqTimes) ?_
  split
  · refine .ite (.mapErr (.imp (P := Part false (Times (chineseCopies scale))) ?_ fun m x h => ⟨_, h⟩)) small
    cases scale with
    | short => exact formatShortRankW_part _ _ _ _ _
    | myriad => exact formatScaledW_part formal MYRIAD_SCALE characters large n (by decide)
    | mid => exact formatScaledW_part formal MID_SCALE characters large n (by decide)
    | long => exact formatScaledW_part formal LONG_SCALE characters large n (by decide)
  · exact small

/-- C98, part 7. The Chinese systems put their texts together from parts which are strings themselves. All buffers taken together, they write
at most twice as many cells as a text has that stays in the buffer with the short scale, at most 10, 6 and 5 times as many with the myriad,
mid and long scale: once for the character and once for every rank. -/
theorem C98_chinese {cfg : Cfg} {T : IntTy} {n : Nat} {a : InlineString} {t : List Char} (ht : a.asStr = some t) (k : ChineseKind)
    (o : ChineseOptions) (h : ((Named.chinese k o).tryFormatW cfg T n).2 = .ok (.inline a)) :
    ((Named.chinese k o).tryFormatW cfg T n).1.length ≤ chineseCopies o.scale * utf8Len t := by
  obtain ⟨rev, u, h1, -, h3⟩ := (formatChineseW_part k.formal (k.characters o.usage) k.large n o.scale).1 _ h
  have hu : a.asStr = some u := InlineString.Holds.asStr h1.1
  rw [hu] at ht
  cases ht
  have : 0 + ((Named.chinese k o).tryFormatW cfg T n).1.length ≤ chineseCopies o.scale * utf8Len t := h3
  omega

/-- 20000 as a `u128`, six bytes: with the myriad scale every byte is written nine times, because each of the eight empty ranks above copies what
the rank below has returned. -/
example : ((Named.chinese .simplifiedFormal ⟨.ordinary, .myriad⟩).tryFormatW ⟨true, .w64, true⟩ .u128 20000).1.length = 6 + 8 * 6 := by decide +kernel

end Nominals.Props
