import Verif.Spec.Flags
import Verif.Props.Results
import Verif.Props.Parse

/-!
# Property C91: errors printed with any flags

Vocabulary: `Verif/Spec/Flags.lean`.
-/

namespace Nominals.Props

open Nominals Nominals.Spec

theorem intPrefix_lead (o : FmtOpts) : intPrefix o = lead o := by
  obtain ⟨fill, align, width, precision, alternate, plus, zeros, hex⟩ := o
  cases alternate <;> cases plus <;> cases hex <;> rfl

theorem intDigits_figures (o : FmtOpts) (n : Nat) : intDigits o.hex n = figures o n := by
  obtain ⟨fill, align, width, precision, alternate, plus, zeros, hex⟩ := o
  cases hex with
  | none => rfl
  | some u => cases u <;> rfl

theorem numberOut_debug (o : FmtOpts) (n : Nat) : NumberOut o n (intDebug o n) := by
  have align : ∀ {pre post zs : List Char}, pre = [] → post = [] → zs = [] →
      (if o.zeros then pre = [] ∧ post = [] else zs = [] ∧
        match o.align with
        | none | some .right => post = []
        | some .left => pre = []
        | some .center => pre.length ≤ post.length ∧ post.length ≤ pre.length + 1) := by
    rintro _ _ _ rfl rfl rfl
    cases o.zeros
    · cases o.align with
      | none => simp
      | some a => cases a <;> simp
    · simp
  have plain : ∀ w, o.width.getD 0 = w → w ≤ (lead o).length + (figures o n).length → NumberOut o n (lead o ++ figures o n) := by
    intro w h1 h2
    exact ⟨[], [], [], by simp, by simp, by simp, by rw [h1, List.length_append]; omega, align rfl rfl rfl⟩
  rw [intDebug, intPrefix_lead, intDigits_figures]
  cases hw : o.width with
  | none => exact plain 0 (by rw [hw]; rfl) (by omega)
  | some w =>
    dsimp only
    split
    · exact plain w (by rw [hw]; rfl) ‹_›
    · rename_i hlt
      by_cases hz : o.zeros = true
      · rw [if_pos hz]
        refine ⟨[], List.replicate (w - ((lead o).length + (figures o n).length)) '0', [], by simp [fmtPadding], by simp, ?_, ?_, by rw [if_pos hz]; exact ⟨rfl, rfl⟩⟩
        · intro c hc; exact List.eq_of_mem_replicate hc
        · simp [fmtPadding, hw]; omega
      · rw [if_neg hz]
        refine ⟨List.replicate _ o.fill, [], List.replicate _ o.fill, by simp; rfl, ?_, by simp, ?_, ?_⟩
        · intro c hc
          rcases List.mem_append.mp hc with hc | hc <;> exact List.eq_of_mem_replicate hc
        · rw [hw]
          cases o.align with
          | none => simp [fmtPadding]; omega
          | some a => cases a <;> simp [fmtPadding] <;> omega
        · rw [if_neg hz]
          refine ⟨rfl, ?_⟩
          cases o.align with
          | none => simp [fmtPadding]
          | some a => cases a <;> simp [fmtPadding] <;> omega

theorem numberOut_unique {o : FmtOpts} {n : Nat} {a b : List Char} (ha : NumberOut o n a) (hb : NumberOut o n b) : a = b := by
  obtain ⟨p, z, q, rfl, hf, hz, hl, hal⟩ := ha
  obtain ⟨p', z', q', rfl, hf', hz', hl', hal'⟩ := hb
  rw [← hl'] at hl
  simp only [List.length_append] at hl
  have rep : ∀ (d : Char) (u : List Char), (∀ c ∈ u, c = d) → u = List.replicate u.length d := fun d u h => List.eq_replicate_iff.mpr ⟨rfl, h⟩
  have lens : p.length = p'.length ∧ z.length = z'.length ∧ q.length = q'.length := by
    split at hal
    · rename_i h
      rw [if_pos h] at hal'
      obtain ⟨rfl, rfl⟩ := hal
      obtain ⟨rfl, rfl⟩ := hal'
      simp at hl ⊢
      exact hl
    · rename_i h
      rw [if_neg h] at hal'
      obtain ⟨rfl, hal⟩ := hal
      obtain ⟨rfl, hal'⟩ := hal'
      refine ⟨?_, rfl, ?_⟩ <;>
      · cases h : o.align with
        | none => simp only [h] at hal hal'; subst hal hal'; simp at hl ⊢ <;> omega
        | some a =>
          cases a with
          | left => simp only [h] at hal hal'; subst hal hal'; simp at hl ⊢ <;> omega
          | right => simp only [h] at hal hal'; subst hal hal'; simp at hl ⊢ <;> omega
          | center => simp only [h] at hal hal'; omega
  rw [rep o.fill p fun c h => hf c (by simp [h]), rep o.fill q fun c h => hf c (by simp [h]), rep o.fill p' fun c h => hf' c (by simp [h]),
    rep o.fill q' fun c h => hf' c (by simp [h]), rep '0' z hz, rep '0' z' hz', lens.1, lens.2.1, lens.2.2]

/-- C91, part 1. The number in an error is printed as the format string asks, for every combination of fill, alignment, width, `+`, `#`,
`0`, `x?` and `X?`; and there is one such output only. -/
theorem C91_number (o : FmtOpts) (n : Nat) (out : List Char) : NumberOut o n out ↔ out = intDebug o n :=
  ⟨fun h => numberOut_unique h (numberOut_debug o n), fun h => h ▸ numberOut_debug o n⟩

/-- `{:#010x?}` of 255, `{:+05?}` of 42, `{:*^7?}` of 42, `{:<4X?}` of 171. -/
example : NumberOut { width := some 10, alternate := true, zeros := true, hex := some false } 255 ['0', 'x', '0', '0', '0', '0', '0', '0', 'f', 'f'] ∧
    NumberOut { width := some 5, plus := true, zeros := true } 42 ['+', '0', '0', '4', '2'] ∧
    NumberOut { width := some 7, fill := '*', align := some .center } 42 ['*', '*', '4', '2', '*', '*', '*'] ∧
    NumberOut { width := some 4, align := some .left, hex := some true } 171 ['A', 'B', ' ', ' '] := by
  simp only [C91_number]
  decide +kernel

/-- C91, part 2. The name, and the number in brackets if there is one: on one line, or with `#` on three. The name itself is never
filled up. -/
theorem C91_error (e : Error) (o : FmtOpts) :
    (∀ name, errorParts e = (name, none) → e.debug o = name) ∧
    (∀ name n, errorParts e = (name, some n) → ∃ out, NumberOut o n out ∧
      (o.alternate = false → e.debug o = name ++ ['('] ++ out ++ [')']) ∧
      (o.alternate = true → o.fill ≠ '\n' → e.debug o = name ++ ['(', '\n', ' ', ' ', ' ', ' '] ++ out ++ [',', '\n', ')'])) := by
  have block : ∀ (name : List Char) (n : Nat), o.fill ≠ '\n' →
      debugTuple true name (intDebug o n) = name ++ ['(', '\n', ' ', ' ', ' ', ' '] ++ intDebug o n ++ [',', '\n', ')'] := by
    intro name n hf
    have hs : Solid (intDebug o n) := by
      obtain ⟨pre, zs, post, h, hp, hz, -, -⟩ := numberOut_debug o n
      have hfig : figures o n ≠ [] ∧ ∀ c ∈ figures o n, c ≠ '\n' := by
        have dig : ∀ (b : Nat) (f : Char → Char), 2 ≤ b → (∀ d, d < b → f (Nat.digitChar d) ≠ '\n') →
            (Nat.toDigits b n).map f ≠ [] ∧ ∀ c ∈ (Nat.toDigits b n).map f, c ≠ '\n' := by
          intro b f hb hf
          refine ⟨by simp [toDigits_ne_nil hb], fun c hc => ?_⟩
          obtain ⟨x, hx, rfl⟩ := List.mem_map.mp hc
          obtain ⟨d, hd, rfl⟩ := toDigits_mem hb hx
          exact hf d hd
        unfold figures
        split
        · simpa using dig 10 id (by omega) (by decide)
        · split
          · exact dig 16 Char.toUpper (by omega) (by decide +kernel)
          · simpa using dig 16 id (by omega) (by decide)
      refine ⟨by rw [h]; simp [hfig.1], fun c hc => ?_⟩
      rw [h] at hc
      simp only [List.mem_append] at hc
      rcases hc with (((hc | hc) | hc) | hc) | hc
      · rw [hp c (by simp [hc])]; exact hf
      · have : ∀ c ∈ lead o, c ≠ '\n' := by unfold lead; split <;> decide
        exact this c hc
      · rw [hz c hc]; decide
      · exact hfig.2 c hc
      · rw [hp c (by simp [hc])]; exact hf
    have := padAdapter_solid (k := 0) (r := [',', '\n']) hs
    simp only [Nat.mul_zero, List.replicate_zero, List.nil_append, Nat.zero_add, Nat.mul_one] at this
    rw [debugTuple, if_pos rfl, this]
    simp [padAdapter, List.replicate]
  refine ⟨?_, ?_⟩
  · intro name h
    cases e <;> simp [errorParts] at h
    subst h
    rfl
  · intro name n h
    refine ⟨intDebug o n, numberOut_debug o n, fun ha => ?_, fun ha hf => ?_⟩
    · cases e <;> simp [errorParts] at h <;> obtain ⟨rfl, rfl⟩ := h <;> simp [Error.debug, debugTuple, ha]
    · rw [← block name n hf]
      cases e <;> simp [errorParts] at h <;> obtain ⟨rfl, rfl⟩ := h <;> simp [Error.debug, ha]

/-- `{:06x?}` and `{:#?}` of an error with a number, `{:9?}` of one without. -/
example : (Error.outOfMemory 255).debug { width := some 6, zeros := true, hex := some false } =
      (errorParts (.outOfMemory 255)).1 ++ ['(', '0', '0', '0', '0', 'f', 'f', ')'] ∧
    (Error.outOfBounds 7).debug { alternate := true } = (errorParts (.outOfBounds 7)).1 ++ ['(', '\n', ' ', ' ', ' ', ' ', '7', ',', '\n', ')'] ∧
    Error.noZeroSymbol.debug { width := some 99 } = (errorParts .noZeroSymbol).1 := by decide +kernel

/-! ## Telling errors apart -/

/-- Every character a figure of the base can be. -/
theorem figures_char (o : FmtOpts) (n : Nat) : ∀ c ∈ figures o n, ∃ m, m < 16 ∧ figures o m = [c] := by
  have dig : ∀ (b : Nat) (f : Char → Char), 2 ≤ b → b ≤ 16 → ∀ c ∈ (Nat.toDigits b n).map f, ∃ m, m < 16 ∧ (Nat.toDigits b m).map f = [c] := by
    intro b f hb hb' c hc
    obtain ⟨x, hx, rfl⟩ := List.mem_map.mp hc
    obtain ⟨d, hd, rfl⟩ := toDigits_mem hb hx
    exact ⟨d, by omega, by rw [Nat.toDigits_eq_if (by omega), if_pos hd]; rfl⟩
  unfold figures
  split
  · simpa using dig 10 id (by omega) (by omega)
  · split
    · exact dig 16 Char.toUpper (by omega) (by omega)
    · simpa using dig 16 id (by omega) (by omega)

theorem parseLoop_zeros (b limit : Nat) (hb : 2 ≤ b) (hl : 0 < limit) (bs : List UInt8) : ∀ k,
    parseLoop b limit 0 (utf8Encode (List.replicate k '0') ++ bs) = parseLoop b limit 0 bs
  | 0 => rfl
  | k + 1 => by
    have e : utf8Encode (List.replicate (k + 1) '0') = 48 :: utf8Encode (List.replicate k '0') := rfl
    have d : byteDigit b 48 = some 0 := by
      have : (48 : UInt8).toNat = 48 := rfl
      simp only [byteDigit, this]
      simp
      omega
    rw [e, List.cons_append, parseLoop, parseStep, d]
    simp only [Nat.zero_mul, Nat.add_zero, hl, and_self, if_true]
    exact parseLoop_zeros b limit hb hl bs k

/-- Leading zeros do not hide a number. -/
theorem zeros_figures {o : FmtOpts} {n m k l : Nat} (h : List.replicate k '0' ++ figures o n = List.replicate l '0' ++ figures o m) : n = m := by
  have dig : ∀ (b : Nat) (f : Char → Char), 2 ≤ b → DigitBytes b f →
      List.replicate k '0' ++ (Nat.toDigits b n).map f = List.replicate l '0' ++ (Nat.toDigits b m).map f → n = m := by
    intro b f hb hf h
    have h := congrArg (fun t => parseLoop b (n + m + 1) 0 (utf8Encode t)) h
    have happ : ∀ x y : List Char, utf8Encode (x ++ y) = utf8Encode x ++ utf8Encode y := by intro x y; simp [utf8Encode]
    simp only [happ, parseLoop_zeros b _ hb (Nat.succ_pos _), parseLoop_numeral hb hf] at h
    rw [if_pos (by omega), if_pos (by omega)] at h
    injection h
  unfold figures at h
  split at h
  · have := dig 10 id (by omega) digitBytes_ten
    simp only [List.map_id] at this
    exact this h
  · split at h
    · exact dig 16 Char.toUpper (by omega) digitBytes_upper h
    · have := dig 16 id (by omega) digitBytes_lower
      simp only [List.map_id] at this
      exact this h

theorem padAdapter_filter {p : Char → Bool} (hp : p ' ' = false) : ∀ (b : Bool) (l : List Char), (padAdapter b l).filter p = l.filter p
  | _, [] => rfl
  | b, c :: r => by
    rw [padAdapter, List.filter_append, List.filter_cons, padAdapter_filter hp, ← List.filter_cons]
    cases b <;> simp [List.replicate, hp]

/-- What of the output is not fill, blank or line break determines the number. -/
theorem numberOut_inj {o : FmtOpts} {n m : Nat} {a b : List Char} (hf : ¬ FillIsFigure o) (ha : NumberOut o n a) (hb : NumberOut o m b)
    {p : Char → Bool} (hp : ∀ k, ∀ c ∈ figures o k, p c = true) (hfill : o.zeros = false → p o.fill = false)
    (h : a.filter p = b.filter p) : n = m := by
  obtain ⟨q, z, r, rfl, hq, hz, -, hal⟩ := ha
  obtain ⟨q', z', r', rfl, hq', hz', -, hal'⟩ := hb
  have all : ∀ k, (figures o k).filter p = figures o k := fun k => List.filter_eq_self.mpr (hp k)
  have zero : p '0' = true := hp 0 '0' (by
    unfold figures
    split
    · decide
    · split <;> decide +kernel)
  cases hzero : o.zeros with
  | true =>
    rw [if_pos hzero] at hal hal'
    obtain ⟨rfl, rfl⟩ := hal
    obtain ⟨rfl, rfl⟩ := hal'
    have zs : ∀ z : List Char, (∀ c ∈ z, c = '0') → z = List.replicate z.length '0' := fun z h => List.eq_replicate_iff.mpr ⟨rfl, h⟩
    have fz : ∀ z : List Char, (∀ c ∈ z, c = '0') → z.filter p = z := fun z h => List.filter_eq_self.mpr fun c hc => by rw [h c hc]; exact zero
    simp only [List.nil_append, List.append_nil, List.filter_append, List.append_assoc, List.append_cancel_left_eq, all, fz z hz, fz z' hz'] at h
    rw [zs z hz, zs z' hz'] at h
    exact zeros_figures h
  | false =>
    rw [if_neg (by simp [hzero])] at hal hal'
    obtain ⟨rfl, -⟩ := hal
    obtain ⟨rfl, -⟩ := hal'
    have nil : ∀ u : List Char, (∀ c ∈ u, c = o.fill) → u.filter p = [] := fun u h =>
      List.filter_eq_nil_iff.mpr fun c hc => by rw [h c hc, hfill hzero]; simp
    simp only [List.filter_append, nil q fun c h => hq c (by simp [h]), nil r fun c h => hq c (by simp [h]), nil q' fun c h => hq' c (by simp [h]),
      nil r' fun c h => hq' c (by simp [h]), List.nil_append, List.append_nil, List.append_assoc, List.append_cancel_left_eq, List.filter_nil, all] at h
    exact zeros_figures (o := o) (k := 0) (l := 0) (by simpa using h)

/-- C91, part 3. Different errors never print alike, whatever the format string asks for, unless it fills up with a character that is
itself a figure (without the flag `0`, which is safe). -/
theorem C91_distinct (a b : Error) (o : FmtOpts) (hf : ¬ FillIsFigure o) : a.debug o = b.debug o ↔ a = b := by
  refine ⟨fun h => ?_, fun h => by rw [h]⟩
  have key : ∀ (name : List Char) (n m : Nat), debugTuple o.alternate name (intDebug o n) = debugTuple o.alternate name (intDebug o m) → n = m := by
    intro name n m h
    have fig : ∀ c, (∃ k, c ∈ figures o k) → ∃ k, k < 16 ∧ figures o k = [c] := fun c ⟨k, hk⟩ => figures_char o k c hk
    let p : Char → Bool := fun c => (List.range 16).any fun k => figures o k == [c]
    have pt : ∀ c, p c = true ↔ ∃ k, c ∈ figures o k := by
      intro c
      simp only [p, List.any_eq_true, List.mem_range, beq_iff_eq]
      exact ⟨fun ⟨k, _, h⟩ => ⟨k, by rw [h]; simp⟩, fig c⟩
    have blank : p ' ' = false := by
      have : ∀ k, k < 16 → ' ' ∉ figures o k := by
        intro k hk
        unfold figures
        split
        · revert k; decide
        · split
          · revert k; decide +kernel
          · revert k; decide
      cases hp : p ' ' with
      | false => rfl
      | true =>
        obtain ⟨k, hk, h⟩ := fig _ ((pt _).mp hp)
        exact absurd (by rw [h]; simp) (this k hk)
    refine numberOut_inj hf (numberOut_debug o n) (numberOut_debug o m) (p := p) (fun k c hc => (pt c).mpr ⟨k, hc⟩) ?_ ?_
    · intro hz
      cases hp : p o.fill with
      | false => rfl
      | true => exact absurd ⟨hz, (pt _).mp hp⟩ hf
    · have h := congrArg (List.filter p) h
      unfold debugTuple at h
      split at h
      · simp only [List.filter_append, padAdapter_filter blank, List.append_assoc, List.append_cancel_left_eq, List.append_cancel_right_eq] at h
        simpa using h
      · simp only [List.filter_append, List.append_cancel_left_eq, List.append_cancel_right_eq] at h
        exact h
  have diff : ∀ n m, debugTuple o.alternate ['O', 'u', 't', 'O', 'f', 'M', 'e', 'm', 'o', 'r', 'y'] (intDebug o n) ≠
      debugTuple o.alternate ['O', 'u', 't', 'O', 'f', 'B', 'o', 'u', 'n', 'd', 's'] (intDebug o m) := by
    intro n m h
    unfold debugTuple at h
    split at h <;> simp at h
  have unit : ∀ n, debugTuple o.alternate ['O', 'u', 't', 'O', 'f', 'M', 'e', 'm', 'o', 'r', 'y'] (intDebug o n) ≠
      ['N', 'o', 'Z', 'e', 'r', 'o', 'S', 'y', 'm', 'b', 'o', 'l'] ∧
      debugTuple o.alternate ['O', 'u', 't', 'O', 'f', 'B', 'o', 'u', 'n', 'd', 's'] (intDebug o n) ≠
      ['N', 'o', 'Z', 'e', 'r', 'o', 'S', 'y', 'm', 'b', 'o', 'l'] := by
    intro n
    unfold debugTuple
    split <;> simp
  cases a <;> cases b <;> simp only [Error.debug] at h
  · rfl
  · exact absurd h.symm (unit _).1
  · exact absurd h.symm (unit _).2
  · exact absurd h (unit _).1
  · rw [key _ _ _ h]
  · exact absurd h (diff _ _)
  · exact absurd h (unit _).2
  · exact absurd h.symm (diff _ _)
  · rw [key _ _ _ h]

/-- The blank is no figure in any base, and the flag `0` is safe with any fill character; but `{:1>3?}` prints 1 and 111 alike. -/
example : ¬ FillIsFigure { fill := 'a', zeros := true, hex := some false, width := some 8 } ∧ FillIsFigure { fill := '1', width := some 3 } ∧
    (Error.outOfBounds 1).debug { fill := '1', width := some 3 } = (Error.outOfBounds 111).debug { fill := '1', width := some 3 } :=
  ⟨(fun h => by cases h.1), ⟨rfl, 1, by decide⟩, by decide⟩

end Nominals.Props
