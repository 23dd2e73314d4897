import Verif.Model.Writes
import Verif.Spec.Writes
import Verif.Proofs.StringRefine

/-!
# The log of written cells
-/

namespace Nominals

theorem Writes.bind_snd {ε α β : Type} (r : Writes ε α) (f : α → Writes ε β) : (r.bind f).2 = r.2.bind fun a => (f a).2 := by
  obtain ⟨l, r⟩ := r
  cases r <;> rfl

theorem Writes.bind_fst {ε α β : Type} {r : Writes ε α} {a : α} (h : r.2 = .ok a) (f : α → Writes ε β) : (r.bind f).1 = r.1 ++ (f a).1 := by
  obtain ⟨l, r⟩ := r
  cases h
  rfl

@[simp] theorem Writes.quiet_snd {ε α : Type} (r : Res ε α) : r.quiet.2 = r := rfl
@[simp] theorem Writes.quiet_fst {ε α : Type} (r : Res ε α) : r.quiet.1 = [] := rfl

@[simp] theorem copyWithinW_snd {ε α : Type} (bs : List α) (lo hi dest : Nat) :
    (copyWithinW (ε := ε) bs lo hi dest).2 = Res.ofIndex (copyWithin bs lo hi dest) := by
  unfold copyWithinW; cases copyWithin bs lo hi dest <;> rfl

@[simp] theorem zipWriteW_snd {ε : Type} (bs : List (Option UInt8)) (lo hi : Nat) (src : List UInt8) :
    (zipWriteW (ε := ε) bs lo hi src).2 = Res.ofIndex (zipWrite bs lo hi src) := by
  unfold zipWriteW; cases zipWrite bs lo hi src <;> rfl

theorem copyWithinW_some {ε α : Type} {bs b : List α} {lo hi dest : Nat} (h : copyWithin bs lo hi dest = some b) :
    copyWithinW (ε := ε) bs lo hi dest = (List.range' dest (hi - lo), .ok b) := by
  unfold copyWithinW; rw [h]

theorem zipWriteW_some {ε : Type} {bs b : List (Option UInt8)} {lo hi : Nat} {src : List UInt8} (h : zipWrite bs lo hi src = some b) :
    zipWriteW (ε := ε) bs lo hi src = (List.range' lo (min (hi - lo) src.length), .ok b) := by
  unfold zipWriteW; rw [h]

/-! ## Without the log -/

theorem InlineString.pushW_snd {ε : Type} (cfg : Cfg) (s : InlineString) (ch : Char) (a b c : UInt8) :
    (s.pushW (ε := ε) cfg ch a b c).2 = s.push cfg ch a b c := by
  unfold pushW push
  simp only
  split <;> simp only [Writes.bind_snd, Writes.quiet_snd, copyWithinW_snd, zipWriteW_snd]

theorem InlineString.pushStrW_snd {ε : Type} (cfg : Cfg) (s : InlineString) (u : List Char) (c : UInt8) :
    (s.pushStrW (ε := ε) cfg u c).2 = s.pushStr cfg u c := by
  unfold pushStrW pushStr
  simp only
  split
  · simp only [Writes.bind_snd, Writes.quiet_snd, copyWithinW_snd, zipWriteW_snd]
  · split <;> rfl

theorem InlineString.pushFrontW_snd {ε : Type} (cfg : Cfg) (s : InlineString) (ch : Char) (a b c : UInt8) :
    (s.pushFrontW (ε := ε) cfg ch a b c).2 = s.pushFront cfg ch a b c := by
  unfold pushFrontW pushFront
  simp only
  split
  · simp only [Writes.bind_snd, Writes.quiet_snd, zipWriteW_snd]
  · rw [Writes.bind_snd, copyWithinW_snd, frontShifted]
    cases copyWithin s.bytes 0 b.toNat a.toNat with
    | none => rfl
    | some b1 =>
      simp only [Res.ofIndex, Res.bind, Option.map]
      split
      · simp only [Writes.bind_snd, Writes.quiet_snd, zipWriteW_snd]; rfl
      · rfl

namespace NStr

theorem tryPushW_snd (cfg : Cfg) (s : NStr) (c : Char) : (s.tryPushW cfg c).2 = s.tryPush cfg c := by
  cases s with
  | heap u => rfl
  | inline s =>
    simp only [tryPushW, tryPush, Writes.bind_snd, Writes.quiet_snd]
    congr 1
    funext n
    split
    · simp only [Writes.map, InlineString.pushW_snd]
    · rfl

theorem tryPushFrontW_snd (cfg : Cfg) (s : NStr) (c : Char) : (s.tryPushFrontW cfg c).2 = s.tryPushFront cfg c := by
  cases s with
  | heap u => rfl
  | inline s =>
    simp only [tryPushFrontW, tryPushFront, Writes.bind_snd, Writes.quiet_snd]
    congr 1
    funext n
    split
    · simp only [Writes.map, InlineString.pushFrontW_snd]
    · rfl

theorem tryPushStrW_snd (cfg : Cfg) (s : NStr) (u : List Char) : (s.tryPushStrW cfg u).2 = s.tryPushStr cfg u := by
  cases s with
  | heap u => rfl
  | inline s =>
    simp only [tryPushStrW, tryPushStr]
    split
    · simp only [Writes.map, InlineString.pushStrW_snd]
    · rfl

end NStr

/-! ## The cells that are not in the log -/

/-- What `r` makes of the buffer `b` differs from `b` only in the cells of the log. -/
def Writes.Sound {ε α γ : Type} (bytes : α → List γ) (b : List γ) (r : Writes ε α) : Prop :=
  ∀ a, r.2 = .ok a → ∀ i, i ∉ r.1 → (bytes a)[i]? = b[i]?

theorem Writes.Sound.bind {ε α β γ : Type} {f1 : α → List γ} {f2 : β → List γ} {b : List γ} {r : Writes ε α} {f : α → Writes ε β}
    (h : r.Sound f1 b) (hf : ∀ a, (f a).Sound f2 (f1 a)) : (r.bind f).Sound f2 b := by
  intro x hx i hi
  obtain ⟨l, r⟩ := r
  cases r with
  | ok a =>
    have hi' : i ∉ l ++ (f a).1 := hi
    rw [List.mem_append, not_or] at hi'
    rw [hf a x hx i hi'.2, h a rfl i hi'.1]
  | _ => cases hx

theorem Writes.Sound.quiet {ε α β γ : Type} {f2 : β → List γ} {b : List γ} {r : Res ε α} {f : α → Writes ε β}
    (hf : ∀ a, (f a).Sound f2 b) : (r.quiet.bind f).Sound f2 b :=
  Writes.Sound.bind (f1 := fun _ => b) (fun _ _ _ _ => rfl) hf

theorem getElem?_splice {α : Type} {A X B b : List α} {i : Nat} (hA : A = b.take A.length) (hB : B = b.drop (A.length + X.length))
    (_ : A.length + X.length ≤ b.length) (hi : i ∉ List.range' A.length X.length) : (A ++ X ++ B)[i]? = b[i]? := by
  rw [List.mem_range'_1] at hi
  by_cases h1 : i < A.length
  · rw [List.append_assoc, List.getElem?_append_left h1, hA, List.getElem?_take_of_lt (by omega)]
  · rw [List.getElem?_append_right (by rw [List.length_append]; omega), hB, List.getElem?_drop, List.length_append]
    congr 1
    omega

theorem copyWithinW_sound {ε α : Type} (bs : List α) (lo hi dest : Nat) : (copyWithinW (ε := ε) bs lo hi dest).Sound id bs := by
  intro b hb i hn
  cases hc : copyWithin bs lo hi dest with
  | none => rw [copyWithinW, hc] at hb; cases hb
  | some b' =>
    rw [copyWithinW_some hc] at hb hn
    cases hb
    unfold copyWithin at hc
    split at hc
    · next hh =>
      cases hc
      have e1 : (bs.take dest).length = dest := by rw [List.length_take]; omega
      have e2 : ((bs.drop lo).take (hi - lo)).length = hi - lo := by rw [List.length_take, List.length_drop]; omega
      exact getElem?_splice (by rw [e1]) (by rw [e1, e2]) (by rw [e1, e2]; omega) (by rw [e1, e2]; exact hn)
    · cases hc

theorem zipWriteW_sound {ε : Type} (bs : List (Option UInt8)) (lo hi : Nat) (src : List UInt8) :
    (zipWriteW (ε := ε) bs lo hi src).Sound id bs := by
  intro b hb i hn
  cases hc : zipWrite bs lo hi src with
  | none => rw [zipWriteW, hc] at hb; cases hb
  | some b' =>
    rw [zipWriteW_some hc] at hb hn
    cases hb
    unfold zipWrite at hc
    split at hc
    · next hh =>
      cases hc
      have e1 : (bs.take lo).length = lo := by rw [List.length_take]; omega
      have e2 : ((src.take (hi - lo)).map some).length = min (hi - lo) src.length := by rw [List.length_map, List.length_take]
      exact getElem?_splice (by rw [e1]) (by rw [e1, e2]) (by rw [e1, e2]; omega) (by rw [e1, e2]; exact hn)
    · cases hc

theorem Writes.Sound.last {ε : Type} {s : InlineString} {b : List (Option UInt8)} (h : s.bytes = b) :
    ((Res.ok s : Res ε InlineString).quiet).Sound InlineString.bytes b := by
  intro a ha i _
  cases ha
  rw [h]

theorem InlineString.pushW_sound {ε : Type} (cfg : Cfg) (s : InlineString) (ch : Char) (a b c : UInt8) :
    (s.pushW (ε := ε) cfg ch a b c).Sound InlineString.bytes s.bytes := by
  unfold pushW
  simp only
  split
  · exact .quiet fun _ => .bind (copyWithinW_sound _ _ _ _) fun _ => .quiet fun _ => .bind (zipWriteW_sound _ _ _ _) fun _ => .last rfl
  · exact .bind (zipWriteW_sound _ _ _ _) fun _ => .last rfl

theorem InlineString.pushStrW_sound {ε : Type} (cfg : Cfg) (s : InlineString) (u : List Char) (c : UInt8) :
    (s.pushStrW (ε := ε) cfg u c).Sound InlineString.bytes s.bytes := by
  unfold pushStrW
  simp only
  split
  · exact .quiet fun _ => .bind (copyWithinW_sound _ _ _ _) fun _ => .quiet fun _ => .bind (zipWriteW_sound _ _ _ _) fun _ => .last rfl
  · split
    · next hl =>
      intro x hx i hi
      cases hx
      have e1 : (s.bytes.take s.lenUsize).length = s.lenUsize := by rw [List.length_take]; omega
      have e2 : ((utf8Encode u).map some).length = (utf8Encode u).length := List.length_map _
      exact getElem?_splice (by rw [e1]) (by rw [e1, e2]) (by rw [e1, e2]; exact hl) (by rw [e1, e2]; exact hi)
    · intro x hx; cases hx

theorem InlineString.pushFrontW_sound {ε : Type} (cfg : Cfg) (s : InlineString) (ch : Char) (a b c : UInt8) :
    (s.pushFrontW (ε := ε) cfg ch a b c).Sound InlineString.bytes s.bytes := by
  unfold pushFrontW
  simp only
  split
  · exact .quiet fun _ => .quiet fun _ => .bind (zipWriteW_sound _ _ _ _) fun _ => .last rfl
  · refine .bind (copyWithinW_sound _ _ _ _) fun b1 => ?_
    split
    · exact .bind (zipWriteW_sound _ _ _ _) fun _ => .last rfl
    · intro x hx; cases hx

/-! ## The log -/

namespace InlineString

theorem pushW_fst {ε : Type} {cfg : Cfg} {s : InlineString} {t : List Char} (h : s.Holds t) (c : Char)
    (hc : utf8Len t + c.utf8Size ≤ 62) :
    (s.pushW (ε := ε) cfg c (UInt8.ofNat c.utf8Size) s.len (UInt8.ofNat (utf8Len t + c.utf8Size))).1 =
      if s.isReverse then List.range' (62 - utf8Len t - c.utf8Size) (utf8Len t) ++ List.range' (62 - c.utf8Size) c.utf8Size
      else List.range' (utf8Len t) c.utf8Size := by
  obtain ⟨hl, pad, hp, hb, hx⟩ := h
  have hk1 : (UInt8.ofNat c.utf8Size).toNat = c.utf8Size := by simp; have := utf8Size_le c; omega
  have hk2 : (UInt8.ofNat (utf8Len t + c.utf8Size)).toNat = utf8Len t + c.utf8Size := by simp; omega
  have hk3 : s.len.toNat = utf8Len t := hl
  have hu := utf8EncodeChar_length c
  have hut : (String.utf8EncodeChar c).take c.utf8Size = String.utf8EncodeChar c := List.take_of_length_le (by omega)
  have hbl : s.bytes.length = 62 := by
    rw [hb]; split <;> simp <;> omega
  unfold InlineString.pushW
  simp only [hk1, hk2, hk3, hut, dataOffset, hl, INLINE_CAPACITY]
  cases hr : s.isReverse
  · simp only [Bool.false_eq_true, ↓reduceIte]
    have hz : ∃ b, zipWrite s.bytes (utf8Len t) (utf8Len t + c.utf8Size) (String.utf8EncodeChar c) = some b := by
      unfold zipWrite; rw [if_pos (by omega)]; exact ⟨_, rfl⟩
    obtain ⟨b, hz⟩ := hz
    rw [zipWriteW_some hz, Writes.bind_fst (a := b) rfl, Writes.quiet_fst, List.append_nil]
    simp [hu]
  · simp only [↓reduceIte]
    rw [subT_le (by omega), subT_le (by omega)]
    have hw : ∃ b, copyWithin s.bytes (62 - utf8Len t) s.bytes.length (62 - (utf8Len t + c.utf8Size)) = some b := by
      unfold copyWithin; rw [if_pos (by omega)]; exact ⟨_, rfl⟩
    obtain ⟨b, hw⟩ := hw
    have hbl2 : b.length = 62 := by
      unfold copyWithin at hw
      rw [if_pos (by omega)] at hw
      cases hw
      simp; omega
    have hz : ∃ b', zipWrite b (62 - c.utf8Size) b.length (String.utf8EncodeChar c) = some b' := by
      unfold zipWrite; rw [if_pos (by omega)]; exact ⟨_, rfl⟩
    obtain ⟨b', hz⟩ := hz
    rw [Writes.bind_fst (a := 62 - (utf8Len t + c.utf8Size)) rfl, copyWithinW_some hw, Writes.bind_fst (a := b) rfl,
      Writes.bind_fst (a := 62 - c.utf8Size) rfl, zipWriteW_some hz, Writes.bind_fst (a := b') rfl]
    simp only [Writes.quiet_fst, List.nil_append, List.append_nil, hbl, hbl2, hu]
    rw [show 62 - (62 - utf8Len t) = utf8Len t by omega, show min (62 - (62 - c.utf8Size)) c.utf8Size = c.utf8Size by omega, Nat.sub_sub]

theorem pushStrW_fst {ε : Type} {cfg : Cfg} {s : InlineString} {t : List Char} (h : s.Holds t) (u : List Char)
    (hc : utf8Len t + utf8Len u ≤ 62) :
    (s.pushStrW (ε := ε) cfg u (UInt8.ofNat (utf8Len t + utf8Len u))).1 =
      if s.isReverse then List.range' (62 - utf8Len t - utf8Len u) (utf8Len t) ++ List.range' (62 - utf8Len u) (utf8Len u)
      else List.range' (utf8Len t) (utf8Len u) := by
  obtain ⟨hl, pad, hp, hb, hx⟩ := h
  have hk2 : (UInt8.ofNat (utf8Len t + utf8Len u)).toNat = utf8Len t + utf8Len u := by simp; omega
  have hbl : s.bytes.length = 62 := by
    rw [hb]; split <;> simp <;> omega
  unfold InlineString.pushStrW
  simp only [hk2, dataOffset, hl, INLINE_CAPACITY, utf8Encode_length]
  cases hr : s.isReverse
  · simp only [Bool.false_eq_true, ↓reduceIte]
    rw [if_pos (by omega)]
  · simp only [↓reduceIte]
    rw [subT_le (by omega), subT_le (by omega)]
    have hw : ∃ b, copyWithin s.bytes (62 - utf8Len t) s.bytes.length (62 - (utf8Len t + utf8Len u)) = some b := by
      unfold copyWithin; rw [if_pos (by omega)]; exact ⟨_, rfl⟩
    obtain ⟨b, hw⟩ := hw
    have hbl2 : b.length = 62 := by
      unfold copyWithin at hw
      rw [if_pos (by omega)] at hw
      cases hw
      simp; omega
    have hz : ∃ b', zipWrite b (62 - utf8Len u) b.length (utf8Encode u) = some b' := by
      unfold zipWrite; rw [if_pos (by omega)]; exact ⟨_, rfl⟩
    obtain ⟨b', hz⟩ := hz
    rw [Writes.bind_fst (a := 62 - (utf8Len t + utf8Len u)) rfl, copyWithinW_some hw, Writes.bind_fst (a := b) rfl,
      Writes.bind_fst (a := 62 - utf8Len u) rfl, zipWriteW_some hz, Writes.bind_fst (a := b') rfl]
    simp only [Writes.quiet_fst, List.nil_append, List.append_nil, hbl, hbl2, utf8Encode_length]
    rw [show 62 - (62 - utf8Len t) = utf8Len t by omega, show min (62 - (62 - utf8Len u)) (utf8Len u) = utf8Len u by omega, Nat.sub_sub]

theorem pushFrontW_fst {ε : Type} {cfg : Cfg} {s : InlineString} {t : List Char} (h : s.Holds t) (c : Char)
    (hc : utf8Len t + c.utf8Size ≤ 62) :
    (s.pushFrontW (ε := ε) cfg c (UInt8.ofNat c.utf8Size) s.len (UInt8.ofNat (utf8Len t + c.utf8Size))).1 =
      if s.isReverse then List.range' (62 - utf8Len t - c.utf8Size) c.utf8Size
      else List.range' c.utf8Size (utf8Len t) ++ List.range' 0 c.utf8Size := by
  obtain ⟨hl, pad, hp, hb, hx⟩ := h
  have hk1 : (UInt8.ofNat c.utf8Size).toNat = c.utf8Size := by simp; have := utf8Size_le c; omega
  have hk2 : (UInt8.ofNat (utf8Len t + c.utf8Size)).toNat = utf8Len t + c.utf8Size := by simp; omega
  have hk3 : s.len.toNat = utf8Len t := hl
  have hu := utf8EncodeChar_length c
  have hut : (String.utf8EncodeChar c).take c.utf8Size = String.utf8EncodeChar c := List.take_of_length_le (by omega)
  have hlt : (UInt8.ofNat (utf8Len t + c.utf8Size)).toNat < 128 := by omega
  have hbl : s.bytes.length = 62 := by
    rw [hb]; split <;> simp <;> omega
  unfold InlineString.pushFrontW
  simp only [hk1, hk2, hk3, hut, INLINE_CAPACITY]
  cases hr : s.isReverse
  · simp only [Bool.false_eq_true, ↓reduceIte]
    have hw : ∃ b, copyWithin s.bytes 0 (utf8Len t) c.utf8Size = some b := by
      unfold copyWithin; rw [if_pos (by omega)]; exact ⟨_, rfl⟩
    obtain ⟨b, hw⟩ := hw
    have hbl2 : b.length = 62 := by
      unfold copyWithin at hw
      rw [if_pos (by omega)] at hw
      cases hw
      simp; omega
    rw [copyWithinW_some hw, Writes.bind_fst (a := b) rfl]
    have hrv : InlineString.isReverse (setLength { length := s.length, bytes := b } (UInt8.ofNat (utf8Len t + c.utf8Size))) = false := by
      rw [setLength_isReverse _ _ hlt]
      exact hr
    have hln : InlineString.lenUsize (setLength { length := s.length, bytes := b } (UInt8.ofNat (utf8Len t + c.utf8Size)))
        = utf8Len t + c.utf8Size := by
      rw [lenUsize, setLength_len _ _ hlt, hk2]
    simp only [hln, dataOffset, hrv, Bool.false_eq_true, ↓reduceIte, setLength_bytes, Nat.zero_add]
    rw [if_pos (by omega)]
    have hz : ∃ b', zipWrite b 0 (utf8Len t + c.utf8Size) (String.utf8EncodeChar c) = some b' := by
      unfold zipWrite; rw [if_pos (by omega)]; exact ⟨_, rfl⟩
    obtain ⟨b', hz⟩ := hz
    rw [zipWriteW_some hz, Writes.bind_fst (a := b') rfl]
    simp only [Writes.quiet_fst, List.append_nil, hu, Nat.sub_zero]
    rw [show min (utf8Len t + c.utf8Size) c.utf8Size = c.utf8Size by omega]
  · simp only [↓reduceIte]
    rw [subT_le (by omega), subT_le (by omega)]
    have hz : ∃ b', zipWrite s.bytes (62 - (utf8Len t + c.utf8Size)) (62 - utf8Len t) (String.utf8EncodeChar c) = some b' := by
      unfold zipWrite; rw [if_pos (by omega)]; exact ⟨_, rfl⟩
    obtain ⟨b', hz⟩ := hz
    rw [Writes.bind_fst (a := 62 - (utf8Len t + c.utf8Size)) rfl, Writes.bind_fst (a := 62 - utf8Len t) rfl, zipWriteW_some hz,
      Writes.bind_fst (a := b') rfl]
    simp only [Writes.quiet_fst, List.nil_append, List.append_nil, hu]
    rw [show min (62 - utf8Len t - (62 - (utf8Len t + c.utf8Size))) c.utf8Size = c.utf8Size by omega, Nat.sub_sub]

end InlineString

end Nominals
