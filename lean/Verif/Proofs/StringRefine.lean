import Verif.Proofs.Utf8

/-!
# The byte-level string refines a list of characters
-/

namespace Nominals

/-! ## Bit facts about the length byte -/

theorem u8_forall {p : UInt8 → Prop} (h : ∀ i : Fin 256, p (UInt8.ofNat i.val)) (a : UInt8) : p a := by
  have := h ⟨a.toNat, a.toNat_lt⟩
  simpa using this

theorem hi_bit (a : UInt8) : a &&& 0x80 = 0 ∨ a &&& 0x80 = 0x80 :=
  u8_forall (p := fun a => a &&& 0x80 = 0 ∨ a &&& 0x80 = 0x80) (by decide +kernel) a

theorem len_setLength0 (n : UInt8) : n.toNat < 128 → ((0 ||| n) &&& 0x7F = n) ∧ ((0 ||| n) &&& 0x80 = 0) :=
  u8_forall (p := fun n => n.toNat < 128 → ((0 ||| n) &&& 0x7F = n) ∧ ((0 ||| n) &&& 0x80 = 0)) (by decide +kernel) n

theorem len_setLength1 (n : UInt8) : n.toNat < 128 → ((0x80 ||| n) &&& 0x7F = n) ∧ ((0x80 ||| n) &&& 0x80 = 0x80) :=
  u8_forall (p := fun n => n.toNat < 128 → ((0x80 ||| n) &&& 0x7F = n) ∧ ((0x80 ||| n) &&& 0x80 = 0x80)) (by decide +kernel) n

theorem setLength_len (s : InlineString) (n : UInt8) (h : n.toNat < 128) : (s.setLength n).len = n := by
  unfold InlineString.setLength InlineString.len
  rcases hi_bit s.length with h1 | h1 <;> simp only [h1]
  · exact (len_setLength0 n h).1
  · exact (len_setLength1 n h).1

theorem setLength_isReverse (s : InlineString) (n : UInt8) (h : n.toNat < 128) :
    (s.setLength n).isReverse = s.isReverse := by
  unfold InlineString.setLength InlineString.isReverse
  rcases hi_bit s.length with h1 | h1 <;> simp only [h1]
  · rw [(len_setLength0 n h).2]
  · rw [(len_setLength1 n h).2]

@[simp] theorem setLength_bytes (s : InlineString) (n : UInt8) : (s.setLength n).bytes = s.bytes := rfl

/-! ## Representation -/

/-- The inline string `s` holds the text `t`: the encoding of `t` sits at the front of the 62 cells (forward) or at
their end (reverse). The other cells have never been written. -/
def InlineString.Holds (s : InlineString) (t : List Char) : Prop :=
  s.lenUsize = utf8Len t ∧
  ∃ pad : List (Option UInt8), pad.length + utf8Len t = 62 ∧
    s.bytes = (if s.isReverse then pad ++ (utf8Encode t).map some else (utf8Encode t).map some ++ pad) ∧ ∀ x ∈ pad, x = none

/-- The string `s` holds the text `t`. -/
def NStr.Holds : NStr → List Char → Prop
  | .inline s, t => s.Holds t
  | .heap u, t => u = t

theorem mapM_id_map_some {α : Type} (l : List α) : (l.map some).mapM id = some l := by
  induction l with
  | nil => rfl
  | cons a l ih => simp [List.mapM_cons, ih]

namespace InlineString

theorem Holds.asBytes {s : InlineString} {t : List Char} (h : s.Holds t) : s.asBytes = some (utf8Encode t) := by
  obtain ⟨hl, pad, hp, hb, hx⟩ := h
  unfold InlineString.asBytes InlineString.dataOffset
  rw [hl, hb]
  cases s.isReverse
  · simp only [Bool.false_eq_true, ↓reduceIte, Nat.zero_add, List.length_append, List.length_map,
      utf8Encode_length, List.drop_zero]
    rw [if_pos (by omega), List.take_left' (by simp), mapM_id_map_some]
  · simp only [↓reduceIte, List.length_append, List.length_map, utf8Encode_length, INLINE_CAPACITY]
    rw [if_pos (by omega), List.drop_left' (by omega), List.take_of_length_le (by simp), mapM_id_map_some]

theorem Holds.asStr {s : InlineString} {t : List Char} (h : s.Holds t) : s.asStr = some t := by
  simp [InlineString.asStr, h.asBytes, utf8Decode_encode]

theorem Holds.le {s : InlineString} {t : List Char} (h : s.Holds t) : utf8Len t ≤ 62 := by
  obtain ⟨_, pad, hp, _⟩ := h
  omega

theorem holds_mk (s : InlineString) (b : List (Option UInt8)) (t' : List Char) (pad : List (Option UInt8)) (n : Nat)
    (hn : n = utf8Len t') (hp : pad.length + utf8Len t' = 62)
    (hb : b = if s.isReverse then pad ++ (utf8Encode t').map some else (utf8Encode t').map some ++ pad)
    (hx : ∀ x ∈ pad, x = none) :
    (setLength { length := s.length, bytes := b } (UInt8.ofNat n)).Holds t' ∧
      (setLength { length := s.length, bytes := b } (UInt8.ofNat n)).isReverse = s.isReverse := by
  subst hn
  have hk : (UInt8.ofNat (utf8Len t')).toNat = utf8Len t' := by simp; omega
  have hlt : (UInt8.ofNat (utf8Len t')).toNat < 128 := by omega
  have hr : (setLength { length := s.length, bytes := b } (UInt8.ofNat (utf8Len t'))).isReverse = s.isReverse :=
    setLength_isReverse { length := s.length, bytes := b } _ hlt
  refine ⟨⟨?_, pad, hp, ?_, hx⟩, hr⟩
  · rw [lenUsize, setLength_len _ _ hlt, hk]
  · rw [hr, setLength_bytes]
    exact hb

theorem zipWrite_mid (A X B : List (Option UInt8)) (u : List UInt8) (lo hi : Nat) (hx : X.length = u.length)
    (hlo : lo = A.length) (hhi : hi = A.length + u.length) :
    zipWrite (A ++ X ++ B) lo hi u = some (A ++ u.map some ++ B) := by
  subst hlo hhi
  unfold zipWrite
  rw [if_pos (by simp; omega)]
  congr 1
  have e1 : A.length + u.length - A.length = u.length := by omega
  rw [e1, Nat.min_self, List.take_of_length_le (l := u) (by omega), List.append_assoc A X B, List.take_left' rfl,
    ← List.append_assoc A X B, List.drop_left' (by simp; omega)]

theorem copyWithin_left (P X E : List (Option UInt8)) (lo hi dest : Nat)
    (hlo : lo = P.length + X.length) (hhi : hi = P.length + X.length + E.length) (hd : dest = P.length) :
    ∃ Y, Y.length = X.length ∧ copyWithin (P ++ X ++ E) lo hi dest = some (P ++ E ++ Y) := by
  subst hlo hhi hd
  unfold copyWithin
  rw [if_pos (by simp; omega)]
  refine ⟨(P ++ X ++ E).drop (P.length + (P.length + X.length + E.length - (P.length + X.length))), by simp, ?_⟩
  congr 1
  rw [List.drop_left' (l₁ := P ++ X) (by simp), List.take_of_length_le (l := E) (by omega),
    List.append_assoc P X E, List.take_left' (l₁ := P) rfl]

theorem copyWithin_right (E X B : List (Option UInt8)) (hi dest : Nat)
    (hhi : hi = E.length) (hd : dest = X.length) :
    ∃ Y, Y.length = X.length ∧ copyWithin (E ++ (X ++ B)) 0 hi dest = some (Y ++ E ++ B) := by
  subst hhi hd
  unfold copyWithin
  rw [if_pos (by simp)]
  refine ⟨(E ++ (X ++ B)).take X.length, by simp; omega, ?_⟩
  congr 1
  rw [List.drop_zero, Nat.sub_zero, List.take_left' (l₁ := E) rfl, ← List.append_assoc E X B,
    List.drop_left' (l₁ := E ++ X) (by simp; omega)]

/-- Splitting the padding next to the text. -/
theorem split_pad (pad : List (Option UInt8)) (k : Nat) (hk : k ≤ pad.length) :
    ∃ P X, pad = P ++ X ∧ X.length = k ∧ P.length = pad.length - k :=
  ⟨pad.take (pad.length - k), pad.drop (pad.length - k), by simp, by simp; omega, by simp⟩

theorem split_pad' (pad : List (Option UInt8)) (k : Nat) (hk : k ≤ pad.length) :
    ∃ X B, pad = X ++ B ∧ X.length = k ∧ B.length = pad.length - k :=
  ⟨pad.take k, pad.drop k, by simp, by simp; omega, by simp⟩

theorem push_holds {ε : Type} {cfg : Cfg} {s : InlineString} {t : List Char} (h : s.Holds t) (c : Char)
    (hc : utf8Len t + c.utf8Size ≤ 62) :
    ∃ s', s.push (ε := ε) cfg c (UInt8.ofNat c.utf8Size) s.len (UInt8.ofNat (utf8Len t + c.utf8Size)) = .ok s' ∧
      s'.Holds (t ++ [c]) ∧ s'.isReverse = s.isReverse := by
  obtain ⟨hl, pad, hp, hb, hx⟩ := h
  have hk1 : (UInt8.ofNat c.utf8Size).toNat = c.utf8Size := by simp; have := utf8Size_le c; omega
  have hk2 : (UInt8.ofNat (utf8Len t + c.utf8Size)).toNat = utf8Len t + c.utf8Size := by simp; omega
  have hk3 : s.len.toNat = utf8Len t := hl
  have hu := utf8EncodeChar_length c
  have hut : (String.utf8EncodeChar c).take c.utf8Size = String.utf8EncodeChar c := List.take_of_length_le (by omega)
  unfold InlineString.push
  simp only [hk1, hk2, hk3, hut, dataOffset, hl, INLINE_CAPACITY]
  cases hr : s.isReverse
  · simp only [hr, Bool.false_eq_true, ↓reduceIte] at hb ⊢
    obtain ⟨X, B, rfl, hX, hB⟩ := split_pad' pad c.utf8Size (by omega)
    rw [hb, ← List.append_assoc, zipWrite_mid _ X B _ _ _ (by omega) (by simp) (by simp)]
    have := holds_mk s ((utf8Encode t).map some ++ (String.utf8EncodeChar c).map some ++ B) (t ++ [c]) B
      (utf8Len t + c.utf8Size) (by simp) (by simp at *; omega) (by simp [hr]) (fun x h => hx x (by first | exact List.mem_of_mem_drop h | simp [h]))
    exact ⟨_, rfl, this.1, hr ▸ this.2⟩
  · simp only [hr, ↓reduceIte] at hb ⊢
    obtain ⟨P, X, rfl, hX, hP⟩ := split_pad pad c.utf8Size (by omega)
    simp only [List.length_append] at hp hP
    obtain ⟨Y, hY, hcw⟩ := copyWithin_left P X ((utf8Encode t).map some) (62 - utf8Len t) s.bytes.length
      (62 - (utf8Len t + c.utf8Size)) (by omega) (by rw [hb]; simp; omega) (by omega)
    rw [← hb] at hcw
    rw [subT_le (by omega), subT_le (by omega)]
    simp only [hcw, Res.ofIndex, Res.bind]
    have := zipWrite_mid (P ++ (utf8Encode t).map some) Y [] (String.utf8EncodeChar c) (62 - c.utf8Size)
      (P ++ (utf8Encode t).map some ++ Y).length (by omega) (by simp; omega) (by simp; omega)
    rw [List.append_nil, List.append_nil] at this
    rw [this]
    have := holds_mk s (P ++ (utf8Encode t).map some ++ (String.utf8EncodeChar c).map some) (t ++ [c]) P
      (utf8Len t + c.utf8Size) (by simp) (by simp; omega) (by simp [hr]) (fun x h => hx x (by first | exact List.mem_of_mem_drop h | simp [h]))
    exact ⟨_, rfl, this.1, hr ▸ this.2⟩

theorem pushStr_holds {ε : Type} {cfg : Cfg} {s : InlineString} {t : List Char} (h : s.Holds t) (u : List Char)
    (hc : utf8Len t + utf8Len u ≤ 62) :
    ∃ s', s.pushStr (ε := ε) cfg u (UInt8.ofNat (utf8Len t + utf8Len u)) = .ok s' ∧
      s'.Holds (t ++ u) ∧ s'.isReverse = s.isReverse := by
  obtain ⟨hl, pad, hp, hb, hx⟩ := h
  have hk2 : (UInt8.ofNat (utf8Len t + utf8Len u)).toNat = utf8Len t + utf8Len u := by simp; omega
  unfold InlineString.pushStr
  simp only [hk2, dataOffset, hl, INLINE_CAPACITY, utf8Encode_length]
  cases hr : s.isReverse
  · simp only [hr, Bool.false_eq_true, ↓reduceIte] at hb ⊢
    rw [hb, if_pos (by simp; omega), List.take_left' (by simp), ← List.drop_drop, List.drop_left' (by simp)]
    have := holds_mk s ((utf8Encode t).map some ++ (utf8Encode u).map some ++ pad.drop (utf8Len u)) (t ++ u)
      (pad.drop (utf8Len u)) (utf8Len t + utf8Len u) (by simp) (by simp; omega) (by simp [hr]) (fun x h => hx x (by first | exact List.mem_of_mem_drop h | simp [h]))
    exact ⟨_, rfl, this.1, hr ▸ this.2⟩
  · simp only [hr, ↓reduceIte] at hb ⊢
    obtain ⟨P, X, rfl, hX, hP⟩ := split_pad pad (utf8Len u) (by omega)
    simp only [List.length_append] at hp hP
    obtain ⟨Y, hY, hcw⟩ := copyWithin_left P X ((utf8Encode t).map some) (62 - utf8Len t) s.bytes.length
      (62 - (utf8Len t + utf8Len u)) (by omega) (by rw [hb]; simp; omega) (by omega)
    rw [← hb] at hcw
    rw [subT_le (by omega), subT_le (by omega)]
    simp only [hcw, Res.ofIndex, Res.bind]
    have := zipWrite_mid (P ++ (utf8Encode t).map some) Y [] (utf8Encode u) (62 - utf8Len u)
      (P ++ (utf8Encode t).map some ++ Y).length (by simp; omega) (by simp; omega) (by simp; omega)
    rw [List.append_nil, List.append_nil] at this
    rw [this]
    have := holds_mk s (P ++ (utf8Encode t).map some ++ (utf8Encode u).map some) (t ++ u) P
      (utf8Len t + utf8Len u) (by simp) (by simp; omega) (by simp [hr]) (fun x h => hx x (by first | exact List.mem_of_mem_drop h | simp [h]))
    exact ⟨_, rfl, this.1, hr ▸ this.2⟩

theorem pushFront_holds {ε : Type} {cfg : Cfg} {s : InlineString} {t : List Char} (h : s.Holds t) (c : Char)
    (hc : utf8Len t + c.utf8Size ≤ 62) :
    ∃ s', s.pushFront (ε := ε) cfg c (UInt8.ofNat c.utf8Size) s.len (UInt8.ofNat (utf8Len t + c.utf8Size)) = .ok s' ∧
      s'.Holds (c :: t) ∧ s'.isReverse = s.isReverse := by
  obtain ⟨hl, pad, hp, hb, hx⟩ := h
  have hk1 : (UInt8.ofNat c.utf8Size).toNat = c.utf8Size := by simp; have := utf8Size_le c; omega
  have hk2 : (UInt8.ofNat (utf8Len t + c.utf8Size)).toNat = utf8Len t + c.utf8Size := by simp; omega
  have hk3 : s.len.toNat = utf8Len t := hl
  have hu := utf8EncodeChar_length c
  have hut : (String.utf8EncodeChar c).take c.utf8Size = String.utf8EncodeChar c := List.take_of_length_le (by omega)
  have hlt : (UInt8.ofNat (utf8Len t + c.utf8Size)).toNat < 128 := by omega
  unfold InlineString.pushFront
  simp only [hk1, hk2, hk3, hut, INLINE_CAPACITY]
  cases hr : s.isReverse
  · simp only [hr, Bool.false_eq_true, ↓reduceIte] at hb ⊢
    obtain ⟨X, B, rfl, hX, hB⟩ := split_pad' pad c.utf8Size (by omega)
    simp only [List.length_append] at hp hB
    obtain ⟨Y, hY, hcw⟩ := copyWithin_right ((utf8Encode t).map some) X B (utf8Len t) c.utf8Size (by simp) hX.symm
    rw [frontShifted, hb, hk1, hk3, hcw]
    simp only [Option.map, Res.ofIndex, Res.bind]
    have hrv : ∀ b, InlineString.isReverse (setLength { length := s.length, bytes := b } (UInt8.ofNat (utf8Len t + c.utf8Size)))
        = false := by
      intro b
      rw [setLength_isReverse _ _ hlt]
      exact hr
    have hln : ∀ b, InlineString.lenUsize (setLength { length := s.length, bytes := b } (UInt8.ofNat (utf8Len t + c.utf8Size)))
        = utf8Len t + c.utf8Size := by
      intro b
      rw [lenUsize, setLength_len _ _ hlt, hk2]
    simp only [hln, dataOffset, hrv, Bool.false_eq_true, ↓reduceIte, setLength_bytes, Nat.zero_add]
    rw [if_pos (by omega)]
    have hz : zipWrite (Y ++ (utf8Encode t).map some ++ B) 0 (utf8Len t + c.utf8Size) (String.utf8EncodeChar c)
        = some ((String.utf8EncodeChar c).map some ++ (utf8Encode t).map some ++ B) := by
      unfold zipWrite
      rw [if_pos (by simp; omega), List.take_zero, List.nil_append, Nat.sub_zero, Nat.zero_add, hu,
        List.take_of_length_le (l := String.utf8EncodeChar c) (by omega),
        show min (utf8Len t + c.utf8Size) c.utf8Size = c.utf8Size by omega, List.append_assoc Y,
        List.drop_left' (l₁ := Y) (by omega), List.append_assoc]
    rw [hz]
    have := holds_mk s ((String.utf8EncodeChar c).map some ++ (utf8Encode t).map some ++ B) (c :: t) B
      (utf8Len t + c.utf8Size) (by simp; omega) (by simp; omega) (by simp [hr]) (fun x h => hx x (by first | exact List.mem_of_mem_drop h | simp [h]))
    exact ⟨_, rfl, this.1, hr ▸ this.2⟩
  · simp only [hr, ↓reduceIte] at hb ⊢
    obtain ⟨P, X, rfl, hX, hP⟩ := split_pad pad c.utf8Size (by omega)
    simp only [List.length_append] at hp hP
    rw [subT_le (by omega), subT_le (by omega), hb]
    simp only [Res.bind]
    rw [zipWrite_mid P X _ _ _ _ (by omega) (by omega) (by omega)]
    have := holds_mk s (P ++ (String.utf8EncodeChar c).map some ++ (utf8Encode t).map some) (c :: t) P
      (utf8Len t + c.utf8Size) (by simp; omega) (by simp; omega) (by simp [hr]) (fun x h => hx x (by first | exact List.mem_of_mem_drop h | simp [h]))
    exact ⟨_, rfl, this.1, hr ▸ this.2⟩

end InlineString

namespace NStr

theorem Holds.asStr {s : NStr} {t : List Char} (h : s.Holds t) : s.asStr = some t := by
  cases s with
  | inline s => exact InlineString.Holds.asStr h
  | heap u => cases h; rfl

theorem Holds.strBytes {s : NStr} {t : List Char} (h : s.Holds t) : s.strBytes = some (utf8Encode t) := by
  cases s with
  | inline s => exact InlineString.Holds.asBytes h
  | heap u => cases h; rfl

theorem Holds.unique {s : NStr} {t u : List Char} (h : s.Holds t) (h' : s.Holds u) : t = u := by
  have := h.asStr
  rw [h'.asStr] at this
  exact (Option.some.inj this).symm

theorem Holds.isEmpty {s : NStr} {t : List Char} (h : s.Holds t) : s.isEmpty = t.isEmpty := by
  cases s with
  | inline s =>
    have hl := h.1
    simp only [NStr.isEmpty, hl]
    cases t with
    | nil => rfl
    | cons c t => have := utf8Size_pos c; simp; omega
  | heap u => cases h; rfl

theorem Holds.len_le {s : NStr} {t : List Char} (h : s.Holds t) (hi : s.isInline = true) : utf8Len t ≤ 62 := by
  cases s with
  | inline s => exact InlineString.Holds.le h
  | heap u => cases hi

theorem new_holds : NStr.new.Holds [] := by
  refine ⟨rfl, List.replicate 62 none, by simp, ?_, fun x h => List.eq_of_mem_replicate h⟩
  simp [InlineString.isReverse, INLINE_CAPACITY]

theorem newReverse_holds : NStr.newReverse.Holds [] := by
  refine ⟨rfl, List.replicate 62 none, by simp, ?_, fun x h => List.eq_of_mem_replicate h⟩
  simp [InlineString.isReverse, INLINE_CAPACITY]

/-- Outcome of extending a string holding `t` to hold `t'` (by a push of any kind). -/
inductive Ext (cfg : Cfg) (s : NStr) (t' : List Char) : Res (OutOfMemoryError × NStr) NStr → Prop
  | fits (s' : NStr) : s.isInline = true → utf8Len t' ≤ 62 → s'.isInline = true → s'.Holds t' → Ext cfg s t' (.ok s')
  | spills : s.isInline = true → 62 < utf8Len t' → cfg.alloc = true → Ext cfg s t' (.ok (.heap t'))
  | fails : s.isInline = true → 62 < utf8Len t' → cfg.alloc = false → Ext cfg s t' (.err (.mk, s))
  | heap : s.isInline = false → Ext cfg s t' (.ok (.heap t'))

theorem tryPush_ext {cfg : Cfg} {s : NStr} {t : List Char} (h : s.Holds t) (c : Char) :
    Ext cfg s (t ++ [c]) (s.tryPush cfg c) := by
  cases s with
  | heap u => cases h; exact .heap rfl
  | inline s =>
    have hl : s.len.toNat = utf8Len t := h.1
    have hle := InlineString.Holds.le h
    have h4 := utf8Size_le c
    have hk1 : (UInt8.ofNat c.utf8Size).toNat = c.utf8Size := by simp; omega
    have hadd : s.len + UInt8.ofNat c.utf8Size = UInt8.ofNat (utf8Len t + c.utf8Size) := by
      apply UInt8.toNat_inj.mp
      rw [UInt8.toNat_add, hl, hk1]
      simp
    have hk2 : (UInt8.ofNat (utf8Len t + c.utf8Size)).toNat = utf8Len t + c.utf8Size := by simp; omega
    simp only [NStr.tryPush, addU8, hl, hk1]
    rw [if_pos (by omega), hadd]
    simp only [Res.bind, hk2, INLINE_CAPACITY]
    by_cases hfit : utf8Len t + c.utf8Size ≤ 62
    · rw [if_pos hfit]
      obtain ⟨s', h1, h2, _⟩ := InlineString.push_holds (ε := OutOfMemoryError × NStr) (cfg := cfg) h c hfit
      rw [h1]
      exact .fits _ rfl (by simpa using hfit) rfl h2
    · rw [if_neg hfit, InlineString.Holds.asStr h]
      cases ha : cfg.alloc
      · exact .fails rfl (by simp; omega) ha
      · exact .spills rfl (by simp; omega) ha

theorem tryPushFront_ext {cfg : Cfg} {s : NStr} {t : List Char} (h : s.Holds t) (c : Char) :
    Ext cfg s (c :: t) (s.tryPushFront cfg c) := by
  cases s with
  | heap u => cases h; exact .heap rfl
  | inline s =>
    have hl : s.len.toNat = utf8Len t := h.1
    have hle := InlineString.Holds.le h
    have h4 := utf8Size_le c
    have hk1 : (UInt8.ofNat c.utf8Size).toNat = c.utf8Size := by simp; omega
    have hadd : s.len + UInt8.ofNat c.utf8Size = UInt8.ofNat (utf8Len t + c.utf8Size) := by
      apply UInt8.toNat_inj.mp
      rw [UInt8.toNat_add, hl, hk1]
      simp
    have hk2 : (UInt8.ofNat (utf8Len t + c.utf8Size)).toNat = utf8Len t + c.utf8Size := by simp; omega
    simp only [NStr.tryPushFront, addU8, hl, hk1]
    rw [if_pos (by omega), hadd]
    simp only [Res.bind, hk2, INLINE_CAPACITY]
    by_cases hfit : utf8Len t + c.utf8Size ≤ 62
    · rw [if_pos hfit]
      obtain ⟨s', h1, h2, _⟩ := InlineString.pushFront_holds (ε := OutOfMemoryError × NStr) (cfg := cfg) h c hfit
      rw [h1]
      exact .fits _ rfl (by simp; omega) rfl h2
    · rw [if_neg hfit, InlineString.Holds.asStr h]
      cases ha : cfg.alloc
      · exact .fails rfl (by simp; omega) ha
      · exact .spills rfl (by simp; omega) ha

theorem tryPushStr_ext {cfg : Cfg} {s : NStr} {t : List Char} (h : s.Holds t) (u : List Char) :
    Ext cfg s (t ++ u) (s.tryPushStr cfg u) := by
  cases s with
  | heap u => cases h; exact .heap rfl
  | inline s =>
    have hl : s.len.toNat = utf8Len t := h.1
    have hle := InlineString.Holds.le h
    simp only [NStr.tryPushStr, hl, utf8Encode_length, INLINE_CAPACITY]
    by_cases hfit : utf8Len t + utf8Len u ≤ 62
    · rw [if_pos (by omega)]
      obtain ⟨s', h1, h2, _⟩ := InlineString.pushStr_holds (ε := OutOfMemoryError × NStr) (cfg := cfg) h u hfit
      rw [h1]
      exact .fits _ rfl (by simpa using hfit) rfl h2
    · rw [if_neg (by omega), InlineString.Holds.asStr h]
      cases ha : cfg.alloc
      · exact .fails rfl (by simp; omega) ha
      · exact .spills rfl (by simp; omega) ha

end NStr

/-! ## Results of formatting

`Del alloc e r t`: the computation `r` delivers the text `t` — inline if it fits, on the heap if it does not and
the build has a heap, and the error `e` otherwise. Invariant under the string-building operations: `r` is either a
string holding `t` (and inline exactly if `t` fits) or the error `e` in a no-`alloc` build with `t` too long. -/

/-- `s` holds `t` and is inline exactly if `t` fits. -/
def NStr.Is (s : NStr) (t : List Char) : Prop := s.Holds t ∧ s.isInline = decide (utf8Len t ≤ 62)

inductive Del {ε : Type} (alloc : Bool) (e : ε) : Res ε NStr → List Char → Prop
  | ok (s : NStr) (t : List Char) : s.Is t → (alloc = true ∨ utf8Len t ≤ 62) → Del alloc e (.ok s) t
  | err (t : List Char) : alloc = false → 62 < utf8Len t → Del alloc e (.err e) t

theorem NStr.new_is : NStr.new.Is [] := ⟨NStr.new_holds, rfl⟩
theorem NStr.newReverse_is : NStr.newReverse.Is [] := ⟨NStr.newReverse_holds, rfl⟩

theorem Ext.del {cfg : Cfg} {s : NStr} {t t' : List Char} {r : Res (OutOfMemoryError × NStr) NStr}
    (hs : s.Is t) (hlen : utf8Len t ≤ utf8Len t') (ha : cfg.alloc = true ∨ utf8Len t ≤ 62) (h : NStr.Ext cfg s t' r) :
    Del cfg.alloc OutOfMemoryError.mk (r.mapErr Prod.fst) t' := by
  obtain ⟨hs, hi⟩ := hs
  cases h with
  | fits s' h1 h2 h3 h4 => exact .ok _ _ ⟨h4, by simp [h3, h2]⟩ (.inr h2)
  | spills h1 h2 h3 => exact .ok _ _ ⟨rfl, by simp [NStr.isInline]; omega⟩ (.inl h3)
  | fails h1 h2 h3 => exact .err _ h3 h2
  | heap h1 =>
    have h5 : 62 < utf8Len t := by
      rw [h1] at hi
      have := of_decide_eq_false hi.symm
      omega
    refine .ok _ _ ⟨rfl, by simp [NStr.isInline]; omega⟩ (.inl ?_)
    rcases ha with ha | ha
    · exact ha
    · omega

theorem NStr.Is.push {cfg : Cfg} {s : NStr} {t : List Char} (hs : s.Is t) (ha : cfg.alloc = true ∨ utf8Len t ≤ 62)
    (c : Char) : Del cfg.alloc OutOfMemoryError.mk (s.push cfg c) (t ++ [c]) :=
  Ext.del hs (by simp) ha (NStr.tryPush_ext hs.1 c)

theorem NStr.Is.pushFront {cfg : Cfg} {s : NStr} {t : List Char} (hs : s.Is t) (ha : cfg.alloc = true ∨ utf8Len t ≤ 62)
    (c : Char) : Del cfg.alloc OutOfMemoryError.mk (s.pushFront cfg c) (c :: t) :=
  Ext.del hs (by simp) ha (NStr.tryPushFront_ext hs.1 c)

theorem NStr.Is.pushStr {cfg : Cfg} {s : NStr} {t : List Char} (hs : s.Is t) (ha : cfg.alloc = true ∨ utf8Len t ≤ 62)
    (u : List Char) : Del cfg.alloc OutOfMemoryError.mk (s.pushStr cfg u) (t ++ u) :=
  Ext.del hs (by simp) ha (NStr.tryPushStr_ext hs.1 u)

theorem NStr.Is.isEmpty {s : NStr} {t : List Char} (hs : s.Is t) : s.isEmpty = t.isEmpty := hs.1.isEmpty

theorem Del.mapErr {ε ε' : Type} {alloc : Bool} {e : ε} {r : Res ε NStr} {t : List Char} (f : ε → ε')
    (h : Del alloc e r t) : Del alloc (f e) (r.mapErr f) t := by
  cases h with
  | ok s t h1 h2 => exact .ok _ _ h1 h2
  | err t h1 h2 => exact .err _ h1 h2

/-- Sequencing: once the text has outgrown the buffer, it never fits again. -/
theorem Del.bind {ε : Type} {alloc : Bool} {e : ε} {r : Res ε NStr} {t t' : List Char} {f : NStr → Res ε NStr}
    (h : Del alloc e r t) (hlen : utf8Len t ≤ utf8Len t')
    (hf : ∀ s, s.Is t → (alloc = true ∨ utf8Len t ≤ 62) → Del alloc e (f s) t') :
    Del alloc e (r.bind f) t' := by
  cases h with
  | ok s t h1 h2 => exact hf s h1 h2
  | err t h1 h2 => exact .err _ h1 (by omega)

theorem ofChar_del {ε : Type} (cfg : Cfg) (c : Char) (e : ε) : Del cfg.alloc e (NStr.ofChar (ε := ε) cfg c) [c] := by
  have h := NStr.new_is.push (cfg := cfg) (.inr (by simp)) c
  have h4 := utf8Size_le c
  unfold NStr.ofChar
  generalize NStr.push cfg NStr.new c = r at h
  cases h with
  | ok s t h1 h2 => exact .ok _ _ h1 h2
  | err t h1 h2 => simp at h2; omega

/-- `From<&str>`, for texts that fit or builds with a heap. -/
theorem ofStr_is {ε : Type} (cfg : Cfg) (t : List Char) (h : cfg.alloc = true ∨ utf8Len t ≤ 62) :
    ∃ s, NStr.ofStr (ε := ε) cfg t = .ok s ∧ s.Is t := by
  unfold NStr.ofStr
  simp only [utf8Encode_length, INLINE_CAPACITY]
  by_cases hfit : utf8Len t ≤ 62
  · rw [if_pos (by omega)]
    have hz := InlineString.zipWrite_mid [] (List.replicate (utf8Len t) none) (List.replicate (62 - utf8Len t) none)
      (utf8Encode t) 0 (utf8Len t) (by simp) rfl (by simp)
    rw [List.nil_append, List.replicate_append_replicate, show utf8Len t + (62 - utf8Len t) = 62 by omega] at hz
    rw [hz]
    have hlt : (UInt8.ofNat (utf8Len t)).toNat < 128 := by simp; omega
    have hk : (UInt8.ofNat (utf8Len t)).toNat = utf8Len t := by simp; omega
    have h0 := len_setLength0 _ hlt
    simp only [UInt8.zero_or] at h0
    refine ⟨_, rfl, ⟨?_, List.replicate (62 - utf8Len t) none, ?_, ?_, fun x h => List.eq_of_mem_replicate h⟩, ?_⟩
    · rw [InlineString.lenUsize, InlineString.len, h0.1, hk]
    · simp; omega
    · simp [InlineString.isReverse, h0.2]
    · simp [NStr.isInline, hfit]
  · rw [if_neg (by omega)]
    rcases h with h | h
    · rw [if_pos h]
      exact ⟨_, rfl, rfl, by simp [NStr.isInline, NStr.ofString, hfit]⟩
    · omega

end Nominals
