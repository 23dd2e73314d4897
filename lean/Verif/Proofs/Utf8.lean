import Verif.Model.NominalString

/-!
# UTF-8 round trip
-/

namespace Nominals

theorem subT_le {ε : Type} {cfg : Cfg} {T : IntTy} {a b : Nat} (h : b ≤ a) : subT (ε := ε) cfg T a b = .ok (a - b) := if_pos h

theorem char_valid (c : Char) : c.val.toNat.isValidChar := by
  have := c.valid
  simpa [UInt32.isValidChar] using this

theorem charOfNat?_toNat (c : Char) : charOfNat? c.val.toNat = some c := by
  simp only [charOfNat?, char_valid c, dif_pos]
  congr 1

theorem contByte?_ofNat (v : Nat) : contByte? (UInt8.ofNat (v % 64 + 128)) = some (v % 64) := by
  have h : (v % 64 + 128) % 256 = v % 64 + 128 := by omega
  simp only [contByte?, UInt8.toNat_ofNat', Nat.reducePow, h]
  rw [if_pos (by omega)]
  simp

theorem utf8DecodeOne_encode (c : Char) (r : List UInt8) :
    utf8DecodeOne (String.utf8EncodeChar c ++ r) = some (c, r) := by
  have hc := charOfNat?_toNat c
  have hv := char_valid c
  have hlt : c.val.toNat < 0x110000 := by
    rcases hv with h | h <;> omega
  unfold String.utf8EncodeChar
  generalize c.val.toNat = v at *
  simp only
  split
  · rename_i h
    simp only [List.cons_append, List.nil_append, utf8DecodeOne, UInt8.toNat_ofNat', Nat.reducePow]
    rw [if_pos (by omega), Nat.mod_eq_of_lt (by omega), hc]
    rfl
  split
  · rename_i h1 h
    simp only [List.cons_append, List.nil_append, utf8DecodeOne, contByte?_ofNat, UInt8.toNat_ofNat',
      Nat.reducePow]
    rw [Nat.mod_eq_of_lt (a := v / 64 % 32 + 192) (by omega), if_neg (by omega), if_neg (by omega),
      if_pos (by omega)]
    simp only [bind, Option.bind]
    rw [show (v / 64 % 32 + 192 - 192) * 64 + v % 64 = v by omega, if_neg (by omega), hc]
    rfl
  split
  · rename_i h1 h2 h
    simp only [List.cons_append, List.nil_append, utf8DecodeOne, contByte?_ofNat, UInt8.toNat_ofNat',
      Nat.reducePow]
    rw [Nat.mod_eq_of_lt (a := v / 4096 % 16 + 224) (by omega), if_neg (by omega), if_neg (by omega),
      if_neg (by omega), if_pos (by omega)]
    simp only [bind, Option.bind]
    rw [show ((v / 4096 % 16 + 224 - 224) * 64 + v / 64 % 64) * 64 + v % 64 = v by omega, if_neg (by omega), hc]
    rfl
  · rename_i h1 h2 h
    simp only [List.cons_append, List.nil_append, utf8DecodeOne, contByte?_ofNat, UInt8.toNat_ofNat',
      Nat.reducePow]
    rw [Nat.mod_eq_of_lt (a := v / 262144 % 8 + 240) (by omega), if_neg (by omega), if_neg (by omega),
      if_neg (by omega), if_neg (by omega), if_pos (by omega)]
    simp only [bind, Option.bind]
    rw [show (((v / 262144 % 8 + 240 - 240) * 64 + v / 4096 % 64) * 64 + v / 64 % 64) * 64 + v % 64 = v by omega,
      if_neg (by omega), hc]
    rfl

theorem utf8Size_pos (c : Char) : 1 ≤ c.utf8Size := Char.utf8Size_pos c
theorem utf8Size_le (c : Char) : c.utf8Size ≤ 4 := Char.utf8Size_le_four c

theorem utf8EncodeChar_length (c : Char) : (String.utf8EncodeChar c).length = c.utf8Size :=
  String.length_utf8EncodeChar c

@[simp] theorem utf8Encode_nil : utf8Encode [] = [] := rfl
@[simp] theorem utf8Encode_cons (c : Char) (t : List Char) :
    utf8Encode (c :: t) = String.utf8EncodeChar c ++ utf8Encode t := by simp [utf8Encode]
@[simp] theorem utf8Encode_append (t u : List Char) : utf8Encode (t ++ u) = utf8Encode t ++ utf8Encode u := by
  simp [utf8Encode]

@[simp] theorem utf8Len_nil : utf8Len [] = 0 := rfl
@[simp] theorem utf8Len_cons (c : Char) (t : List Char) : utf8Len (c :: t) = c.utf8Size + utf8Len t := by
  simp [utf8Len]
@[simp] theorem utf8Len_append (t u : List Char) : utf8Len (t ++ u) = utf8Len t + utf8Len u := by
  simp [utf8Len]

@[simp] theorem utf8Encode_length (t : List Char) : (utf8Encode t).length = utf8Len t := by
  induction t with
  | nil => rfl
  | cons c t ih => simp [ih]

theorem length_le_utf8Len (t : List Char) : t.length ≤ utf8Len t := by
  induction t with
  | nil => simp
  | cons c t ih => have := utf8Size_pos c; simp; omega

theorem utf8DecodeAux_encode (t : List Char) (fuel : Nat) (h : t.length ≤ fuel) :
    utf8DecodeAux fuel (utf8Encode t) = some t := by
  induction t generalizing fuel with
  | nil => cases fuel <;> rfl
  | cons c t ih =>
    have hne : String.utf8EncodeChar c ≠ [] := by
      intro h0
      have h1 := utf8EncodeChar_length c
      have := utf8Size_pos c
      rw [h0] at h1
      simp at h1
      omega
    obtain ⟨b, bs, hb⟩ := List.exists_cons_of_ne_nil hne
    cases fuel with
    | zero => simp at h
    | succ fuel =>
      have h1 := utf8DecodeOne_encode c (utf8Encode t)
      rw [utf8Encode_cons, hb, List.cons_append] at *
      rw [utf8DecodeAux, h1]
      · simp only [List.length_cons] at h
        simp [ih fuel (by omega)]
      · simp

theorem utf8Decode_encode (t : List Char) : utf8Decode (utf8Encode t) = some t := by
  apply utf8DecodeAux_encode
  rw [utf8Encode_length]
  exact length_le_utf8Len t

theorem utf8Encode_injective {t u : List Char} (h : utf8Encode t = utf8Encode u) : t = u := by
  have h1 := utf8Decode_encode t
  rw [h, utf8Decode_encode] at h1
  exact (Option.some.inj h1).symm

theorem charOfNat?_eq_some {v : Nat} {c : Char} (h : charOfNat? v = some c) : c.val.toNat = v := by
  unfold charOfNat? at h
  split at h
  · injection h with h
    subst h
    rfl
  · cases h

theorem contByte?_eq_some {b : UInt8} {y : Nat} (h : contByte? b = some y) : b.toNat = y + 128 ∧ y < 64 := by
  unfold contByte? at h
  split at h
  · injection h with h
    omega
  · cases h

theorem ofNat_of_toNat {b : UInt8} {n : Nat} (h : b.toNat = n) : UInt8.ofNat n = b := by
  subst h
  simp

theorem utf8DecodeOne_eq_some {bs r : List UInt8} {c : Char} (h : utf8DecodeOne bs = some (c, r)) :
    bs = String.utf8EncodeChar c ++ r := by
  unfold utf8DecodeOne at h
  split at h
  · cases h
  rename_i a r0
  split at h
  · rename_i h1
    rw [Option.map_eq_some_iff] at h
    obtain ⟨c', hc, h⟩ := h
    injection h with h2 h3
    subst h2 h3
    have hv := charOfNat?_eq_some hc
    unfold String.utf8EncodeChar
    simp only [hv]
    rw [if_pos (by omega), ofNat_of_toNat rfl]
    rfl
  split at h
  · cases h
  split at h
  · split at h
    · rename_i b r1
      simp only [bind, Option.bind] at h
      split at h
      · cases h
      rename_i y hy
      obtain ⟨hy1, hy2⟩ := contByte?_eq_some hy
      dsimp only at h
      split at h
      · cases h
      rw [Option.map_eq_some_iff] at h
      obtain ⟨c', hc, h⟩ := h
      injection h with h2 h3
      subst h2 h3
      have hv := charOfNat?_eq_some hc
      unfold String.utf8EncodeChar
      simp only [hv]
      rw [if_neg (by omega), if_pos (by omega), ofNat_of_toNat (b := a) (by omega), ofNat_of_toNat (b := b) (by omega)]
      rfl
    · cases h
  split at h
  · split at h
    · rename_i b b2 r1
      simp only [bind, Option.bind] at h
      split at h
      · cases h
      rename_i y hy
      obtain ⟨hy1, hy2⟩ := contByte?_eq_some hy
      dsimp only at h
      split at h
      · cases h
      rename_i z hz
      obtain ⟨hz1, hz2⟩ := contByte?_eq_some hz
      dsimp only at h
      split at h
      · cases h
      rw [Option.map_eq_some_iff] at h
      obtain ⟨c', hc, h⟩ := h
      injection h with h2 h3
      subst h2 h3
      have hv := charOfNat?_eq_some hc
      unfold String.utf8EncodeChar
      simp only [hv]
      rw [if_neg (by omega), if_neg (by omega), if_pos (by omega), ofNat_of_toNat (b := a) (by omega),
        ofNat_of_toNat (b := b) (by omega), ofNat_of_toNat (b := b2) (by omega)]
      rfl
    · cases h
  split at h
  · split at h
    · rename_i b b2 b3 r1
      simp only [bind, Option.bind] at h
      split at h
      · cases h
      rename_i y hy
      obtain ⟨hy1, hy2⟩ := contByte?_eq_some hy
      dsimp only at h
      split at h
      · cases h
      rename_i z hz
      obtain ⟨hz1, hz2⟩ := contByte?_eq_some hz
      dsimp only at h
      split at h
      · cases h
      rename_i w hw
      obtain ⟨hw1, hw2⟩ := contByte?_eq_some hw
      dsimp only at h
      split at h
      · cases h
      rw [Option.map_eq_some_iff] at h
      obtain ⟨c', hc, h⟩ := h
      injection h with h2 h3
      subst h2 h3
      have hv := charOfNat?_eq_some hc
      have hlt : c'.val.toNat < 0x110000 := by
        rcases char_valid c' with h | h <;> omega
      unfold String.utf8EncodeChar
      simp only [hv]
      rw [if_neg (by omega), if_neg (by omega), if_neg (by omega), ofNat_of_toNat (b := a) (by omega),
        ofNat_of_toNat (b := b) (by omega), ofNat_of_toNat (b := b2) (by omega), ofNat_of_toNat (b := b3) (by omega)]
      rfl
    · cases h
  · cases h

theorem utf8DecodeAux_eq_some {fuel : Nat} {bs : List UInt8} {t : List Char} (h : utf8DecodeAux fuel bs = some t) :
    bs = utf8Encode t := by
  induction fuel generalizing bs t with
  | zero =>
    cases bs with
    | nil => simp only [utf8DecodeAux, Option.some.injEq] at h; subst h; rfl
    | cons b bs => simp [utf8DecodeAux] at h
  | succ fuel ih =>
    cases bs with
    | nil => simp only [utf8DecodeAux, Option.some.injEq] at h; subst h; rfl
    | cons b bs =>
      rw [utf8DecodeAux] at h
      · simp only [bind, Option.bind] at h
        split at h
        · cases h
        rename_i p hp
        dsimp only at h
        split at h
        · cases h
        rename_i cs hcs
        simp only [pure, Option.some.injEq] at h
        subst h
        rw [utf8DecodeOne_eq_some hp, ih hcs, utf8Encode_cons]
      · simp

/-- Decoding is the inverse of encoding: exactly the encodings of texts are valid UTF-8. -/
theorem utf8Decode_eq_some {bs : List UInt8} {t : List Char} (h : utf8Decode bs = some t) : bs = utf8Encode t :=
  utf8DecodeAux_eq_some h

end Nominals
