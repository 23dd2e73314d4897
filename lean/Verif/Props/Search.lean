import Verif.Spec.Search
import Verif.Props.Counting
import Verif.Props.OneBased
import Verif.Props.LabelOrder
import Verif.Props.Unseparated

/-! # C105: looking for labels in labels -/

namespace Nominals.Props

open Nominals Nominals.Spec

/-! ## Bytes and characters -/

/-- The first byte of a character is no continuation byte, all others are. -/
theorem encode_shape (c : Char) : ∃ a r, String.utf8EncodeChar c = a :: r ∧ contByte? a = none ∧ ∀ b ∈ r, (contByte? b).isSome = true := by
  have hv := char_valid c
  have hlt : c.val.toNat < 0x110000 := by
    rcases hv with h | h <;> omega
  have lead : ∀ n, n < 256 → n < 128 ∨ 192 ≤ n → contByte? (UInt8.ofNat n) = none := by
    intro n h h'
    simp only [contByte?, UInt8.toNat_ofNat', Nat.reducePow, Nat.mod_eq_of_lt h]
    rw [if_neg (by omega)]
  unfold String.utf8EncodeChar
  generalize c.val.toNat = v at *
  simp only
  split
  · exact ⟨_, _, rfl, lead _ (by omega) (by omega), by simp⟩
  split
  · exact ⟨_, _, rfl, lead _ (by omega) (by omega), fun b hb => by
      simp only [List.mem_cons, List.not_mem_nil, or_false] at hb
      rw [hb, contByte?_ofNat]
      rfl⟩
  split
  · exact ⟨_, _, rfl, lead _ (by omega) (by omega), fun b hb => by
      simp only [List.mem_cons, List.not_mem_nil, or_false] at hb
      rcases hb with rfl | rfl <;> rw [contByte?_ofNat] <;> rfl⟩
  · exact ⟨_, _, rfl, lead _ (by omega) (by omega), fun b hb => by
      simp only [List.mem_cons, List.not_mem_nil, or_false] at hb
      rcases hb with rfl | rfl | rfl <;> rw [contByte?_ofNat] <;> rfl⟩

theorem encode_prefix {t u : List Char} {s : List UInt8} (h : utf8Encode t = utf8Encode u ++ s) : ∃ s', t = u ++ s' ∧ utf8Encode s' = s := by
  induction u generalizing t with
  | nil => exact ⟨t, rfl, h⟩
  | cons c u ih =>
    cases t with
    | nil =>
      obtain ⟨a, r, e, -⟩ := encode_shape c
      rw [utf8Encode_nil, utf8Encode_cons, e] at h
      cases h
    | cons d t =>
      rw [utf8Encode_cons, utf8Encode_cons, List.append_assoc] at h
      have h1 := utf8DecodeOne_encode d (utf8Encode t)
      rw [h, utf8DecodeOne_encode] at h1
      simp only [Option.some.injEq, Prod.mk.injEq] at h1
      obtain ⟨s', e, es⟩ := ih h1.2.symm
      exact ⟨s', by rw [e, h1.1]; rfl, es⟩

theorem encode_infix {t u : List Char} {p s : List UInt8} (hu : u ≠ []) (h : utf8Encode t = p ++ (utf8Encode u ++ s)) :
    ∃ p' s', t = p' ++ (u ++ s') ∧ utf8Encode p' = p ∧ utf8Encode s' = s := by
  cases u with
  | nil => exact absurd rfl hu
  | cons c u =>
    obtain ⟨a, r, ea, hn, -⟩ := encode_shape c
    induction t generalizing p with
    | nil =>
      rw [utf8Encode_nil, utf8Encode_cons, ea] at h
      simp at h
    | cons d t ih =>
      cases p with
      | nil =>
        obtain ⟨s', e, es⟩ := encode_prefix (u := c :: u) h
        exact ⟨[], s', e, rfl, es⟩
      | cons b p =>
        obtain ⟨a', r', ed, -, hr⟩ := encode_shape d
        rw [utf8Encode_cons, ed, List.cons_append, List.cons_append] at h
        injection h with hb h
        subst hb
        rcases List.append_eq_append_iff.1 h with ⟨w, e1, e2⟩ | ⟨w, e1, e2⟩
        · obtain ⟨p', s', e, ep, es⟩ := ih e2
          refine ⟨d :: p', s', by rw [e]; rfl, ?_, es⟩
          rw [utf8Encode_cons, ed, ep, e1]
          rfl
        · cases w with
          | nil =>
            obtain ⟨p', s', e, ep, es⟩ := ih (p := []) e2.symm
            refine ⟨d :: p', s', by rw [e]; rfl, ?_, es⟩
            rw [utf8Encode_cons, ed, ep, e1]
            simp
          | cons x w =>
            exfalso
            rw [utf8Encode_cons, ea] at e2
            injection e2 with hx e2
            have := hr x (by rw [e1]; simp)
            rw [← hx, hn] at this
            cases this

/-- C105. What `str::starts_with`, `ends_with`, `contains` and `find` look for in the bytes are characters: a string begins or ends with, or
contains the bytes of another one exactly if it does so with its characters, and a place where the bytes of a string that is not empty are found
is a place between two characters. -/
theorem C105_bytes {x y : NStr} {t u : List Char} (hx : x.asStr = some t) (hy : y.asStr = some u) :
    ∃ bx bu, x.strBytes = some bx ∧ y.strBytes = some bu ∧ (bu <+: bx ↔ u <+: t) ∧ (bu <:+ bx ↔ u <:+ t) ∧ (bu <:+: bx ↔ u <:+: t) ∧
      (u ≠ [] → ∀ p s, bx = p ++ bu ++ s → ∃ p' s', t = p' ++ u ++ s' ∧ utf8Len p' = p.length) := by
  refine ⟨_, _, strBytes_of_asStr hx, strBytes_of_asStr hy, ⟨?_, ?_⟩, ⟨?_, ?_⟩, ⟨?_, ?_⟩, ?_⟩
  · rintro ⟨s, e⟩
    obtain ⟨s', e, -⟩ := encode_prefix e.symm
    exact ⟨s', e.symm⟩
  · rintro ⟨s, rfl⟩
    exact ⟨utf8Encode s, by simp⟩
  · rintro ⟨p, e⟩
    by_cases hu : u = []
    · subst hu; exact List.nil_suffix
    · obtain ⟨p', s', e, -, es⟩ := encode_infix (s := []) hu (by rw [← e, List.append_nil])
      have : s' = [] := utf8Encode_injective es
      exact ⟨p', by rw [e, this, List.append_nil]⟩
  · rintro ⟨p, rfl⟩
    exact ⟨utf8Encode p, by simp⟩
  · rintro ⟨p, s, e⟩
    by_cases hu : u = []
    · subst hu; exact List.nil_infix
    · obtain ⟨p', s', e, -⟩ := encode_infix hu (by rw [← e, List.append_assoc])
      exact ⟨p', s', by rw [e, List.append_assoc]⟩
  · rintro ⟨p, s, rfl⟩
    exact ⟨utf8Encode p, utf8Encode s, by simp⟩
  · intro hu p s e
    obtain ⟨p', s', e, ep, -⟩ := encode_infix hu (by rw [e, List.append_assoc])
    exact ⟨p', s', by rw [e, List.append_assoc], by rw [← ep, utf8Encode_length]⟩

/-- 二 is found in 十二 after three bytes, that is after 十. -/
example : utf8Encode ['十', '二'] = [0xe5, 0x8d, 0x81] ++ utf8Encode ['二'] ++ [] ∧ utf8Len ['十'] = 3 ∧ ['二'] <:+: ['十', '二'] :=
  ⟨by decide, by decide, ⟨['十'], [], rfl⟩⟩

/-! ## Words -/

theorem value_append (b : Nat) (x y : List Nat) : value b (x ++ y) = value b x * b ^ y.length + value b y := by
  induction y using revRec with
  | h0 => simp [value]
  | h1 y d ih =>
    rw [← List.append_assoc, value_snoc, value_snoc, ih, List.length_append, List.length_singleton, Nat.pow_succ, Nat.add_mul, Nat.mul_assoc]
    omega

theorem ordinal_append (b : Nat) (x y : List Nat) : ordinal b (x ++ y) = ordinal b x * b ^ y.length + ordinal b y := by
  induction y using revRec with
  | h0 => simp [ordinal]
  | h1 y d ih =>
    rw [← List.append_assoc, ordinal_snoc, ordinal_snoc, ih, List.length_append, List.length_singleton, Nat.pow_succ, Nat.add_mul, Nat.mul_assoc]
    omega

/-- Words of one length count up from the word of first symbols. -/
theorem ordinal_value (b : Nat) (w : List Nat) : ordinal b w = value b w + ordinal b (List.replicate w.length 0) := by
  induction w using revRec with
  | h0 => rfl
  | h1 w d ih =>
    rw [List.length_append, List.length_singleton, List.replicate_succ', ordinal_snoc, ordinal_snoc, value_snoc, ih, Nat.add_mul]
    omega

theorem value_inj {b : Nat} {x y : List Nat} (hx : ∀ d ∈ x, d < b) (hy : ∀ d ∈ y, d < b) (hl : x.length = y.length) (h : value b x = value b y) :
    x = y := by
  induction x using revRec generalizing y with
  | h0 => exact (List.eq_nil_of_length_eq_zero hl.symm).symm
  | h1 x d ih =>
    rcases List.eq_nil_or_concat y with rfl | ⟨y, e, rfl⟩
    · simp at hl
    · simp only [List.concat_eq_append] at *
      rw [value_snoc, value_snoc] at h
      have hd : d < b := hx d (by simp)
      have he : e < b := hy e (by simp)
      have h1 : d = e := by
        have := congrArg (· % b) h
        simpa [Nat.mul_add_mod', Nat.mod_eq_of_lt hd, Nat.mod_eq_of_lt he] using this
      subst h1
      have h2 : value b x = value b y := Nat.eq_of_mul_eq_mul_right (by omega) (Nat.add_right_cancel h)
      rw [ih (fun d h => hx d (by simp [h])) (fun d h => hy d (by simp [h])) (by simpa using hl) h2]

theorem infix_spell {al : List Char} (hd : al.Nodup) {x y : List Nat} (hx : ∀ d ∈ x, d < al.length) (hy : ∀ d ∈ y, d < al.length)
    {p s : List Char} (h : spell al x = p ++ (spell al y ++ s)) : x = x.take p.length ++ (y ++ x.drop (p.length + y.length)) := by
  have hl : x.length = p.length + (y.length + s.length) := by
    have := congrArg List.length h
    simpa [spell] using this
  have e1 : x = x.take p.length ++ ((x.drop p.length).take y.length ++ x.drop (p.length + y.length)) := by
    rw [← List.drop_drop, List.take_append_drop, List.take_append_drop]
  have e2 : (x.drop p.length).take y.length = y := by
    refine spell_inj hd (fun d h => hx d (List.mem_of_mem_drop (List.mem_of_mem_take h))) hy ?_
    have : spell al ((x.drop p.length).take y.length) = ((spell al x).drop p.length).take y.length := by
      simp [spell, List.map_drop, List.map_take]
    rw [this, h, List.drop_left]
    have : y.length = (spell al y).length := by simp [spell]
    rw [this, List.take_left]
  rw [e2] at e1
  exact e1

theorem spell_infix {al : List Char} (hd : al.Nodup) {x y : List Nat} (hx : ∀ d ∈ x, d < al.length) (hy : ∀ d ∈ y, d < al.length) :
    (spell al y <+: spell al x ↔ y <+: x) ∧ (spell al y <:+ spell al x ↔ y <:+ x) ∧ (spell al y <:+: spell al x ↔ y <:+: x) := by
  refine ⟨⟨?_, ?_⟩, ⟨?_, ?_⟩, ⟨?_, ?_⟩⟩
  · rintro ⟨s, e⟩
    have := infix_spell hd hx hy (p := []) e.symm
    exact ⟨_, this.symm⟩
  · rintro ⟨s, rfl⟩
    exact ⟨spell al s, (spell_append _ _ _).symm⟩
  · rintro ⟨p, e⟩
    have := infix_spell hd hx hy (p := p) (s := []) (by rw [← e, List.append_nil])
    have hl := congrArg List.length e
    simp only [spell, List.length_append, List.length_map] at hl
    rw [List.drop_of_length_le (i := p.length + y.length) (by omega), List.append_nil] at this
    exact ⟨_, this.symm⟩
  · rintro ⟨s, rfl⟩
    exact ⟨spell al s, (spell_append _ _ _).symm⟩
  · rintro ⟨p, s, e⟩
    have := infix_spell hd hx hy (p := p) (s := s) (by rw [← e, List.append_assoc])
    exact ⟨_, _, (this.trans (List.append_assoc ..).symm).symm⟩
  · rintro ⟨p, s, rfl⟩
    exact ⟨spell al p, spell al s, by rw [spell_append, spell_append]⟩

/-- A word cut in three. -/
theorem cut_three {x : List Nat} {k l : Nat} (h : k + l ≤ x.length) : ∃ p q s, x = p ++ q ++ s ∧ s.length = k ∧ q.length = l := by
  obtain ⟨i, hi⟩ : ∃ i, x.length = i + l + k := ⟨x.length - k - l, by omega⟩
  refine ⟨x.take i, (x.drop i).take l, x.drop (i + l), ?_, by simp; omega, by simp; omega⟩
  rw [List.append_assoc, ← List.drop_drop, List.take_append_drop, List.take_append_drop]

theorem numeral_search {b n m : Nat} {x y : List Nat} (hb : 2 ≤ b) (hx : IsNumeral b n x) (hy : IsNumeral b m y) :
    (y <+: x ↔ ∃ k, m = n / b ^ k ∧ (m = 0 → n = 0)) ∧ (y <:+ x ↔ y.length ≤ x.length ∧ n % b ^ y.length = m) ∧
      (y <:+: x ↔ ∃ k, k + y.length ≤ x.length ∧ n / b ^ k % b ^ y.length = m) := by
  have hm : m < b ^ y.length := hy.value ▸ value_lt y hy.digits
  have hpos : ∀ k, 0 < b ^ k := fun k => Nat.pow_pos (by omega)
  have digits : ∀ {p q s : List Nat}, x = p ++ q ++ s → (∀ d ∈ p, d < b) ∧ (∀ d ∈ q, d < b) ∧ ∀ d ∈ s, d < b := fun e =>
    ⟨fun d h => hx.digits d (by rw [e]; simp [h]), fun d h => hx.digits d (by rw [e]; simp [h]), fun d h => hx.digits d (by rw [e]; simp [h])⟩
  have cut : ∀ {p q s : List Nat}, x = p ++ q ++ s → n / b ^ s.length = value b p * b ^ q.length + value b q := by
    intro p q s e
    rw [← hx.value, e, value_append, value_append, Nat.mul_comm _ (b ^ s.length), Nat.mul_add_div (hpos _),
      Nat.div_eq_of_lt (value_lt s (digits e).2.2), Nat.add_zero]
  have mid : ∀ {p q s : List Nat}, x = p ++ q ++ s → n / b ^ s.length % b ^ q.length = value b q := by
    intro p q s e
    rw [cut e, Nat.mul_add_mod', Nat.mod_eq_of_lt (value_lt q (digits e).2.1)]
  refine ⟨⟨?_, ?_⟩, ⟨?_, ?_⟩, ⟨?_, ?_⟩⟩
  · rintro ⟨s, e⟩
    refine ⟨s.length, ?_, fun h0 => ?_⟩
    · have := cut (p := []) (q := y) (s := s) e.symm
      simp only [value, List.foldl_nil, Nat.zero_mul, Nat.zero_add] at this
      rw [this]
      exact hy.value.symm
    · have h1 := numeral_unique (y := [0]) hb hy ⟨by simp; omega, by rw [h0]; simp [value], .inl rfl⟩
      rcases hx.lead with h | ⟨d, r, h, hd⟩
      · rw [← hx.value, h]; simp [value]
      · rw [← e, h1] at h
        injection h with h2
        exact absurd h2.symm hd
  · rintro ⟨k, e, h0⟩
    by_cases hm0 : m = 0
    · have := h0 hm0
      subst hm0 this
      rw [numeral_unique hb hx hy]
      exact List.prefix_rfl
    · have hk : k < x.length := Nat.lt_of_not_le fun h => hm0 (by
        rw [e]
        exact Nat.div_eq_of_lt (Nat.lt_of_lt_of_le (hx.value ▸ value_lt x hx.digits) (Nat.pow_le_pow_right (by omega) h)))
      obtain ⟨p, q, s, ex, hs, hq⟩ := cut_three (x := x) (k := k) (l := x.length - k) (by omega)
      have hp : p = [] := List.eq_nil_of_length_eq_zero (by have := congrArg List.length ex; simp at this; omega)
      subst hp
      have hv := cut ex
      simp only [value, List.foldl_nil, Nat.zero_mul, Nat.zero_add] at hv
      rw [hs] at hv
      have : IsNumeral b m q := by
        refine ⟨(digits ex).2.1, by rw [e, hv]; rfl, ?_⟩
        rcases hx.lead with h | ⟨d, r, h, hd⟩
        · exfalso
          have : n = 0 := by rw [← hx.value, h]; simp [value]
          rw [this, Nat.zero_div] at e
          exact hm0 e
        · cases q with
          | nil => simp at hq; omega
          | cons c q =>
            rw [h] at ex
            injection ex with h1
            exact .inr ⟨c, q, rfl, h1 ▸ hd⟩
      rw [numeral_unique hb hy this]
      exact ⟨s, ex.symm⟩
  · rintro ⟨p, e⟩
    refine ⟨by rw [← e, List.length_append]; omega, ?_⟩
    have := mid (p := p) (q := y) (s := []) (by rw [← e, List.append_nil])
    rw [List.length_nil, Nat.pow_zero, Nat.div_one] at this
    rw [this]
    exact hy.value
  · rintro ⟨hl, e⟩
    obtain ⟨p, q, s, ex, hs, hq⟩ := cut_three (x := x) (k := 0) (l := y.length) (by omega)
    have := mid ex
    rw [hs, Nat.pow_zero, Nat.div_one, hq, e] at this
    have h1 : q = y := value_inj (digits ex).2.1 hy.digits hq (by rw [← this, hy.value])
    rw [List.eq_nil_of_length_eq_zero hs, List.append_nil] at ex
    exact ⟨p, by rw [ex, h1]⟩
  · rintro ⟨p, s, e⟩
    refine ⟨s.length, by rw [← e]; simp; omega, ?_⟩
    rw [mid e.symm]
    exact hy.value
  · rintro ⟨k, hl, e⟩
    obtain ⟨p, q, s, ex, hs, hq⟩ := cut_three hl
    have := mid ex
    rw [hs, hq, e] at this
    have h1 : q = y := value_inj (digits ex).2.1 hy.digits hq (by rw [← this, hy.value])
    exact ⟨p, s, by rw [ex, h1]⟩

theorem front_ordinal {b : Nat} (p s : List Nat) (hs : ∀ d ∈ s, d < b) : front b s.length (ordinal b (p ++ s)) = ordinal b p := by
  induction s using revRec with
  | h0 => simp [front]
  | h1 s d ih =>
    have hd : d < b := hs d (by simp)
    rw [List.length_append, List.length_singleton, front, ← List.append_assoc, ordinal_snoc, ← Nat.add_assoc, Nat.add_sub_cancel,
      Nat.mul_comm, Nat.mul_add_div (by omega), Nat.div_eq_of_lt hd, Nat.add_zero]
    exact ih fun d h => hs d (by simp [h])

theorem front_zero (b k : Nat) : front b k 0 = 0 := by
  induction k with
  | zero => rfl
  | succ k ih => rw [front, show (0 - 1) / b = 0 by simp]; exact ih

theorem ordinal_pos {b : Nat} {w : List Nat} (h : w ≠ []) : 0 < ordinal b w := by
  rcases List.eq_nil_or_concat w with rfl | ⟨w, d, rfl⟩
  · exact absurd rfl h
  · rw [List.concat_eq_append, ordinal_snoc]; omega

theorem ordinal_inj_mod {b : Nat} {x y : List Nat} (hx : ∀ d ∈ x, d < b) (hy : ∀ d ∈ y, d < b) (hl : x.length = y.length)
    (h : ordinal b x % b ^ y.length = ordinal b y % b ^ y.length) : x = y := by
  refine value_inj hx hy hl ?_
  have h1 := value_lt x hx
  have h2 := value_lt y hy
  rw [hl] at h1
  rw [ordinal_value, ordinal_value b y, hl] at h
  have k1 := Nat.sub_mod_eq_zero_of_mod_eq h
  have k2 := Nat.sub_mod_eq_zero_of_mod_eq h.symm
  rw [Nat.add_sub_add_right, Nat.mod_eq_of_lt (by omega)] at k1 k2
  omega

theorem word_search {b : Nat} (hb : 1 ≤ b) {x y : List Nat} (hx : ∀ d ∈ x, d < b) (hy : ∀ d ∈ y, d < b) (hne : y ≠ []) :
    (y <+: x ↔ ∃ k, ordinal b y = front b k (ordinal b x)) ∧
    (y <:+ x ↔ y.length ≤ x.length ∧ ordinal b x % b ^ y.length = ordinal b y % b ^ y.length) ∧
    (y <:+: x ↔ ∃ k, k + y.length ≤ x.length ∧ front b k (ordinal b x) % b ^ y.length = ordinal b y % b ^ y.length) := by
  have inj : ∀ {v w : List Nat}, (∀ d ∈ v, d < b) → (∀ d ∈ w, d < b) → ordinal b v = ordinal b w → v = w := by
    intro v w hv hw h
    rw [← List.reverse_inj, ← bij_ordinal hb v hv, ← bij_ordinal hb w hw, h]
  have infix_ : y <:+: x ↔ ∃ k, k + y.length ≤ x.length ∧ front b k (ordinal b x) % b ^ y.length = ordinal b y % b ^ y.length := by
    constructor
    · rintro ⟨p, s, rfl⟩
      refine ⟨s.length, by simp; omega, ?_⟩
      rw [front_ordinal _ _ fun d h => hx d (by simp [h]), ordinal_append, Nat.mul_add_mod']
    · rintro ⟨k, hl, e⟩
      obtain ⟨p, q, s, ex, hs, hq⟩ := cut_three hl
      rw [ex, ← hs, front_ordinal _ _ fun d h => hx d (by rw [ex]; simp [h]), ordinal_append, hq, Nat.mul_add_mod'] at e
      exact ⟨p, s, by rw [ex, ordinal_inj_mod (fun d h => hx d (by rw [ex]; simp [h])) hy hq e]⟩
  refine ⟨⟨?_, ?_⟩, ⟨?_, ?_⟩, infix_⟩
  · rintro ⟨s, rfl⟩
    exact ⟨s.length, (front_ordinal _ _ fun d h => hx d (by simp [h])).symm⟩
  · rintro ⟨k, e⟩
    have hk : k ≤ x.length := by
      apply Nat.le_of_not_lt
      intro h
      have h0 : front b x.length (ordinal b x) = 0 := front_ordinal [] x hx
      have : ∀ j i v, front b (j + i) v = front b j (front b i v) := by
        intro j i
        induction i with
        | zero => intro v; rfl
        | succ i ih => intro v; rw [← Nat.add_assoc, front, ih, front]
      rw [show k = k - x.length + x.length by omega, this, h0, front_zero] at e
      exact absurd (ordinal_pos (b := b) hne) (by omega)
    obtain ⟨p, q, s, ex, hs, hq⟩ := cut_three (x := x) (k := k) (l := 0) (by omega)
    rw [List.eq_nil_of_length_eq_zero hq, List.append_nil] at ex
    rw [ex, ← hs, front_ordinal _ _ fun d h => hx d (by rw [ex]; simp [h])] at e
    exact ⟨s, by rw [inj hy (fun d h => hx d (by rw [ex]; simp [h])) e, ← ex]⟩
  · rintro ⟨p, rfl⟩
    exact ⟨by simp, by rw [ordinal_append, Nat.mul_add_mod']⟩
  · rintro ⟨hl, e⟩
    obtain ⟨p, q, s, ex, hs, hq⟩ := cut_three (x := x) (k := 0) (l := y.length) (by omega)
    rw [List.eq_nil_of_length_eq_zero hs, List.append_nil] at ex
    rw [ex, ordinal_append, hq, Nat.mul_add_mod'] at e
    exact ⟨p, by rw [ex, ordinal_inj_mod (fun d h => hx d (by rw [ex]; simp [h])) hy hq e]⟩

/-! ## Labels -/

/-- C105, zero digit. The label of `n` begins with that of `m` exactly if `m` is `n` divided by the base once or repeatedly, or not at all (the label
of 0 begins no other label); it ends with it exactly if it is not shorter and `m` is the remainder; and it contains it exactly if `m` is such a
remainder of such a quotient, and its digits lie within the label. Both numbers may be of different types, formatted on different builds. -/
theorem C105_zero {cfg cfg' : Cfg} {T T' : IntTy} {d : DigitSys} {al : List Char} {n m : Nat} (hp : Plain cfg d al) (hp' : Plain cfg' d al)
    (hz : (d.level 0).hasZero = true) (hb : 2 ≤ al.length) (hd : al.Nodup) (hn : T.Fits cfg n) (hm : T'.Fits cfg' m) {t u : List Char} {i j : Bool}
    (ht : view (d.tryFormat cfg T n) = .ok (t, i)) (hu : view (d.tryFormat cfg' T' m) = .ok (u, j)) :
    (u <+: t ↔ ∃ k, m = n / al.length ^ k ∧ (m = 0 → n = 0)) ∧
    (u <:+ t ↔ u.length ≤ t.length ∧ n % al.length ^ u.length = m) ∧
    (u <:+: t ↔ ∃ k, k + u.length ≤ t.length ∧ n / al.length ^ k % al.length ^ u.length = m) := by
  obtain ⟨x, hx, ex⟩ := positional hp hz hb hn
  obtain ⟨y, hy, ey⟩ := positional hp' hz hb hm
  rw [ex] at ht
  rw [ey] at hu
  have e1 := (deliver_ok ht).symm
  have e2 := (deliver_ok hu).symm
  have l1 : t.length = x.length := by rw [e1]; simp [spell]
  have l2 : u.length = y.length := by rw [e2]; simp [spell]
  obtain ⟨s1, s2, s3⟩ := spell_infix hd hx.digits hy.digits
  obtain ⟨n1, n2, n3⟩ := numeral_search hb hx hy
  rw [l1, l2, e1, e2]
  exact ⟨s1.trans n1, s2.trans n2, s3.trans n3⟩

/-- 2047 begins with 20 = 2047 / 100, ends with 47 = 2047 % 100 and contains 4 = 2047 / 10 % 10. -/
example : view (decimal.tryFormat ⟨true, .w64, true⟩ .u16 2047) = .ok (['2', '0', '4', '7'], true) ∧
    view (decimal.tryFormat ⟨false, .w16, true⟩ .u8 20) = .ok (['2', '0'], true) ∧ 20 = 2047 / 10 ^ 2 ∧ ['2', '0'] <+: ['2', '0', '4', '7'] ∧
    2047 % 10 ^ 2 = 47 ∧ ['4', '7'] <:+ ['2', '0', '4', '7'] ∧ 2047 / 10 ^ 1 % 10 ^ 1 = 4 ∧ ['4'] <:+: ['2', '0', '4', '7'] := by
  decide +kernel

theorem column_search {al : List Char} (hb : 1 ≤ al.length) (hd : al.Nodup) (n m : Nat) {t u : List Char} (e1 : t = spell al (column al.length n))
    (e2 : u = spell al (column al.length m)) :
    (u <+: t ↔ ∃ k, m + 1 = front al.length k (n + 1)) ∧
    (u <:+ t ↔ u.length ≤ t.length ∧ (n + 1) % al.length ^ u.length = (m + 1) % al.length ^ u.length) ∧
    (u <:+: t ↔ ∃ k, k + u.length ≤ t.length ∧ front al.length k (n + 1) % al.length ^ u.length = (m + 1) % al.length ^ u.length) := by
  have l1 : t.length = (column al.length n).length := by rw [e1]; simp [spell]
  have l2 : u.length = (column al.length m).length := by rw [e2]; simp [spell]
  obtain ⟨s1, s2, s3⟩ := spell_infix hd (column_lt hb n) (column_lt hb m)
  have hne : column al.length m ≠ [] := fun h => by
    have := ordinal_column hb m
    rw [h] at this
    exact absurd this (by simp [ordinal])
  obtain ⟨n1, n2, n3⟩ := word_search hb (column_lt hb n) (column_lt hb m) hne
  rw [ordinal_column hb, ordinal_column hb] at n1 n2 n3
  rw [l1, l2, e1, e2]
  exact ⟨s1.trans n1, s2.trans n2, s3.trans n3⟩

/-- C105, no zero digit, counting from zero. Cutting symbols off the end of a label takes a number `v`, counted from 1, to `(v - 1) / N` for each of
them (`front`): the labels a label begins with are those. It ends with the label of `m` exactly if it is not shorter and the two numbers leave the
same remainder; and contains it exactly if this holds after cutting symbols off. -/
theorem C105_letters {cfg cfg' : Cfg} {T T' : IntTy} {d : DigitSys} {al : List Char} {n m : Nat} (hp : Plain cfg d al) (hp' : Plain cfg' d al)
    (hz : (d.level 0).hasZero = false) (h0 : (d.level 0).zeroBased = true) (hb : 1 ≤ al.length) (hd : al.Nodup) (hn : T.Fits cfg n)
    (hm : T'.Fits cfg' m) {t u : List Char} {i j : Bool} (ht : view (d.tryFormat cfg T n) = .ok (t, i))
    (hu : view (d.tryFormat cfg' T' m) = .ok (u, j)) :
    (u <+: t ↔ ∃ k, m + 1 = front al.length k (n + 1)) ∧
    (u <:+ t ↔ u.length ≤ t.length ∧ (n + 1) % al.length ^ u.length = (m + 1) % al.length ^ u.length) ∧
    (u <:+: t ↔ ∃ k, k + u.length ≤ t.length ∧ front al.length k (n + 1) % al.length ^ u.length = (m + 1) % al.length ^ u.length) := by
  rw [C10_columns hp hz h0 hb hn] at ht
  rw [C10_columns hp' hz h0 hb hm] at hu
  exact column_search hb hd n m (deliver_ok ht).symm (deliver_ok hu).symm

/-- CAB, number 2056 counted from 1, begins with CA, number 79 = 2055 / 26, and ends with AB, number 28: 2056 % 676 = 28. -/
example : view (letterUpper.tryFormat ⟨true, .w64, true⟩ .u16 2055) = .ok (['C', 'A', 'B'], true) ∧
    view (letterUpper.tryFormat ⟨true, .w64, true⟩ .u8 78) = .ok (['C', 'A'], true) ∧ front 26 1 2056 = 79 ∧
    view (letterUpper.tryFormat ⟨true, .w64, true⟩ .u8 27) = .ok (['A', 'B'], true) ∧ 2056 % 26 ^ 2 = 28 % 26 ^ 2 := by
  decide +kernel

/-- C105, no zero digit, counting from one, in types with more values than there are symbols. -/
theorem C105_one_based {cfg cfg' : Cfg} {T T' : IntTy} {d : DigitSys} {al : List Char} {n m : Nat} (hp : Plain cfg d al) (hp' : Plain cfg' d al)
    (hz : (d.level 0).hasZero = false) (h0 : (d.level 0).zeroBased = false) (hb : 1 ≤ al.length) (hd : al.Nodup) (hT : al.length < 2 ^ T.bits cfg)
    (hT' : al.length < 2 ^ T'.bits cfg') {t u : List Char} {i j : Bool} (ht : view (d.tryFormat cfg T n) = .ok (t, i))
    (hu : view (d.tryFormat cfg' T' m) = .ok (u, j)) :
    (u <+: t ↔ ∃ k, m = front al.length k n) ∧
    (u <:+ t ↔ u.length ≤ t.length ∧ n % al.length ^ u.length = m % al.length ^ u.length) ∧
    (u <:+: t ↔ ∃ k, k + u.length ≤ t.length ∧ front al.length k n % al.length ^ u.length = m % al.length ^ u.length) := by
  have word : ∀ {cfg : Cfg} {T : IntTy} {n : Nat} {t : List Char} {i : Bool}, Plain cfg d al → al.length < 2 ^ T.bits cfg →
      view (d.tryFormat cfg T n) = .ok (t, i) → 1 ≤ n ∧ t = spell al (column al.length (n - 1)) := by
    intro cfg T n t i hp hT ht
    have h1 : 1 ≤ n := Nat.pos_of_ne_zero fun h => by
      subst h
      rw [show d.tryFormat cfg T 0 = .err .noZeroSymbol from format_one_zero (0 + 64) 7 hp hz h0 hT (by omega)] at ht
      cases ht
    have := (format_one (n := n) (n + 64) 7 hp hz h0 hb hT h1 (by omega)).view
    rw [show digitTryFormat cfg T (n + 64) (7 + 1) d n = d.tryFormat cfg T n from rfl, ht] at this
    exact ⟨h1, (deliver_ok this.symm).symm⟩
  obtain ⟨n1, e1⟩ := word hp hT ht
  obtain ⟨m1, e2⟩ := word hp' hT' hu
  have := column_search hb hd (n - 1) (m - 1) e1 e2
  rwa [Nat.sub_add_cancel n1, Nat.sub_add_cancel m1] at this

example : view (letterUpper.oneBased.tryFormat ⟨true, .w64, true⟩ .u16 2056) = .ok (['C', 'A', 'B'], true) ∧
    view (letterUpper.oneBased.tryFormat ⟨false, .w16, true⟩ .u8 3) = .ok (['C'], true) ∧ front 26 2 2056 = 3 := by
  decide +kernel

/-- C105, the named systems: the nineteen decimal systems, the hexadecimal ones and the ten alphabets. -/
theorem C105_named {cfg cfg' : Cfg} {T T' : IntTy} {n m : Nat} (hn : T.Fits cfg n) (hm : T'.Fits cfg' m) {t u : List Char} {i j : Bool} :
    (∀ p ∈ digitCounters, view (tryToNominal cfg T n p.1.system) = .ok (t, i) → view (tryToNominal cfg' T' m p.1.system) = .ok (u, j) →
      (u <+: t ↔ ∃ k, m = n / p.2.length ^ k ∧ (m = 0 → n = 0)) ∧
      (u <:+ t ↔ u.length ≤ t.length ∧ n % p.2.length ^ u.length = m) ∧
      (u <:+: t ↔ ∃ k, k + u.length ≤ t.length ∧ n / p.2.length ^ k % p.2.length ^ u.length = m)) ∧
    ∀ p ∈ letterCounters, view (tryToNominal cfg T n p.1.system) = .ok (t, i) → view (tryToNominal cfg' T' m p.1.system) = .ok (u, j) →
      (u <+: t ↔ ∃ k, m + 1 = front p.2.length k (n + 1)) ∧
      (u <:+ t ↔ u.length ≤ t.length ∧ (n + 1) % p.2.length ^ u.length = (m + 1) % p.2.length ^ u.length) ∧
      (u <:+: t ↔ ∃ k, k + u.length ≤ t.length ∧ front p.2.length k (n + 1) % p.2.length ^ u.length = (m + 1) % p.2.length ^ u.length) := by
  constructor
  · intro p hp ht hu
    obtain ⟨d, h1, h2, h3, h4⟩ := digitCounters_shape p hp
    rw [h1] at ht hu
    have hd : ∀ p ∈ digitCounters, p.2.Nodup := by decide +kernel
    exact C105_zero (h3 cfg) (h3 cfg') h2 h4 (hd p hp) hn hm ht hu
  · intro p hp ht hu
    have hd : ∀ p ∈ letterCounters, p.2.Nodup ∧ 1 ≤ p.2.length := by decide +kernel
    have ha : ∀ n, answer p.1 n = columnName p.2 n := by
      intro n
      simp only [letterCounters, List.mem_cons, List.not_mem_nil, or_false] at hp
      rcases hp with h | h | h | h | h | h | h | h | h | h <;> subst h <;> rfl
    rw [C51_catalogue p.1 hn, ha] at ht
    rw [C51_catalogue p.1 hm, ha] at hu
    exact column_search (hd p hp).2 (hd p hp).1 n m (deliver_ok ht).symm (deliver_ok hu).symm

/-- ff0 in hexadecimals contains f0; and KA of the alphabet ends with A. -/
example : view (tryToNominal ⟨true, .w64, true⟩ .u16 0xff0 Named.hexLower.system) = .ok (['f', 'f', '0'], true) ∧
    view (tryToNominal ⟨true, .w64, true⟩ .u8 0xf0 Named.hexLower.system) = .ok (['f', '0'], true) ∧ 0xff0 % 16 ^ 2 = 0xf0 ∧
    view (tryToNominal ⟨true, .w64, true⟩ .u16 286 Named.letterUpper.system) = .ok (['K', 'A'], true) ∧
    view (tryToNominal ⟨true, .w64, true⟩ .u8 0 Named.letterUpper.system) = .ok (['A'], true) ∧ 287 % 26 ^ 1 = 1 % 26 ^ 1 := by
  decide +kernel

/-! ## Labels that begin or end with others -/

/-- A number and another one whose label begins with its label. -/
def beginner : Named → Nat × Nat
  | .letterUpper | .letterLower => (0, 26)
  | .greekUpper | .greekLower => (0, 24)
  | .hiragana | .katakana => (0, 46)
  | .hiraganaIroha | .katakanaIroha => (0, 47)
  | .hangeulJamo | .hangeulSyllable => (0, 14)
  | .cjkHeavenlyStem => (11, 110)
  | .cjkEarthlyBranch => (13, 130)
  | .hexUpper | .hexLower => (1, 16)
  | .romanLower | .romanUpper => (1, 2)
  | .hebrew => (120, 121)
  | .circledNumber => (51, 510)
  | .doubleCircledNumber => (11, 110)
  | .armenianUpper | .armenianLower | .georgian | .ethiopic | .japaneseFormal | .japaneseInformal | .hangeulFormal | .hanjaFormal
  | .hanjaInformal | .chinese _ _ => (10, 11)
  | _ => (1, 10)

/-- A number and another one whose label ends with its label. -/
def ender : Named → Nat × Nat
  | .letterUpper | .letterLower => (0, 26)
  | .greekUpper | .greekLower => (0, 24)
  | .hiragana | .katakana => (0, 46)
  | .hiraganaIroha | .katakanaIroha => (0, 47)
  | .hangeulJamo | .hangeulSyllable => (0, 14)
  | .cjkHeavenlyStem => (11, 111)
  | .cjkEarthlyBranch => (13, 113)
  | .hexUpper | .hexLower => (1, 17)
  | .romanLower | .romanUpper => (1, 2)
  | .hebrew => (21, 121)
  | .circledNumber => (51, 151)
  | .doubleCircledNumber => (11, 111)
  | _ => (1, 21)

theorem beginner_spec (s : Named) : (beginner s).1 ≠ (beginner s).2 ∧
    ((s ≠ .circledNumber → (beginner s).1 < 256 ∧ (beginner s).2 < 256) ∧ (beginner s).1 < 1024 ∧ (beginner s).2 < 1024) ∧
    (utf8Len (textOr s (beginner s).1) ≤ 62 ∧ utf8Len (textOr s (beginner s).2) ≤ 62 ∧ textOr s (beginner s).1 <+: textOr s (beginner s).2) ∧
    (isCircled s = false → (ownText s (beginner s).1).isSome = true ∧ (ownText s (beginner s).2).isSome = true) := by
  cases s with
  | chinese k o =>
    obtain ⟨u, a⟩ := o
    refine ⟨by simp [beginner], ⟨fun _ => by simp [beginner], by simp [beginner]⟩, ?_⟩
    cases u <;> cases k <;> cases a <;> decide +kernel
  | circledNumber => exact ⟨by decide, ⟨fun h => absurd rfl h, by decide⟩, by decide +kernel⟩
  | _ => exact ⟨by decide, ⟨fun _ => by decide, by decide⟩, by decide +kernel⟩

theorem ender_spec (s : Named) : (ender s).1 ≠ (ender s).2 ∧ ((ender s).1 < 256 ∧ (ender s).2 < 256) ∧
    (utf8Len (textOr s (ender s).1) ≤ 62 ∧ utf8Len (textOr s (ender s).2) ≤ 62 ∧ textOr s (ender s).1 <:+ textOr s (ender s).2) ∧
    (isCircled s = false → (ownText s (ender s).1).isSome = true ∧ (ownText s (ender s).2).isSome = true) := by
  cases s with
  | chinese k o =>
    obtain ⟨u, a⟩ := o
    refine ⟨by simp [ender], by simp [ender], ?_⟩
    cases u <;> cases k <;> cases a <;> decide +kernel
  | _ => decide +kernel

theorem own_textOr {cfg : Cfg} {T : IntTy} {n : Nat} {s : Named} (hn : T.Fits cfg n) (hl : utf8Len (textOr s n) ≤ 62)
    (ho : (ownText s n).isSome = true) : ∃ i, view (tryToNominal cfg T n s.system) = .ok (textOr s n, i) := by
  cases ha : answer s n with
  | text t =>
    have e : textOr s n = t := by unfold textOr; rw [ha]
    rw [e] at hl ⊢
    obtain ⟨x, hx, tx⟩ := (named_label hn ha hl).1
    exact view_of_string hx tx
  | noZero => unfold ownText at ho; rw [ha] at ho; cases ho
  | outOfBounds => unfold ownText at ho; rw [ha] at ho; cases ho

theorem circled_length {cfg : Cfg} {T : IntTy} {n : Nat} {s : Named} (hs : isCircled s = true) (hn : T.Fits cfg n) {t : List Char} {i : Bool}
    (ht : view (tryToNominal cfg T n s.system) = .ok (t, i)) : t.length = 1 := by
  rw [C51_catalogue s hn] at ht
  have ha := present_text ht
  have key : (∀ n < 51, ∀ t, answer .circledNumber n = .text t → t.length = 1) ∧
      (∀ n < 11, ∀ t, answer .doubleCircledNumber n = .text t → t.length = 1) := by
    have h : (∀ n < 51, (textOr .circledNumber n).length = 1) ∧ (∀ n < 11, (textOr .doubleCircledNumber n).length = 1) := by decide +kernel
    constructor
    · intro n hn t ha
      have := h.1 n hn
      unfold textOr at this
      rwa [ha] at this
    · intro n hn t ha
      have := h.2 n hn
      unfold textOr at this
      rwa [ha] at this
  cases s <;> first | (cases hs; done) | skip
  · refine key.1 n ?_ t ha
    simp only [answer] at ha
    split at ha
    · omega
    · cases ha
  · refine key.2 n ?_ t ha
    simp only [answer] at ha
    split at ha
    · cases ha
    · split at ha
      · omega
      · cases ha

/-- C105, who is free of it: the labels of a system's own are such that none begins with another, or none ends with another, only for the
circled and the double circled numbers. Every other named system has two such labels already among the numbers of a `u8`. -/
theorem C105_own {cfg : Cfg} {T : IntTy} (s : Named) :
    ((∀ n m t u i j, T.Fits cfg n → T.Fits cfg m → view (tryToNominal cfg T n s.system) = .ok (t, i) →
        view (tryToNominal cfg T m s.system) = .ok (u, j) → u <+: t → m = n) ↔ s = .circledNumber ∨ s = .doubleCircledNumber) ∧
    ((∀ n m t u i j, T.Fits cfg n → T.Fits cfg m → view (tryToNominal cfg T n s.system) = .ok (t, i) →
        view (tryToNominal cfg T m s.system) = .ok (u, j) → u <:+ t → m = n) ↔ s = .circledNumber ∨ s = .doubleCircledNumber) := by
  have hb := bits_ge cfg T
  have same : s = .circledNumber ∨ s = .doubleCircledNumber → ∀ n m t u i j, T.Fits cfg n → T.Fits cfg m →
      view (tryToNominal cfg T n s.system) = .ok (t, i) → view (tryToNominal cfg T m s.system) = .ok (u, j) →
      u.length = t.length ∧ (u = t → m = n) := by
    intro hs n m t u i j hn hm ht hu
    have hc : isCircled s = true := by rcases hs with rfl | rfl <;> rfl
    refine ⟨by rw [circled_length hc hn ht, circled_length hc hm hu], ?_⟩
    rintro rfl
    exact C56_injective s hm hn hu ht
  have circ : isCircled s = true → s = .circledNumber ∨ s = .doubleCircledNumber := by
    intro h
    cases s <;> first | (cases h; done) | exact .inl rfl | exact .inr rfl
  refine ⟨⟨fun h => ?_, fun hs n m t u i j hn hm ht hu hp => ?_⟩, ⟨fun h => ?_, fun hs n m t u i j hn hm ht hu hp => ?_⟩⟩
  · refine Classical.byContradiction fun hs => ?_
    have hc : isCircled s = false := Bool.eq_false_iff.2 fun h => hs (circ h)
    obtain ⟨hd, ⟨hl, -⟩, ⟨l1, l2, hp⟩, ho⟩ := beginner_spec s
    obtain ⟨o1, o2⟩ := ho hc
    obtain ⟨b1, b2⟩ := hl (by rintro rfl; cases hc)
    have f1 : T.Fits cfg (beginner s).1 := Nat.lt_of_lt_of_le b1 hb
    have f2 : T.Fits cfg (beginner s).2 := Nat.lt_of_lt_of_le b2 hb
    obtain ⟨i, hi⟩ := own_textOr f1 l1 o1
    obtain ⟨j, hj⟩ := own_textOr f2 l2 o2
    exact hd (h _ _ _ _ _ _ f2 f1 hj hi hp)
  · obtain ⟨hl, he⟩ := same hs n m t u i j hn hm ht hu
    exact he (hp.eq_of_length hl)
  · refine Classical.byContradiction fun hs => ?_
    have hc : isCircled s = false := Bool.eq_false_iff.2 fun h => hs (circ h)
    obtain ⟨hd, ⟨b1, b2⟩, ⟨l1, l2, hp⟩, ho⟩ := ender_spec s
    obtain ⟨o1, o2⟩ := ho hc
    have f1 : T.Fits cfg (ender s).1 := Nat.lt_of_lt_of_le b1 hb
    have f2 : T.Fits cfg (ender s).2 := Nat.lt_of_lt_of_le b2 hb
    obtain ⟨i, hi⟩ := own_textOr f1 l1 o1
    obtain ⟨j, hj⟩ := own_textOr f2 l2 o2
    exact hd (h _ _ _ _ _ _ f2 f1 hj hi hp)
  · obtain ⟨hl, he⟩ := same hs n m t u i j hn hm ht hu
    exact he (hp.eq_of_length hl)

example : view (tryToNominal ⟨true, .w64, true⟩ .u8 50 Named.circledNumber.system) = .ok (['㊿'], true) ∧
    view (tryToNominal ⟨true, .w64, true⟩ .u8 120 Named.hebrew.system) = .ok (['ק', 'כ'], true) ∧
    view (tryToNominal ⟨true, .w64, true⟩ .u8 121 Named.hebrew.system) = .ok (['ק', 'כ', 'א'], true) := by
  decide +kernel

theorem circled_free : ∀ n < 256, ∀ m < 256, textOr .circledNumber m <+: textOr .circledNumber n → m = n := by decide +kernel

/-- C105. With the decimal fallback of `to_nominal`, no label begins with another only for the circled numbers of `u8`; and in every system
some label ends with another. -/
theorem C105_to_nominal {cfg : Cfg} {T : IntTy} (s : Named) :
    ((∀ n m t u i j, T.Fits cfg n → T.Fits cfg m → view (toNominal cfg T n s.system) = .ok (t, i) →
        view (toNominal cfg T m s.system) = .ok (u, j) → u <+: t → m = n) ↔ T = .u8 ∧ s = .circledNumber) ∧
    ∃ n m t u i j, T.Fits cfg n ∧ T.Fits cfg m ∧ view (toNominal cfg T n s.system) = .ok (t, i) ∧
        view (toNominal cfg T m s.system) = .ok (u, j) ∧ u <:+ t ∧ m ≠ n := by
  have hb := bits_ge cfg T
  refine ⟨⟨fun h => ?_, ?_⟩, ?_⟩
  · refine Classical.byContradiction fun hs => ?_
    obtain ⟨hd, ⟨hl, hw⟩, ⟨l1, l2, hp⟩, -⟩ := beginner_spec s
    have hf : T.Fits cfg (beginner s).1 ∧ T.Fits cfg (beginner s).2 := by
      by_cases hT : T = .u8
      · obtain ⟨b1, b2⟩ := hl fun e => hs ⟨hT, e⟩
        exact ⟨Nat.lt_of_lt_of_le b1 hb, Nat.lt_of_lt_of_le b2 hb⟩
      · have := bits_wide cfg hT
        exact ⟨Nat.lt_of_lt_of_le hw.1 this, Nat.lt_of_lt_of_le hw.2 this⟩
    obtain ⟨i, hi⟩ := to_nominal_textOr hf.1 l1
    obtain ⟨j, hj⟩ := to_nominal_textOr hf.2 l2
    exact hd (h _ _ _ _ _ _ hf.2 hf.1 hj hi hp)
  · rintro ⟨rfl, rfl⟩ n m t u i j hn hm ht hu hp
    obtain ⟨i', hi⟩ := to_nominal_textOr hn (texts_short n hn).2
    obtain ⟨j', hj⟩ := to_nominal_textOr hm (texts_short m hm).2
    rw [hi] at ht
    rw [hj] at hu
    cases ht
    cases hu
    exact circled_free n hn m hm hp
  · obtain ⟨hd, ⟨b1, b2⟩, ⟨l1, l2, hp⟩, -⟩ := ender_spec s
    have f1 : T.Fits cfg (ender s).1 := Nat.lt_of_lt_of_le b1 hb
    have f2 : T.Fits cfg (ender s).2 := Nat.lt_of_lt_of_le b2 hb
    obtain ⟨i, hi⟩ := to_nominal_textOr f1 l1
    obtain ⟨j, hj⟩ := to_nominal_textOr f2 l2
    exact ⟨_, _, _, _, _, _, f2, f1, hj, hi, hp, hd⟩

example : view (toNominal ⟨true, .w64, true⟩ .u16 51 Named.circledNumber.system) = .ok (['5', '1'], true) ∧
    view (toNominal ⟨true, .w64, true⟩ .u16 510 Named.circledNumber.system) = .ok (['5', '1', '0'], true) ∧
    view (toNominal ⟨true, .w64, true⟩ .u16 151 Named.circledNumber.system) = .ok (['1', '5', '1'], true) := by
  decide +kernel

end Nominals.Props
