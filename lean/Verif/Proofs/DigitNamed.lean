import Verif.Proofs.DigitFormat
import Verif.Model.Tables

/-! # Named digit collections, decimal printing, emitting undefined digits -/

namespace Nominals

open Nominals.Spec

theorem bits_ge (cfg : Cfg) (T : IntTy) : 256 ≤ 2 ^ T.bits cfg := by
  cases T <;> simp [IntTy.bits]
  cases cfg.ptr <;> simp [PtrWidth.bits]

theorem ptr_ge (cfg : Cfg) : 65536 ≤ 2 ^ cfg.ptr.bits := by
  cases cfg.ptr <;> simp [PtrWidth.bits]

theorem bits_le (cfg : Cfg) (T : IntTy) : T.bits cfg ≤ 128 := by
  cases T <;> simp [IntTy.bits]
  cases cfg.ptr <;> simp [PtrWidth.bits]

theorem fits_lt {cfg : Cfg} {T : IntTy} {n : Nat} (h : T.Fits cfg n) : n < 2 ^ 128 :=
  Nat.lt_of_lt_of_le h (Nat.pow_le_pow_right (by omega) (bits_le cfg T))

theorem toDigits_digs {b : Nat} (hb : 2 ≤ b) (n : Nat) :
    Nat.toDigits b n = ((n % b) :: digs b (n / b)).reverse.map Nat.digitChar := by
  induction n using Nat.strongRecOn with
  | _ n ih =>
    rw [Nat.toDigits_eq_if (by omega)]
    split
    · rename_i h
      rw [spell_singleton_of_lt h]
      rfl
    · rename_i h
      have hd : n / b ≠ 0 := by
        intro h0
        rcases Nat.div_eq_zero_iff.mp h0 with h | h <;> omega
      rw [ih _ (Nat.div_lt_self (by omega) (by omega)), ← digs_pos hd hb, List.reverse_cons, List.map_append]
      rfl

theorem numeral_toDigits {b n : Nat} (hb : 2 ≤ b) {ds : List Nat} (h : IsNumeral b n ds) :
    Nat.toDigits b n = ds.map Nat.digitChar := by
  rw [toDigits_digs hb, numeral_unique hb h (loop_numeral hb)]

theorem spell_eq_map {al : List Char} {f : Nat → Char} {b : Nat} (h : ∀ i, i < b → al.getD i '?' = f i) {ds : List Nat}
    (hd : ∀ d ∈ ds, d < b) : spell al ds = ds.map f := by
  unfold spell
  exact List.map_congr_left fun d hd' => h d (hd d hd')

theorem utf8Len_ascii {t : List Char} (h : ∀ c ∈ t, c.utf8Size = 1) : utf8Len t = t.length := by
  induction t with
  | nil => rfl
  | cons c t ih =>
    rw [utf8Len_cons, h c (by simp), ih fun c hc => h c (by simp [hc]), List.length_cons, Nat.add_comm]

theorem digit_lt10 : ∀ i, i < 10 → decimalDigits.getD i '?' = Nat.digitChar i ∧ (Nat.digitChar i).utf8Size = 1 := by
  decide

theorem decimal_plain (cfg : Cfg) : Plain cfg decimal decimalDigits :=
  ⟨rfl, named_hasDigits (digitSetNew_hasDigits _), by have := ptr_ge cfg; simp [decimalDigits]; omega⟩

/-- Decimal text. -/
theorem decimal_del {cfg : Cfg} {T : IntTy} {n : Nat} (hn : T.Fits cfg n) (fuel depth : Nat) (hf : n + 2 ≤ fuel) :
    Del cfg.alloc (Error.outOfMemory n) (digitTryFormat cfg T fuel (depth + 1) decimal n) (Nat.toDigits 10 n) ∧
      utf8Len (Nat.toDigits 10 n) ≤ 62 := by
  have h := format_zero fuel depth (decimal_plain cfg) hn rfl (by decide) hf
  have hnum : IsNumeral 10 n _ := loop_numeral (b := 10) (n := n) (by omega)
  have hl : decimalDigits.length = 10 := rfl
  rw [hl, spell_eq_map (b := 10) (fun i hi => (digit_lt10 i hi).1) hnum.digits, ← numeral_toDigits (by omega) hnum] at h
  refine ⟨h, ?_⟩
  rw [numeral_toDigits (by omega) hnum, utf8Len_ascii, List.length_map]
  · have := (numeral_length hnum).2.2 39 (by omega) (Nat.lt_of_lt_of_le (fits_lt hn) (by decide))
    omega
  · intro c hc
    obtain ⟨i, hi, rfl⟩ := List.mem_map.mp hc
    exact (digit_lt10 i (hnum.digits i hi)).2

/-! ## Undefined digits -/

theorem emit_panic {cfg : Cfg} (ha : cfg.alloc = true) {c : Coll} {n : Nat} (ds : List Nat) (hd : ∃ d ∈ ds, c.digit d = none)
    (s : NStr) (t : List Char) (hs : s.Is t) : emit cfg c n ds s = .panic := by
  induction ds generalizing s t with
  | nil => simp at hd
  | cons d ds ih =>
    cases h : c.digit d with
    | none => simp [emit, h, Res.ofIndex, Res.bind]
    | some ch =>
      simp only [emit, h, Res.ofIndex, Res.bind]
      have h3 := (hs.pushFront (cfg := cfg) (.inl ha) ch).withNominal (n := n)
      generalize (s.pushFront cfg ch).withNominal n = q at h3
      have hd' : ∃ d ∈ ds, c.digit d = none := by
        obtain ⟨e, he, hn⟩ := hd
        rcases List.mem_cons.mp he with h1 | h1
        · subst h1; rw [h] at hn; cases hn
        · exact ⟨e, h1, hn⟩
      cases h3 with
      | ok s' t' h4 h5 => exact ih hd' _ _ h4
      | err t' h4 h5 => rw [ha] at h4; cases h4

end Nominals
