import Verif.Proofs.DigitArith

/-! # Results of `digitTryFormat` -/

namespace Nominals

open Nominals.Spec

theorem hasDigits_getD {c : Coll} {al : List Char} (h : HasDigits c al) {i : Nat} (hi : i < al.length) :
    c.digit i = some (al.getD i '?') := by
  rw [h.2 i hi]
  simp [hi]

section

variable {cfg : Cfg} {T : IntTy} {d : DigitSys} {al : List Char} {n : Nat} (fuel depth : Nat)
variable (hp : Plain cfg d al) (hn : T.Fits cfg n)

include hp in
theorem format_unfold (hT : al.length < 2 ^ T.bits cfg) : digitTryFormat cfg T fuel (depth + 1) d n =
    digitLoop cfg T (d.level 0) n fuel (d.level 0).len n true NStr.newReverse := by
  have hl := hp.digits.1
  simp only [digitTryFormat, tryFrom_some (show (d.level 0).len < 2 ^ T.bits cfg by omega), hp.fixed, Bool.false_and,
    Bool.false_eq_true, ↓reduceIte]

/-- The alphabet has more symbols than the integer type has values: the symbol itself. -/
theorem format_wide {c : Coll} (hc : d.level 0 = c) (hd : HasDigits c al) (hu : al.length < 2 ^ cfg.ptr.bits)
    (hT : 2 ^ T.bits cfg ≤ al.length) (hn : T.Fits cfg n) :
    Del cfg.alloc (Error.outOfMemory n) (digitTryFormat cfg T fuel (depth + 1) d n) (spell al [n]) := by
  have hl := hd.1
  have hn' : n < 2 ^ T.bits cfg := hn
  have h1 : T.tryFrom cfg (d.level 0).len = none := by
    rw [hc]; simp [IntTy.tryFrom]; omega
  simp only [digitTryFormat, h1]
  rw [hc, asUsize_of_lt (show n < 2 ^ cfg.ptr.bits by omega), hasDigits_getD hd (show n < al.length by omega)]
  exact ofChar_del cfg _ _

theorem spell_singleton_of_lt {b m : Nat} (h : m < b) : ((m % b) :: digs b (m / b)).reverse = [m] := by
  rw [Nat.mod_eq_of_lt h, Nat.div_eq_of_lt h, digs_zero]
  rfl

theorem column_of_lt {b m : Nat} (h : m < b) : column b m = [m] := by
  rw [column_eq (by omega), bij_pos (by omega) (by omega), Nat.add_sub_cancel, Nat.mod_eq_of_lt h, Nat.div_eq_of_lt h,
    bij_zero]
  rfl

include hp hn in
theorem format_zero (hz : (d.level 0).hasZero = true) (hb : 2 ≤ al.length) (hf : n + 2 ≤ fuel) :
    Del cfg.alloc (Error.outOfMemory n) (digitTryFormat cfg T fuel (depth + 1) d n)
      (spell al ((n % al.length) :: digs al.length (n / al.length)).reverse) := by
  have hl := hp.digits.1
  by_cases hT : al.length < 2 ^ T.bits cfg
  · rw [format_unfold fuel depth hp hT, loop_zero_first (by rw [hl]; exact hp.usize) (by rw [hl]; exact hT) hz (by omega) _ _ _ (by omega),
      hl]
    have := emit_del (cfg := cfg) (n := n) hp.digits ((n % al.length) :: digs al.length (n / al.length)) (by
      intro d hd
      rcases List.mem_cons.mp hd with h | h
      · rw [h]; exact Nat.mod_lt _ (by omega)
      · exact digs_lt d h) NStr.newReverse [] NStr.newReverse_is (.inr (by simp))
    simpa using this
  · have hn' : n < 2 ^ T.bits cfg := hn
    rw [spell_singleton_of_lt (by omega)]
    exact format_wide fuel depth rfl hp.digits hp.usize (by omega) hn

include hp hn in
theorem format_column (hz : (d.level 0).hasZero = false) (h0 : (d.level 0).zeroBased = true) (hb : 1 ≤ al.length)
    (hf : n + 2 ≤ fuel) :
    Del cfg.alloc (Error.outOfMemory n) (digitTryFormat cfg T fuel (depth + 1) d n) (spell al (column al.length n)) := by
  have hl := hp.digits.1
  by_cases hT : al.length < 2 ^ T.bits cfg
  · rw [format_unfold fuel depth hp hT, loop_bij_first0 (by rw [hl]; exact hp.usize) (by rw [hl]; exact hT) hz h0 (by omega) _ _ _ (by omega),
      hl, column_eq hb]
    have := emit_del (cfg := cfg) (n := n) hp.digits (bij al.length (n + 1)) (fun d => bij_lt d) NStr.newReverse [] NStr.newReverse_is (.inr (by simp))
    simpa using this
  · have hn' : n < 2 ^ T.bits cfg := hn
    rw [column_of_lt (by omega)]
    exact format_wide fuel depth rfl hp.digits hp.usize (by omega) hn

include hp in
theorem format_one_zero (hz : (d.level 0).hasZero = false) (h0 : (d.level 0).zeroBased = false)
    (hT : al.length < 2 ^ T.bits cfg) (hf : 1 ≤ fuel) :
    digitTryFormat cfg T fuel (depth + 1) d 0 = .err .noZeroSymbol := by
  obtain ⟨fuel, rfl⟩ : ∃ k, fuel = k + 1 := ⟨fuel - 1, by omega⟩
  rw [format_unfold _ depth hp hT]
  simp [digitLoop, hz, h0, Res.bind]

include hp in
theorem format_one (hz : (d.level 0).hasZero = false) (h0 : (d.level 0).zeroBased = false) (hb : 1 ≤ al.length)
    (hT : al.length < 2 ^ T.bits cfg) (hn1 : 1 ≤ n) (hf : n + 2 ≤ fuel) :
    Del cfg.alloc (Error.outOfMemory n) (digitTryFormat cfg T fuel (depth + 1) d n)
      (spell al (column al.length (n - 1))) := by
  have hl := hp.digits.1
  rw [format_unfold fuel depth hp hT, loop_bij_first1 (by rw [hl]; exact hp.usize) (by rw [hl]; exact hT) hz h0 (by omega) _ _ _ (by omega),
    if_neg (by omega), hl, column_eq hb, show n - 1 + 1 = n by omega]
  have := emit_del (cfg := cfg) (n := n) hp.digits (bij al.length n) (fun d => bij_lt d) NStr.newReverse [] NStr.newReverse_is (.inr (by simp))
  simpa using this

end

/-! ## Adapters -/

theorem oneBased_plain {cfg : Cfg} {d : DigitSys} {al : List Char} (h : Plain cfg d al) : Plain cfg d.oneBased al :=
  ⟨rfl, ⟨h.digits.1, h.digits.2⟩, h.usize⟩

theorem chain_hasDigits {a b : Coll} {x y : List Char} (ha : HasDigits a x) (hb : HasDigits b y) :
    HasDigits (DigitSys.chainColl a b) (x ++ y) := by
  refine ⟨by simp [DigitSys.chainColl, ha.1, hb.1], fun i hi => ?_⟩
  simp only [DigitSys.chainColl, ha.1]
  split
  · rename_i h
    rw [List.getElem?_append_right h]
    exact hb.2 _ (by simp at hi; omega)
  · rename_i h
    rw [List.getElem?_append_left (by omega)]
    exact ha.2 _ (by omega)

theorem restrict_hasDigits {d : DigitSys} {x : List Char} (h : HasDigits (d.level 0) x) {count : Nat}
    (hc : count ≤ x.length) : HasDigits ((d.restrict count).level 0) (x.take count) := by
  refine ⟨by simp [DigitSys.restrict]; omega, fun i hi => ?_⟩
  have hi' : i < count := by simp at hi; omega
  simp only [DigitSys.restrict]
  rw [List.getElem?_take, if_pos hi']
  exact h.2 i (by omega)

theorem digitSetNew_hasDigits (al : List Char) : HasDigits ((DigitSys.digitSetNew al).level 0) al :=
  ⟨rfl, fun _ _ => rfl⟩

theorem digitSetZeroless_hasDigits (al : List Char) : HasDigits ((DigitSys.digitSetZeroless al).level 0) al :=
  ⟨rfl, fun _ _ => rfl⟩

theorem named_hasDigits {d : DigitSys} {al : List Char} (h : HasDigits (d.level 0) al) :
    HasDigits (d.named.level 0) al := h

/-- Two first-level collections that differ only in `zeroBased` behave the same when they have a zero digit. -/
theorem digitLoop_zeroBased_irrelevant {cfg : Cfg} {T : IntTy} {c c' : Coll} {n : Nat} (hz : c.hasZero = true)
    (hz' : c'.hasZero = true) (hlen : c'.len = c.len) (hdig : c'.digit = c.digit) (fuel count r : Nat) (f : Bool) (s : NStr) :
    digitLoop cfg T c' n fuel count r f s = digitLoop cfg T c n fuel count r f s := by
  induction fuel generalizing count r f s with
  | zero => rfl
  | succ fuel ih =>
    simp only [digitLoop, hz, hz', hlen, hdig, Bool.not_true, Bool.false_and, Bool.false_eq_true, ↓reduceIte]
    split
    · refine Res.bind_congr _ fun r => Res.bind_congr _ fun i => Res.bind_congr _ fun ch => Res.bind_congr _ fun s =>
        Res.bind_congr _ fun r => ?_
      split
      · exact ih _ _ _ _
      · rfl
    · rfl

/-! ## No panic -/

/-- Neither a panic nor undefined behaviour. -/
def Safe {ε α : Type} (r : Res ε α) : Prop := r ≠ .panic ∧ r ≠ .ub

theorem Del.safe {ε : Type} {alloc : Bool} {e : ε} {r : Res ε NStr} {t : List Char} (h : Del alloc e r t) : Safe r := by
  cases h <;> simp [Safe]

theorem digitLoop_safe {cfg : Cfg} {T : IntTy} {c : Coll} {al : List Char} {n : Nat} (hd : HasDigits c al)
    (hu : al.length < 2 ^ cfg.ptr.bits) (hb : 1 ≤ al.length) (fuel r : Nat) (f : Bool) (s : NStr) (t : List Char)
    (hs : s.Is t) (ha : cfg.alloc = true ∨ utf8Len t ≤ 62) :
    Safe (digitLoop cfg T c n fuel c.len r f s) := by
  induction fuel generalizing r f s t with
  | zero => simp [digitLoop, Safe]
  | succ fuel ih =>
    have hl := hd.1
    have tail : ∀ r', Safe ((remT (ε := Error) r' c.len).bind fun idx =>
        (Res.ofIndex (c.digit (asUsize cfg idx))).bind fun ch =>
        ((s.pushFront cfg ch).withNominal n).bind fun formatted =>
        (divT r' c.len).bind fun remaining =>
        match T.tryFrom cfg c.len with
        | some count => digitLoop cfg T c n fuel count remaining false formatted
        | none => .err (.outOfBounds n)) := by
      intro r'
      have hm := Nat.mod_lt r' (show c.len > 0 by omega)
      simp only [remT, divT, show c.len ≠ 0 by omega, ↓reduceIte, Res.bind,
        asUsize_of_lt (show r' % c.len < 2 ^ cfg.ptr.bits by omega), hasDigits_getD hd (show r' % c.len < al.length by omega),
        Res.ofIndex]
      have h3 := (hs.pushFront ha (al.getD (r' % c.len) '?')).withNominal (n := n)
      generalize (s.pushFront cfg (al.getD (r' % c.len) '?')).withNominal n = q at h3
      cases h3 with
      | ok s' t' h4 h5 =>
        simp only
        split
        · rename_i v hv
          have : v = c.len := by
            unfold IntTy.tryFrom at hv
            split at hv <;> simp_all
          subst this
          exact ih _ _ _ _ h4 h5
        · simp [Safe]
      | err t' h4 h5 => simp [Safe]
    simp only [digitLoop]
    split
    · split
      · split
        · simp [Safe, Res.bind]
        · rename_i h1 h2 h3
          have hr : r ≠ 0 := by
            intro h0
            simp [h0] at h3 h2
            simp_all
          simp only [subT_le (show 1 ≤ r by omega)]
          exact tail (r - 1)
      · exact tail r
    · simp [Safe]

theorem digitTryFormat_safe {cfg : Cfg} {T : IntTy} {d : DigitSys} {al : List Char} {n : Nat} (hp : Plain cfg d al)
    (hb : 1 ≤ al.length) (hn : T.Fits cfg n) (fuel depth : Nat) :
    Safe (digitTryFormat cfg T fuel (depth + 1) d n) := by
  by_cases hT : al.length < 2 ^ T.bits cfg
  · rw [format_unfold fuel depth hp hT]
    exact digitLoop_safe hp.digits hp.usize hb _ _ _ _ [] NStr.newReverse_is (.inr (by simp))
  · exact (format_wide fuel depth rfl hp.digits hp.usize (by omega) hn).safe

/-! ## One-symbol zero-digit collections -/

theorem one_symbol_step {cfg : Cfg} {T : IntTy} {c : Coll} {ch : Char} {n : Nat} (hd : HasDigits c [ch])
    (hz : c.hasZero = true) (fuel r : Nat) (hr : r ≠ 0) (f : Bool) (s : NStr) :
    digitLoop cfg T c n (fuel + 1) 1 r f s =
      ((s.pushFront cfg ch).withNominal n).bind fun s' => digitLoop cfg T c n fuel 1 r false s' := by
  have hl : c.len = 1 := hd.1
  have h1 : T.tryFrom cfg c.len = some 1 := by
    rw [hl]
    refine tryFrom_some ?_
    have h8 : 0 < T.bits cfg := by
      cases T <;> simp [IntTy.bits]
      cases cfg.ptr <;> simp [PtrWidth.bits]
    exact Nat.one_lt_two_pow (by omega)
  have h2 : asUsize cfg 0 = 0 := by simp [asUsize]
  have h3 : c.digit 0 = some ch := by rw [hd.2 0 (by simp)]; rfl
  simp only [digitLoop, ne_eq, hr, not_false_eq_true, true_or, ↓reduceIte, hz, Bool.not_true, Bool.false_and,
    Bool.false_eq_true, Res.bind, remT, divT, Nat.one_ne_zero, Nat.mod_one, Nat.div_one, h1, h2, h3, Res.ofIndex]

theorem one_symbol_diverges {cfg : Cfg} {T : IntTy} {c : Coll} {ch : Char} {n : Nat} (ha : cfg.alloc = true)
    (hd : HasDigits c [ch]) (hz : c.hasZero = true) (fuel r : Nat) (hr : r ≠ 0) (f : Bool) (s : NStr) (t : List Char)
    (hs : s.Is t) : digitLoop cfg T c n fuel 1 r f s = .timeout := by
  induction fuel generalizing f s t with
  | zero => rfl
  | succ fuel ih =>
    rw [one_symbol_step hd hz fuel r hr]
    have h3 := (hs.pushFront (cfg := cfg) (.inl ha) ch).withNominal (n := n)
    generalize (s.pushFront cfg ch).withNominal n = q at h3
    cases h3 with
    | ok s' t' h4 h5 => exact ih _ _ _ h4
    | err t' h4 h5 => rw [ha] at h4; cases h4

theorem one_symbol_fails {cfg : Cfg} {T : IntTy} {c : Coll} {ch : Char} {n : Nat} (ha : cfg.alloc = false)
    (hd : HasDigits c [ch]) (hz : c.hasZero = true) (fuel r : Nat) (hr : r ≠ 0) (f : Bool) (s : NStr) (t : List Char)
    (hs : s.Is t) (hl : utf8Len t ≤ 62) (hf : 63 ≤ fuel + utf8Len t) :
    digitLoop cfg T c n fuel 1 r f s = .err (.outOfMemory n) := by
  induction fuel generalizing f s t with
  | zero => omega
  | succ fuel ih =>
    rw [one_symbol_step hd hz fuel r hr]
    have h3 := (hs.pushFront (cfg := cfg) (.inr hl) ch).withNominal (n := n)
    have hlen : utf8Len (ch :: t) = ch.utf8Size + utf8Len t := by simp
    have hpos := utf8Size_pos ch
    generalize (s.pushFront cfg ch).withNominal n = q at h3
    cases h3 with
    | ok s' t' h4 h5 =>
      rw [ha] at h5
      have h5 : utf8Len (ch :: t) ≤ 62 := by simpa using h5
      exact ih _ _ _ h4 h5 (by omega)
    | err t' h4 h5 => rfl

end Nominals
