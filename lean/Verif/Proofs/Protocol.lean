import Verif.Spec.Protocol
import Verif.Proofs.Dyn

/-! # Formatting as a conversation -/

namespace Nominals.Conversation

open Nominals Nominals.Spec

/-- A conversation with one collection. -/
def talk {σ : Type} (c : DynColl σ) : σ → List Call → Option σ
  | w, [] => some w
  | w, e :: rest => (reply c w e).bind fun w => talk c w rest

section
variable {σ : Type}

theorem converse_map (d : DynSys σ) (k : Nat) : ∀ (l : List Call) (w : σ), converse d w (l.map (k, ·)) = talk (d.level k) w l := by
  intro l
  induction l with
  | nil => intro w; rfl
  | cons e l ih => intro w; simp only [List.map_cons, converse, talk, ih]

theorem talk_append (c : DynColl σ) : ∀ (l l' : List Call) (w : σ), talk c w (l ++ l') = (talk c w l).bind fun w => talk c w l' := by
  intro l
  induction l with
  | nil => intro l' w; rfl
  | cons e l ih =>
    intro l' w
    simp only [List.cons_append, talk, ih]
    cases reply c w e <;> rfl

theorem reply_hasZero {c : DynColl σ} {w w' : σ} {a : Bool} : reply c w (.hasZero a) = some w' ↔ c.hasZero w = .ok (a, w') := by
  simp only [reply]
  cases h : c.hasZero w with
  | ok p =>
    obtain ⟨b, v⟩ := p
    simp only [Res.ok.injEq, Prod.mk.injEq]
    by_cases hb : b = a <;> simp [hb]
  | err e => exact e.elim
  | _ => simp

theorem reply_zeroBased {c : DynColl σ} {w w' : σ} {a : Bool} : reply c w (.zeroBased a) = some w' ↔ c.zeroBased w = .ok (a, w') := by
  simp only [reply]
  cases h : c.zeroBased w with
  | ok p =>
    obtain ⟨b, v⟩ := p
    simp only [Res.ok.injEq, Prod.mk.injEq]
    by_cases hb : b = a <;> simp [hb]
  | err e => exact e.elim
  | _ => simp

theorem reply_fixed {c : DynColl σ} {w w' : σ} {a : Bool} : reply c w (.fixed a) = some w' ↔ c.fixed w = .ok (a, w') := by
  simp only [reply]
  cases h : c.fixed w with
  | ok p =>
    obtain ⟨b, v⟩ := p
    simp only [Res.ok.injEq, Prod.mk.injEq]
    by_cases hb : b = a <;> simp [hb]
  | err e => exact e.elim
  | _ => simp

theorem reply_isEmpty {c : DynColl σ} {w w' : σ} {a : Bool} : reply c w (.isEmpty a) = some w' ↔ c.isEmpty w = .ok (a, w') := by
  simp only [reply]
  cases h : c.isEmpty w with
  | ok p =>
    obtain ⟨b, v⟩ := p
    simp only [Res.ok.injEq, Prod.mk.injEq]
    by_cases hb : b = a <;> simp [hb]
  | err e => exact e.elim
  | _ => simp

theorem reply_len {c : DynColl σ} {w w' : σ} {a : Nat} : reply c w (.len a) = some w' ↔ c.len w = .ok (a, w') := by
  simp only [reply]
  cases h : c.len w with
  | ok p =>
    obtain ⟨b, v⟩ := p
    simp only [Res.ok.injEq, Prod.mk.injEq]
    by_cases hb : b = a <;> simp [hb]
  | err e => exact e.elim
  | _ => simp

theorem reply_digit {c : DynColl σ} {w w' : σ} {i : Nat} {a : Char} : reply c w (.digit i a) = some w' ↔ c.digit i w = .ok (a, w') := by
  simp only [reply]
  cases h : c.digit i w with
  | ok p =>
    obtain ⟨b, v⟩ := p
    simp only [Res.ok.injEq, Prod.mk.injEq]
    by_cases hb : b = a <;> simp [hb]
  | err e => exact e.elim
  | _ => simp

theorem reply_default {c : DynColl σ} {w w' : σ} : reply c w .default = some w' ↔ c.default w = .ok ((), w') := by
  simp only [reply]
  cases h : c.default w with
  | ok p => obtain ⟨b, v⟩ := p; simp
  | err e => exact e.elim
  | _ => simp

/-! ## What a conversation leads to -/

theorem dynSubtract_asks {cfg : Cfg} {T : IntTy} {c : DynColl σ} {w w' : σ} {r : Round} {first : Bool} {m m' : Nat}
    (h : talk c w (r.asks first) = some w') (ht : r.Takes (T.bits cfg) cfg.checks first m m') :
    dynSubtract cfg T c first m w = .ok (m', w') := by
  obtain ⟨a, b, e, i, s, x⟩ := r
  simp only [Round.asks, talk, Option.bind_eq_some_iff] at h
  obtain ⟨w1, h1, h⟩ := h
  rw [reply_hasZero] at h1
  simp only [Round.Takes, Round.fromOne] at ht
  simp only [dynSubtract, dynCondition, h1, Res.call, Res.bind_ok]
  cases a
  · simp only [Bool.false_eq_true, ↓reduceIte, talk, Option.bind_eq_some_iff] at h
    obtain ⟨w2, h2, h⟩ := h
    rw [reply_zeroBased] at h2
    simp only [Bool.false_eq_true, ↓reduceIte, h2, Res.bind_ok]
    simp only [Round.fromOne, Bool.not_false, Bool.true_and] at h ht
    cases hc : (!b || !first)
    · rw [hc] at h ht
      simp only [Bool.false_eq_true, ↓reduceIte, talk, Option.some.injEq] at h ht ⊢
      rw [h, ht]
    · rw [hc] at h ht
      simp only [↓reduceIte, talk, Option.bind_eq_some_iff] at h ht ⊢
      obtain ⟨w3, h3, h⟩ := h
      rw [reply_hasZero] at h3
      simp only [h3, Res.bind_ok]
      simp only [Option.some.injEq] at h
      by_cases hm : m = 0
      · simp only [hm, ↓reduceIte] at ht
        obtain ⟨h4, h5, h6⟩ := ht
        subst h4 h hm
        simp only [Bool.not_true, Bool.false_and, Bool.false_eq_true, ↓reduceIte, decrement, h5, Res.bind_ok, Res.ok.injEq, Prod.mk.injEq, and_true]
        omega
      · simp only [hm, ↓reduceIte] at ht
        subst h
        have : (m == 0) = false := by simp [hm]
        simp only [this, Bool.and_false, Bool.false_eq_true, ↓reduceIte, decrement, hm, Res.bind_ok, Res.ok.injEq, Prod.mk.injEq, and_true]
        omega
  · simp only [↓reduceIte, talk, Option.some.injEq] at h
    simp only [Bool.not_true, Bool.false_and, Bool.false_eq_true, ↓reduceIte] at ht ⊢
    simp only [↓reduceIte, Res.bind_ok, Bool.false_eq_true, h, ht]

/-- The outcome of the formatter agrees with the outcome of a conversation that leaves state `w'`. -/
def Gives (w' : σ) : Res Error (NStr × σ) → Res Error (List Char) → Prop
  | r, .ok t => ∃ s, r = .ok (s, w') ∧ s.Is t
  | r, .err e => r = .err e
  | r, .panic => r = .panic
  | _, .ub => False
  | _, .timeout => False

theorem div_of_eq {m i base q : Nat} (h : m = i + base * q) (hi : i < base) : m / base = q ∧ m % base = i := by
  subst h
  have hb : 0 < base := by omega
  rw [Nat.add_mul_div_left _ _ hb, Nat.add_mul_mod_self_left, Nat.div_eq_of_lt hi, Nat.mod_eq_of_lt hi]
  omega

theorem asUsize_of_lt {cfg : Cfg} {i base : Nat} (hi : i < base) (hb : base < 2 ^ cfg.ptr.bits) : asUsize cfg i = i :=
  Nat.mod_eq_of_lt (by omega)

theorem tryFrom_of_lt {cfg : Cfg} {T : IntTy} {l : Nat} (h : l < 2 ^ T.bits cfg) : T.tryFrom cfg l = some l := by
  simp [IntTy.tryFrom, h]

theorem tryFrom_of_le {cfg : Cfg} {T : IntTy} {l : Nat} (h : 2 ^ T.bits cfg ≤ l) : T.tryFrom cfg l = none := by
  simp [IntTy.tryFrom]; omega

theorem dynLoop_ends {cfg : Cfg} {T : IntTy} {c : DynColl σ} {n fuel base m : Nat} {first : Bool} {t : List Char} {last : List Call}
    {out : Res Error (List Char)} (hb : base < 2 ^ cfg.ptr.bits) (he : Ends cfg.alloc (T.bits cfg) cfg.checks n first base m t last out)
    {w w' : σ} (h : talk c w last = some w') {s : NStr} (hs : s.Is t) (ha : cfg.alloc = true ∨ utf8Len t ≤ 62) :
    Gives w' (dynLoop cfg T c n (fuel + 1) base m first s w) out := by
  cases he with
  | done =>
    rw [dynLoop, if_neg (by simp)]
    simp only [talk, Option.some.injEq] at h
    exact ⟨s, by rw [h], hs⟩
  | noZero =>
    simp only [talk, Option.bind_eq_some_iff] at h
    obtain ⟨w1, h1, w2, h2, w3, h3, h4⟩ := h
    rw [reply_hasZero] at h1 h3
    rw [reply_zeroBased] at h2
    rw [dynLoop, if_pos (by simp)]
    simp [dynSubtract, dynCondition, h1, h2, h3, Res.call, Res.bind, Gives]
  | underflow hc =>
    simp only [talk, Option.bind_eq_some_iff] at h
    obtain ⟨w1, h1, w2, h2, w3, h3, h4⟩ := h
    rw [reply_hasZero] at h1 h3
    rw [reply_zeroBased] at h2
    rw [dynLoop, if_pos (by simp)]
    simp [dynSubtract, dynCondition, h1, h2, h3, Res.call, Res.bind, Gives, decrement, hc]
  | empty r hm ht =>
    rw [dynLoop, if_pos hm, dynSubtract_asks h ht]
    simp [Res.bind, remT, Gives]
  | memory r hm hi hq hal hl =>
    rw [talk_append, Option.bind_eq_some_iff] at h
    obtain ⟨w1, h1, h⟩ := h
    simp only [talk, Option.bind_eq_some_iff] at h
    obtain ⟨w2, h2, h⟩ := h
    rw [reply_digit] at h2
    rename_i q
    obtain ⟨hd, hr⟩ := div_of_eq (base := base) (i := r.index) (q := q) rfl hi
    rw [dynLoop, if_pos hm, dynSubtract_asks h1 hq]
    have hbase : base ≠ 0 := by omega
    simp only [Res.bind_ok, remT, if_neg hbase, hr, asUsize_of_lt hi hb, h2, Res.call]
    have hdel := (hs.pushFront (cfg := cfg) ha r.symbol).withNominal (n := n)
    generalize (s.pushFront cfg r.symbol).withNominal n = p at hdel ⊢
    cases hdel with
    | err t h1 h2 => rfl
    | ok s' t' h1 h2 =>
      exfalso
      rcases h2 with h2 | h2
      · rw [hal] at h2; cases h2
      · omega
  | grown r hm hi hq hal hl =>
    rw [Round.calls, talk_append, Option.bind_eq_some_iff] at h
    obtain ⟨w1, h1, h⟩ := h
    simp only [talk, Option.bind_eq_some_iff] at h
    obtain ⟨w2, h2, w3, h3, h⟩ := h
    rw [reply_digit] at h2
    rw [reply_len] at h3
    rename_i q
    obtain ⟨hd, hr⟩ := div_of_eq (base := base) (i := r.index) (q := q) rfl hi
    rw [dynLoop, if_pos hm, dynSubtract_asks h1 hq]
    have hbase : base ≠ 0 := by omega
    simp only [Res.bind_ok, remT, divT, if_neg hbase, hr, asUsize_of_lt hi hb, h2, Res.call]
    have hdel := (hs.pushFront (cfg := cfg) ha r.symbol).withNominal (n := n)
    generalize (s.pushFront cfg r.symbol).withNominal n = p at hdel ⊢
    cases hdel with
    | err t h1 h2 =>
      exfalso
      rcases hal with h4 | h4
      · rw [h4] at h1; cases h1
      · omega
    | ok s' t' h1 h2 => simp only [Res.bind_ok, h3, tryFrom_of_le hl, Gives]

theorem utf8Len_written_le (rs : List Round) (r : Round) (t : List Char) :
    utf8Len (r.symbol :: t) ≤ utf8Len ((rs.map Round.symbol).reverse ++ r.symbol :: t) := by
  simp

theorem dynLoop_rounds {cfg : Cfg} {T : IntTy} {c : DynColl σ} {n fuel base' m' : Nat} {first' : Bool} {last : List Call}
    {out : Res Error (List Char)} (hlen : UsizeLen cfg c) : ∀ (rs : List Round) (first : Bool) (base m : Nat) (t : List Char) (s : NStr) (w w' : σ),
    base < 2 ^ cfg.ptr.bits → Rounds (T.bits cfg) cfg.checks first base m rs first' base' m' →
    (cfg.alloc = true ∨ utf8Len (symbols rs ++ t) ≤ 62) → s.Is t →
    Ends cfg.alloc (T.bits cfg) cfg.checks n first' base' m' (symbols rs ++ t) last out →
    talk c w (roundCalls first rs ++ last) = some w' →
    Gives w' (dynLoop cfg T c n (fuel + 1 + rs.length) base m first s w) out := by
  intro rs
  induction rs with
  | nil =>
    intro first base m t s w w' hb hr ha hs he h
    obtain ⟨rfl, rfl, rfl⟩ := hr
    exact dynLoop_ends hb he h hs ha
  | cons r rs ih =>
    intro first base m t s w w' hb hr ha hs he h
    obtain ⟨hm, hi, hx, q, hq, hr⟩ := hr
    simp only [symbols, List.map_cons, List.reverse_cons, List.append_assoc, List.singleton_append] at ha he
    have hle := utf8Len_written_le rs r t
    have ha' : cfg.alloc = true ∨ utf8Len (r.symbol :: t) ≤ 62 := ha.imp_right fun h => by omega
    have ha0 : cfg.alloc = true ∨ utf8Len t ≤ 62 := ha'.imp_right fun h => by simp at h; omega
    rw [roundCalls, List.append_assoc, Round.calls, List.append_assoc, talk_append, Option.bind_eq_some_iff] at h
    obtain ⟨w1, h1, h⟩ := h
    simp only [List.cons_append, List.nil_append, talk, Option.bind_eq_some_iff] at h
    obtain ⟨w2, h2, w3, h3, h⟩ := h
    rw [reply_digit] at h2
    rw [reply_len] at h3
    obtain ⟨hd, hmod⟩ := div_of_eq (base := base) (i := r.index) (q := q) rfl hi
    have hbase : base ≠ 0 := by omega
    rw [show fuel + 1 + (r :: rs).length = (fuel + 1 + rs.length) + 1 by simp; omega, dynLoop, if_pos hm, dynSubtract_asks h1 hq]
    simp only [Res.bind_ok, remT, divT, if_neg hbase, hmod, hd, asUsize_of_lt hi hb, h2, Res.call]
    have hdel := (hs.pushFront (cfg := cfg) ha0 r.symbol).withNominal (n := n)
    generalize (s.pushFront cfg r.symbol).withNominal n = p at hdel ⊢
    cases hdel with
    | err t h1 h2 =>
      exfalso
      rcases ha' with h4 | h4
      · rw [h4] at h1; cases h1
      · omega
    | ok s' t' h5 h6 =>
      simp only [Res.bind_ok, h3, tryFrom_of_lt hx]
      exact ih false r.next q (r.symbol :: t) s' w3 w' (hlen _ _ _ h3) hr ha h5 he h

theorem dynTryFormat_session {cfg : Cfg} {T : IntTy} {n : Nat} (d : DynSys σ) (hlen : ∀ k, UsizeLen cfg (d.level k)) {k : Nat}
    {tr : List (Nat × Call)} {out : Res Error (List Char)} (hs : Session cfg T n k tr out) : ∀ {w w' : σ}, converse d w tr = some w' →
    ∃ F D, ∀ fuel depth, F ≤ fuel → D ≤ depth → Gives w' (dynTryFormat cfg T fuel depth ⟨fun j => d.level (k + j)⟩ n w) out := by
  induction hs with
  | @symbol k l c hl =>
    intro w w' h
    simp only [converse, Option.bind_eq_some_iff] at h
    obtain ⟨w1, h1, w2, h2, h⟩ := h
    rw [reply_len] at h1
    rw [reply_digit] at h2
    refine ⟨0, 1, fun fuel depth _ hd => ?_⟩
    obtain ⟨depth, rfl⟩ : ∃ e, depth = e + 1 := ⟨depth - 1, by omega⟩
    simp only [dynTryFormat, Nat.add_zero, h1, Res.call, Res.bind_ok, tryFrom_of_le hl, asUsize, h2]
    have hc := ofChar_del (ε := Error) cfg c (.outOfMemory n)
    have := utf8Size_le c
    generalize NStr.ofChar (ε := Error) cfg c = r at hc ⊢
    cases hc with
    | err t h1 h2 => simp at h2; omega
    | ok s' t' h3 h4 =>
      simp only [Option.some.injEq] at h
      exact ⟨s', by rw [← h]; rfl, h3⟩
  | @digits k l rs first base m last out hl hr ha he =>
    intro w w' h
    rw [converse_map] at h
    simp only [talk, Option.bind_eq_some_iff] at h
    obtain ⟨w1, h1, w2, h2, h⟩ := h
    rw [reply_len] at h1
    rw [reply_fixed] at h2
    refine ⟨1 + rs.length, 1, fun fuel depth hf hd => ?_⟩
    obtain ⟨depth, rfl⟩ : ∃ e, depth = e + 1 := ⟨depth - 1, by omega⟩
    obtain ⟨fuel, rfl⟩ : ∃ e, fuel = e + 1 + rs.length := ⟨fuel - 1 - rs.length, by omega⟩
    simp only [dynTryFormat, Nat.add_zero, h1, Res.call, Res.bind_ok, tryFrom_of_lt hl, dynOutOfRange, h2, Bool.false_eq_true, ↓reduceIte]
    exact dynLoop_rounds (hlen k) rs true l n [] _ _ _ (hlen k _ _ _ h1) hr (by simpa using ha) NStr.newReverse_is (by simpa using he) h
  | @fixedDigits k l z rs first base m last out hl hz hr ha he =>
    intro w w' h
    rw [converse_map] at h
    simp only [talk, Option.bind_eq_some_iff] at h
    obtain ⟨w1, h1, w2, h2, w3, h3, h⟩ := h
    rw [reply_len] at h1
    rw [reply_fixed] at h2
    rw [reply_zeroBased] at h3
    refine ⟨1 + rs.length, 1, fun fuel depth hf hd => ?_⟩
    obtain ⟨depth, rfl⟩ : ∃ e, depth = e + 1 := ⟨depth - 1, by omega⟩
    obtain ⟨fuel, rfl⟩ : ∃ e, fuel = e + 1 + rs.length := ⟨fuel - 1 - rs.length, by omega⟩
    have hcond : (if z = true then decide (n ≥ l) else decide (n > l)) = false := by
      unfold Beyond at hz
      cases z <;> simp_all
    simp only [dynTryFormat, Nat.add_zero, h1, Res.call, Res.bind_ok, tryFrom_of_lt hl, dynOutOfRange, h2, h3, ↓reduceIte, hcond, Bool.false_eq_true]
    exact dynLoop_rounds (hlen k) rs true l n [] _ _ _ (hlen k _ _ _ h1) hr (by simpa using ha) NStr.newReverse_is (by simpa using he) h
  | @refused k l z hl hz =>
    intro w w' h
    simp only [converse, Option.bind_eq_some_iff] at h
    obtain ⟨w1, h1, w2, h2, w3, h3, w4, h4, w5, h5, h⟩ := h
    rw [reply_len] at h1
    rw [reply_fixed] at h2
    rw [reply_zeroBased] at h3
    rw [reply_default] at h4
    rw [reply_isEmpty] at h5
    refine ⟨0, 1, fun fuel depth hf hd => ?_⟩
    obtain ⟨depth, rfl⟩ : ∃ e, depth = e + 1 := ⟨depth - 1, by omega⟩
    have hcond : (if z = true then decide (n ≥ l) else decide (n > l)) = true := by
      unfold Beyond at hz
      cases z <;> simp_all
    simp only [dynTryFormat, Nat.add_zero, h1, Res.call, Res.bind_ok, tryFrom_of_lt hl, dynOutOfRange, h2, h3, ↓reduceIte, hcond,
      DynSys.fallback, Nat.zero_add, h4, h5, Gives]
  | @fallback k l z rest out hl hz hs ih =>
    intro w w' h
    simp only [converse, Option.bind_eq_some_iff] at h
    obtain ⟨w1, h1, w2, h2, w3, h3, w4, h4, w5, h5, h⟩ := h
    rw [reply_len] at h1
    rw [reply_fixed] at h2
    rw [reply_zeroBased] at h3
    rw [reply_default] at h4
    rw [reply_isEmpty] at h5
    obtain ⟨F, D, hFD⟩ := ih h
    refine ⟨F, D + 1, fun fuel depth hf hd => ?_⟩
    obtain ⟨depth, rfl⟩ : ∃ e, depth = e + 1 := ⟨depth - 1, by omega⟩
    have hcond : (if z = true then decide (n ≥ l) else decide (n > l)) = true := by
      unfold Beyond at hz
      cases z <;> simp_all
    simp only [dynTryFormat, Nat.add_zero, h1, Res.call, Res.bind_ok, tryFrom_of_lt hl, dynOutOfRange, h2, h3, ↓reduceIte, hcond,
      DynSys.fallback, Nat.zero_add, h4, h5, Bool.false_eq_true]
    have := hFD fuel depth hf (by omega)
    simpa only [Nat.add_assoc, Nat.add_comm 1] using this

/-! ## Every result comes from a conversation -/

/-- A string or an error. -/
def Settled {ε α : Type} : Res ε α → Prop
  | .ok _ => True
  | .err _ => True
  | _ => False

theorem call_inv {α β : Type} {r : Res Empty (α × σ)} {g : α × σ → Res Error β} (h : Settled (r.call.bind g)) :
    ∃ a w', r = .ok (a, w') ∧ r.call.bind g = g (a, w') := by
  cases r with
  | ok p => exact ⟨p.1, p.2, rfl, rfl⟩
  | err e => exact e.elim
  | panic => exact h.elim
  | ub => exact h.elim
  | timeout => exact h.elim

theorem dynSubtract_inv {β : Type} {cfg : Cfg} {T : IntTy} {c : DynColl σ} {w : σ} {first : Bool} {m : Nat} (hm : m ≠ 0 ∨ first = true)
    {g : Nat × σ → Res Error β} (h : Settled ((dynSubtract cfg T c first m w).bind g)) :
    (∃ a b e w1 m', (dynSubtract cfg T c first m w).bind g = g (m', w1) ∧
      ∀ i s x, talk c w ((⟨a, b, e, i, s, x⟩ : Round).asks first) = some w1 ∧ (⟨a, b, e, i, s, x⟩ : Round).Takes (T.bits cfg) cfg.checks first m m') ∨
    ((dynSubtract cfg T c first m w).bind g = .err .noZeroSymbol ∧ first = true ∧ m = 0 ∧
      ∃ w1, talk c w [.hasZero false, .zeroBased false, .hasZero false] = some w1) := by
  unfold dynSubtract dynCondition at h ⊢
  simp only [Res.bind_assoc] at h ⊢
  obtain ⟨a, w1, h1, h2⟩ := call_inv h
  rw [h2] at h ⊢
  simp only at h ⊢
  cases a
  · simp only [Bool.false_eq_true, ↓reduceIte, Res.bind_assoc] at h ⊢
    obtain ⟨b, w2, h3, h4⟩ := call_inv h
    rw [h4] at h ⊢
    simp only [Res.bind_ok] at h ⊢
    cases hc : (!b || !first)
    · simp only [hc, Bool.false_eq_true, ↓reduceIte, Res.bind_ok] at h ⊢
      refine .inl ⟨false, b, false, w2, m, rfl, fun i s x => ⟨?_, ?_⟩⟩
      · simp only [Round.asks, Bool.false_eq_true, ↓reduceIte, talk, reply_hasZero.mpr h1, reply_zeroBased.mpr h3, Round.fromOne,
          Bool.not_false, Bool.true_and, hc, Option.bind_some]
      · simp only [Round.Takes, Round.fromOne, Bool.not_false, Bool.true_and, hc, Bool.false_eq_true, ↓reduceIte]
    · simp only [hc, ↓reduceIte, Res.bind_assoc] at h ⊢
      obtain ⟨e, w3, h5, h6⟩ := call_inv h
      rw [h6] at h ⊢
      simp only at h ⊢
      have htalk : ∀ i s x, talk c w ((⟨false, b, e, i, s, x⟩ : Round).asks first) = some w3 := by
        intro i s x
        simp only [Round.asks, Bool.false_eq_true, ↓reduceIte, talk, reply_hasZero.mpr h1, reply_zeroBased.mpr h3, Round.fromOne,
          Bool.not_false, Bool.true_and, hc, Option.bind_some, reply_hasZero.mpr h5]
      by_cases h0 : m = 0
      · cases e
        · have hf : first = true := by simpa [h0] using hm
          subst h0 hf
          have hb : b = false := by simpa using hc
          subst hb
          refine .inr ⟨rfl, rfl, rfl, w3, ?_⟩
          simp only [talk, reply_hasZero.mpr h1, reply_zeroBased.mpr h3, reply_hasZero.mpr h5, Option.bind_some]
        · simp only [Bool.not_true, Bool.false_and, Bool.false_eq_true, ↓reduceIte, decrement, h0] at h ⊢
          cases hk : cfg.checks <;> simp only [hk, Bool.false_eq_true, ↓reduceIte, Res.bind_ok] at h ⊢
          · have : 0 < 2 ^ T.bits cfg := Nat.two_pow_pos _
            refine .inl ⟨false, b, true, w3, 2 ^ T.bits cfg - 1, rfl, fun i s x => ⟨htalk i s x, ?_⟩⟩
            simp only [Round.Takes, Round.fromOne, Bool.not_false, Bool.true_and, hc, ↓reduceIte, true_and]
            omega
          · exact h.elim
      · have : (m == 0) = false := by simp [h0]
        simp only [this, Bool.and_false, Bool.false_eq_true, ↓reduceIte, decrement, h0, Res.bind_ok] at h ⊢
        refine .inl ⟨false, b, e, w3, m - 1, rfl, fun i s x => ⟨htalk i s x, ?_⟩⟩
        simp only [Round.Takes, Round.fromOne, Bool.not_false, Bool.true_and, hc, ↓reduceIte, h0]
        omega
  · simp only [↓reduceIte, Res.bind_ok, Bool.false_eq_true] at h ⊢
    refine .inl ⟨true, false, false, w1, m, rfl, fun i s x => ⟨?_, ?_⟩⟩
    · simp only [Round.asks, ↓reduceIte, talk, reply_hasZero.mpr h1, Option.bind_some]
    · simp only [Round.Takes, Round.fromOne, Bool.not_true, Bool.false_and, Bool.false_eq_true, ↓reduceIte]

theorem dynLoop_sound {cfg : Cfg} {T : IntTy} {c : DynColl σ} {n : Nat} (hlen : UsizeLen cfg c) : ∀ (fuel base m : Nat) (first : Bool)
    (t : List Char) (s : NStr) (w : σ), base < 2 ^ cfg.ptr.bits → (cfg.alloc = true ∨ utf8Len t ≤ 62) → s.Is t →
    Settled (dynLoop cfg T c n fuel base m first s w) →
    ∃ rs first' base' m' last out w', Rounds (T.bits cfg) cfg.checks first base m rs first' base' m' ∧
      (cfg.alloc = true ∨ utf8Len (symbols rs ++ t) ≤ 62) ∧
      Ends cfg.alloc (T.bits cfg) cfg.checks n first' base' m' (symbols rs ++ t) last out ∧
      talk c w (roundCalls first rs ++ last) = some w' ∧ Gives w' (dynLoop cfg T c n fuel base m first s w) out := by
  intro fuel
  induction fuel with
  | zero => intro base m first t s w _ _ _ h; exact h.elim
  | succ fuel ih =>
    intro base m first t s w hb ha hs h
    rw [dynLoop] at h ⊢
    by_cases hm : m ≠ 0 ∨ first = true
    · rw [if_pos hm] at h ⊢
      rcases dynSubtract_inv hm h with ⟨a, b, e, w1, m', h1, hround⟩ | ⟨h1, h2, h3, w1, h4⟩
      · rw [h1] at h ⊢
        simp only at h ⊢
        by_cases h0 : base = 0
        · simp only [remT, h0, ↓reduceIte] at h
          exact h.elim
        · simp only [remT, divT, if_neg h0, Res.bind_ok] at h ⊢
          have hi : m' % base < base := Nat.mod_lt _ (by omega)
          rw [asUsize_of_lt hi hb] at h ⊢
          obtain ⟨ch, w2, h2, h3⟩ := call_inv h
          rw [h3] at h ⊢
          simp only at h ⊢
          have hdel := (hs.pushFront (cfg := cfg) ha ch).withNominal (n := n)
          generalize (s.pushFront cfg ch).withNominal n = p at hdel h ⊢
          have hdiv : m' % base + base * (m' / base) = m' := Nat.mod_add_div _ _
          cases hdel with
          | err t h4 h5 =>
            obtain ⟨k1, k2⟩ := hround (m' % base) ch 0
            refine ⟨[], first, base, m, _, _, w2, ⟨rfl, rfl, rfl⟩, ha, .memory ⟨a, b, e, m' % base, ch, 0⟩ (q := m' / base) hm hi (by rw [hdiv]; exact k2) h4 h5, ?_, rfl⟩
            simp only [roundCalls, List.nil_append, talk_append, k1, Option.bind_some, talk, reply_digit.mpr h2]
          | ok s' t' h4 h5 =>
            simp only [Res.bind_ok] at h ⊢
            obtain ⟨l, w3, h6, h7⟩ := call_inv h
            rw [h7] at h ⊢
            simp only at h ⊢
            obtain ⟨k1, k2⟩ := hround (m' % base) ch l
            have hcalls : talk c w ((⟨a, b, e, m' % base, ch, l⟩ : Round).calls first) = some w3 := by
              simp only [Round.calls, talk_append, k1, Option.bind_some, talk, reply_digit.mpr h2, reply_len.mpr h6]
            by_cases hl : l < 2 ^ T.bits cfg
            · rw [tryFrom_of_lt hl] at h ⊢
              simp only at h ⊢
              obtain ⟨rs, first', base', m'', last, out, w', r1, r2, r3, r4, r5⟩ := ih l (m' / base) false (ch :: t) s' w3 (hlen _ _ _ h6) h5 h4 h
              refine ⟨⟨a, b, e, m' % base, ch, l⟩ :: rs, first', base', m'', last, out, w', ⟨hm, hi, hl, m' / base, by rw [hdiv]; exact k2, r1⟩,
                ?_, ?_, ?_, r5⟩
              · simpa [symbols] using r2
              · simpa [symbols] using r3
              · simp only [roundCalls, List.append_assoc, talk_append, hcalls, Option.bind_some]
                rw [← talk_append]
                exact r4
            · have hl : 2 ^ T.bits cfg ≤ l := by omega
              rw [tryFrom_of_le hl]
              refine ⟨[], first, base, m, _, _, w3, ⟨rfl, rfl, rfl⟩, ha, .grown ⟨a, b, e, m' % base, ch, l⟩ (q := m' / base) hm hi (by rw [hdiv]; exact k2) h5 hl, ?_, rfl⟩
              simpa only [roundCalls, List.nil_append] using hcalls
      · rw [h1]
        subst h2 h3
        exact ⟨[], true, base, 0, _, _, w1, ⟨rfl, rfl, rfl⟩, ha, .noZero, h4, rfl⟩
    · rw [if_neg hm]
      have h1 : m = 0 := by omega
      have h2 : first = false := by simpa [h1] using hm
      subst h1 h2
      exact ⟨[], false, base, 0, [], .ok t, w, ⟨rfl, rfl, rfl⟩, ha, .done, rfl, s, rfl, hs⟩

theorem dynTryFormat_sound {cfg : Cfg} {T : IntTy} {n fuel : Nat} (d : DynSys σ) (hlen : ∀ k, UsizeLen cfg (d.level k)) :
    ∀ (depth k : Nat) (w : σ), Settled (dynTryFormat cfg T fuel depth ⟨fun j => d.level (k + j)⟩ n w) →
    ∃ tr out w', Session cfg T n k tr out ∧ converse d w tr = some w' ∧
      Gives w' (dynTryFormat cfg T fuel depth ⟨fun j => d.level (k + j)⟩ n w) out := by
  intro depth
  induction depth with
  | zero => intro k w h; exact h.elim
  | succ depth ih =>
    intro k w h
    rw [dynTryFormat] at h ⊢
    simp only [Nat.add_zero] at h ⊢
    obtain ⟨l, w1, h1, h2⟩ := call_inv h
    rw [h2] at h ⊢
    simp only at h ⊢
    by_cases hl : l < 2 ^ T.bits cfg
    · rw [tryFrom_of_lt hl] at h ⊢
      simp only [dynOutOfRange, Res.bind_assoc] at h ⊢
      obtain ⟨f, w2, h3, h4⟩ := call_inv h
      rw [h4] at h ⊢
      simp only at h ⊢
      cases f
      · simp only [Bool.false_eq_true, ↓reduceIte, Res.bind_ok] at h ⊢
        obtain ⟨rs, first', base', m', last, out, w', r1, r2, r3, r4, r5⟩ :=
          dynLoop_sound (hlen k) fuel l n true [] NStr.newReverse w2 (hlen k _ _ _ h1) (.inr (by simp)) NStr.newReverse_is h
        rw [List.append_nil] at r2 r3
        refine ⟨_, out, w', .digits l rs hl r1 r2 r3, ?_, r5⟩
        simp only [converse_map, talk, reply_len.mpr h1, reply_fixed.mpr h3, Option.bind_some, r4]
      · simp only [↓reduceIte, Res.bind_assoc] at h ⊢
        obtain ⟨z, w3, h5, h6⟩ := call_inv h
        rw [h6] at h ⊢
        simp only [Res.bind_ok] at h ⊢
        by_cases hz : Beyond n l z
        · have hcond : (if z = true then decide (n ≥ l) else decide (n > l)) = true := by
            unfold Beyond at hz
            cases z <;> simp_all
          simp only [hcond, ↓reduceIte, DynSys.fallback, Nat.zero_add] at h ⊢
          obtain ⟨_, w4, h7, h8⟩ := call_inv h
          rw [h8] at h ⊢
          simp only at h ⊢
          obtain ⟨e, w5, h9, h10⟩ := call_inv h
          rw [h10] at h ⊢
          simp only at h ⊢
          cases e
          · simp only [Bool.false_eq_true, ↓reduceIte] at h ⊢
            have he : (fun j => d.level (k + (j + 1))) = fun j => d.level (k + 1 + j) := by
              funext j
              congr 1
              omega
            rw [he] at h ⊢
            obtain ⟨tr, out, w', r1, r2, r3⟩ := ih (k + 1) w5 h
            refine ⟨_, out, w', .fallback l z hl hz r1, ?_, r3⟩
            simp only [converse, reply_len.mpr h1, reply_fixed.mpr h3, reply_zeroBased.mpr h5, reply_default.mpr h7, reply_isEmpty.mpr h9,
              Option.bind_some, r2]
          · refine ⟨_, _, w5, .refused l z hl hz, ?_, rfl⟩
            simp only [converse, reply_len.mpr h1, reply_fixed.mpr h3, reply_zeroBased.mpr h5, reply_default.mpr h7, reply_isEmpty.mpr h9,
              Option.bind_some]
        · have hcond : (if z = true then decide (n ≥ l) else decide (n > l)) = false := by
            unfold Beyond at hz
            cases z <;> simp_all
          simp only [hcond, Bool.false_eq_true, ↓reduceIte] at h ⊢
          obtain ⟨rs, first', base', m', last, out, w', r1, r2, r3, r4, r5⟩ :=
            dynLoop_sound (hlen k) fuel l n true [] NStr.newReverse w3 (hlen k _ _ _ h1) (.inr (by simp)) NStr.newReverse_is h
          rw [List.append_nil] at r2 r3
          refine ⟨_, out, w', .fixedDigits l z rs hl hz r1 r2 r3, ?_, r5⟩
          simp only [converse_map, talk, reply_len.mpr h1, reply_fixed.mpr h3, reply_zeroBased.mpr h5, Option.bind_some, r4]
    · have hl : 2 ^ T.bits cfg ≤ l := by omega
      rw [tryFrom_of_le hl] at h ⊢
      simp only [asUsize] at h ⊢
      obtain ⟨ch, w2, h3, h4⟩ := call_inv h
      rw [h4] at h ⊢
      simp only at h ⊢
      have hc := ofChar_del (ε := Error) cfg ch (.outOfMemory n)
      have := utf8Size_le ch
      generalize NStr.ofChar (ε := Error) cfg ch = r at hc h ⊢
      cases hc with
      | err t h1 h2 => simp at h2; omega
      | ok s' t' h5 h6 =>
        refine ⟨_, _, w2, .symbol l ch hl, ?_, s', rfl, h5⟩
        simp only [converse, reply_len.mpr h1, reply_digit.mpr h3, Option.bind_some]

/-! ## Numerals with changing bases -/

theorem rounds_numeral {bits : Nat} : ∀ (rs : List Round) (base m : Nat) (base' : Nat),
    Rounds bits checks false base m rs false base' 0 → m = numeral false base rs := by
  intro rs
  induction rs with
  | nil => intro base m base' h; exact h.2.2.symm
  | cons r rs ih =>
    intro base m base' ⟨hm, _, _, q, hq, hr⟩
    have hq' := ih _ _ _ hr
    simp only [Bool.false_eq_true, or_false] at hm
    simp only [numeral, ← hq']
    unfold Round.Takes at hq
    simp only [hm, ↓reduceIte] at hq
    split at hq <;> rename_i h <;> simp only [h, Bool.false_eq_true, ↓reduceIte] <;> omega

end
end Nominals.Conversation
