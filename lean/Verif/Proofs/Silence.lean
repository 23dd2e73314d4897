import Verif.Proofs.Protocol

/-! # Conversations that break off -/

namespace Nominals.Conversation

open Nominals Nominals.Spec

/-- A conversation with one collection breaks off. -/
def stops {σ : Type} (p : Silence) (c : DynColl σ) : σ → List Call → Prop
  | _, [] => False
  | w, e :: rest => quits p c w e ∨ ∃ w', reply c w e = some w' ∧ stops p c w' rest

section
variable {σ : Type}

theorem breaksOff_map {p : Silence} (d : DynSys σ) (k : Nat) : ∀ (l : List Call) (w : σ),
    breaksOff p d w (l.map (k, ·)) ↔ stops p (d.level k) w l := by
  intro l
  induction l with
  | nil => intro w; exact Iff.rfl
  | cons e l ih => intro w; simp only [List.map_cons, breaksOff, stops, ih]

theorem stops_append {p : Silence} (c : DynColl σ) : ∀ (l l' : List Call) (w : σ),
    stops p c w (l ++ l') ↔ stops p c w l ∨ ∃ w', talk c w l = some w' ∧ stops p c w' l' := by
  intro l
  induction l with
  | nil => intro l' w; simp [stops, talk]
  | cons e l ih =>
    intro l' w
    simp only [List.cons_append, stops, talk, ih, Option.bind_eq_some_iff]
    constructor
    · rintro (h | ⟨w', h1, h | ⟨v, h2, h3⟩⟩)
      · exact .inl (.inl h)
      · exact .inl (.inr ⟨w', h1, h⟩)
      · exact .inr ⟨v, ⟨w', h1, h2⟩, h3⟩
    · rintro ((h | ⟨w', h1, h⟩) | ⟨v, ⟨w', h1, h2⟩, h3⟩)
      · exact .inl h
      · exact .inr ⟨w', h1, .inl h⟩
      · exact .inr ⟨w', h1, .inr ⟨v, h2, h3⟩⟩

theorem call_res {α : Type} (p : Silence) : (p.res : Res Empty α).call = (p.res : Res Error α) := by cases p <;> rfl

theorem res_bind {α β : Type} (p : Silence) (g : α → Res Error β) : (p.res : Res Error α).bind g = p.res := by cases p <;> rfl

/-! ## A method that gives no answer is the end of the call -/

theorem dynSubtract_stops {p : Silence} {cfg : Cfg} {T : IntTy} {c : DynColl σ} {w : σ} {r : Round} {first : Bool} {m : Nat}
    (h : stops p c w (r.asks first)) : dynSubtract cfg T c first m w = p.res := by
  obtain ⟨a, b, e, i, s, x⟩ := r
  simp only [Round.asks, stops] at h
  rcases h with h | ⟨w1, h1, h⟩
  · simp only [quits] at h
    simp only [dynSubtract, dynCondition, h, call_res, res_bind]
  · rw [reply_hasZero] at h1
    simp only [dynSubtract, dynCondition, h1, Res.call, Res.bind_ok]
    cases a
    · simp only [Bool.false_eq_true, ↓reduceIte, stops] at h ⊢
      rcases h with h | ⟨w2, h2, h⟩
      · simp only [quits] at h
        rw [h]
        cases p <;> rfl
      · rw [reply_zeroBased] at h2
        simp only [h2, Res.bind_ok]
        simp only [Round.fromOne, Bool.not_false, Bool.true_and] at h
        cases hc : (!b || !first)
        · rw [hc] at h
          simp only [Bool.false_eq_true, ↓reduceIte, stops] at h
        · rw [hc] at h
          simp only [↓reduceIte, stops, and_false, exists_false, or_false, quits] at h ⊢
          rw [h]
          cases p <;> rfl
    · simp only [↓reduceIte, stops] at h

theorem dynLoop_ends_stops {p : Silence} {cfg : Cfg} {T : IntTy} {c : DynColl σ} {n fuel base m : Nat} {first : Bool} {t : List Char}
    {last : List Call} {out : Res Error (List Char)} (hb : base < 2 ^ cfg.ptr.bits)
    (he : Ends cfg.alloc (T.bits cfg) cfg.checks n first base m t last out) {w : σ} (h : stops p c w last) {s : NStr} (hs : s.Is t)
    (ha : cfg.alloc = true ∨ utf8Len t ≤ 62) : dynLoop cfg T c n (fuel + 1) base m first s w = p.res := by
  have early : ∀ {r : Round}, (m ≠ 0 ∨ first = true) → stops p c w (r.asks first) → dynLoop cfg T c n (fuel + 1) base m first s w = p.res := by
    intro r hm hr
    rw [dynLoop, if_pos hm, dynSubtract_stops hr, res_bind]
  have symbol : ∀ {r : Round} {q : Nat}, (m ≠ 0 ∨ first = true) → r.index < base →
      r.Takes (T.bits cfg) cfg.checks first m (r.index + base * q) → ∀ {w1}, talk c w (r.asks first) = some w1 →
      quits p c w1 (.digit r.index r.symbol) → dynLoop cfg T c n (fuel + 1) base m first s w = p.res := by
    intro r q hm hi hq w1 h1 h2
    obtain ⟨hd, hr⟩ := div_of_eq (base := base) (i := r.index) (q := q) rfl hi
    have hbase : base ≠ 0 := by omega
    simp only [quits] at h2
    rw [dynLoop, if_pos hm, dynSubtract_asks h1 hq]
    simp only [Res.bind_ok, remT, if_neg hbase, hr, asUsize_of_lt hi hb, h2, call_res, res_bind]
  cases he with
  | done => exact h.elim
  | noZero => exact early (r := ⟨false, false, false, 0, 'a', 0⟩) (.inr rfl) h
  | underflow hc => exact early (r := ⟨false, false, true, 0, 'a', 0⟩) (.inr rfl) h
  | empty r hm ht => exact early hm h
  | memory r hm hi hq hal hl =>
    rcases (stops_append c _ _ w).mp h with h | ⟨w1, h1, h⟩
    · exact early hm h
    · simp only [stops, and_false, exists_false, or_false] at h
      exact symbol hm hi hq h1 h
  | @grown _ _ _ q _ r hm hi hq hal hl =>
    rcases (stops_append c _ _ w).mp h with h | ⟨w1, h1, h⟩
    · exact early hm h
    · rcases h with h | ⟨w2, h2, h⟩
      · exact symbol hm hi hq h1 h
      · rcases h with h | ⟨w3, h3, h⟩
        · rw [reply_digit] at h2
          simp only [quits] at h
          obtain ⟨hd, hr⟩ := div_of_eq (base := base) (i := r.index) (q := q) rfl hi
          have hbase : base ≠ 0 := by omega
          rw [dynLoop, if_pos hm, dynSubtract_asks h1 hq]
          simp only [Res.bind_ok, remT, divT, if_neg hbase, hr, asUsize_of_lt hi hb, h2, Res.call]
          have hdel := (hs.pushFront (cfg := cfg) ha r.symbol).withNominal (n := n)
          generalize (s.pushFront cfg r.symbol).withNominal n = x at hdel ⊢
          cases hdel with
          | err t h1 h2 =>
            exfalso
            rcases hal with h4 | h4
            · rw [h4] at h1; cases h1
            · omega
          | ok s' t' h1 h2 =>
            simp only [Res.bind_ok, h]
            cases p <;> rfl
        · exact h.elim

theorem dynLoop_rounds_stops {p : Silence} {cfg : Cfg} {T : IntTy} {c : DynColl σ} {n fuel base' m' : Nat} {first' : Bool} {last : List Call}
    {out : Res Error (List Char)} (hlen : UsizeLen cfg c) : ∀ (rs : List Round) (first : Bool) (base m : Nat) (t : List Char) (s : NStr) (w : σ),
    base < 2 ^ cfg.ptr.bits → Rounds (T.bits cfg) cfg.checks first base m rs first' base' m' →
    (cfg.alloc = true ∨ utf8Len (symbols rs ++ t) ≤ 62) → s.Is t →
    Ends cfg.alloc (T.bits cfg) cfg.checks n first' base' m' (symbols rs ++ t) last out →
    stops p c w (roundCalls first rs ++ last) →
    dynLoop cfg T c n (fuel + 1 + rs.length) base m first s w = p.res := by
  intro rs
  induction rs with
  | nil =>
    intro first base m t s w hb hr ha hs he h
    obtain ⟨rfl, rfl, rfl⟩ := hr
    exact dynLoop_ends_stops hb he h hs ha
  | cons r rs ih =>
    intro first base m t s w hb hr ha hs he h
    obtain ⟨hm, hi, hx, q, hq, hr⟩ := hr
    simp only [symbols, List.map_cons, List.reverse_cons, List.append_assoc, List.singleton_append] at ha he
    have hle := utf8Len_written_le rs r t
    have ha' : cfg.alloc = true ∨ utf8Len (r.symbol :: t) ≤ 62 := ha.imp_right fun h => by omega
    have ha0 : cfg.alloc = true ∨ utf8Len t ≤ 62 := ha'.imp_right fun h => by simp at h; omega
    rw [roundCalls, List.append_assoc, Round.calls, List.append_assoc, stops_append] at h
    obtain ⟨hd, hmod⟩ := div_of_eq (base := base) (i := r.index) (q := q) rfl hi
    have hbase : base ≠ 0 := by omega
    rw [show fuel + 1 + (r :: rs).length = (fuel + 1 + rs.length) + 1 by simp; omega, dynLoop, if_pos hm]
    rcases h with h | ⟨w1, h1, h⟩
    · rw [dynSubtract_stops h, res_bind]
    · rw [dynSubtract_asks h1 hq]
      simp only [Res.bind_ok, remT, divT, if_neg hbase, hmod, hd, asUsize_of_lt hi hb]
      rcases h with h | ⟨w2, h2, h⟩
      · simp only [quits] at h
        simp only [h, call_res, res_bind]
      · rw [reply_digit] at h2
        simp only [h2, Res.call, Res.bind_ok]
        have hdel := (hs.pushFront (cfg := cfg) ha0 r.symbol).withNominal (n := n)
        generalize (s.pushFront cfg r.symbol).withNominal n = x at hdel ⊢
        cases hdel with
        | err t h1 h2 =>
          exfalso
          rcases ha' with h4 | h4
          · rw [h4] at h1; cases h1
          · omega
        | ok s' t' h5 h6 =>
          simp only [Res.bind_ok]
          rcases h with h | ⟨w3, h3, h⟩
          · simp only [quits] at h
            rw [h]
            cases p <;> rfl
          · rw [reply_len] at h3
            simp only [h3, Res.bind_ok, tryFrom_of_lt hx]
            exact ih false r.next q (r.symbol :: t) s' w3 (hlen _ _ _ h3) hr ha h5 he h

theorem dynTryFormat_breaksOff {p : Silence} {cfg : Cfg} {T : IntTy} {n : Nat} (d : DynSys σ) (hlen : ∀ k, UsizeLen cfg (d.level k)) {k : Nat}
    {tr : List (Nat × Call)} {out : Res Error (List Char)} (hs : Session cfg T n k tr out) : ∀ {w : σ}, breaksOff p d w tr →
    ∃ F D, ∀ fuel depth, F ≤ fuel → D ≤ depth → dynTryFormat cfg T fuel depth ⟨fun j => d.level (k + j)⟩ n w = p.res := by
  induction hs with
  | @symbol k l c hl =>
    intro w h
    refine ⟨0, 1, fun fuel depth _ hd => ?_⟩
    obtain ⟨depth, rfl⟩ : ∃ e, depth = e + 1 := ⟨depth - 1, by omega⟩
    rw [dynTryFormat]
    simp only [Nat.add_zero]
    rcases h with h | ⟨w1, h1, h | ⟨w2, h2, h⟩⟩
    · simp only [quits] at h
      rw [h, call_res, res_bind]
    · rw [reply_len] at h1
      simp only [quits] at h
      simp only [h1, Res.call, Res.bind_ok, tryFrom_of_le hl, asUsize, h]
      cases p <;> rfl
    · exact h.elim
  | @digits k l rs first base m last out hl hr ha he =>
    intro w h
    rw [breaksOff_map] at h
    refine ⟨1 + rs.length, 1, fun fuel depth hf hd => ?_⟩
    obtain ⟨depth, rfl⟩ : ∃ e, depth = e + 1 := ⟨depth - 1, by omega⟩
    obtain ⟨fuel, rfl⟩ : ∃ e, fuel = e + 1 + rs.length := ⟨fuel - 1 - rs.length, by omega⟩
    rw [dynTryFormat]
    simp only [Nat.add_zero]
    rcases h with h | ⟨w1, h1, h | ⟨w2, h2, h⟩⟩
    · simp only [quits] at h
      rw [h, call_res, res_bind]
    · rw [reply_len] at h1
      simp only [quits] at h
      simp only [h1, Res.call, Res.bind_ok, tryFrom_of_lt hl, dynOutOfRange, h]
      cases p <;> rfl
    · rw [reply_len] at h1
      rw [reply_fixed] at h2
      simp only [h1, Res.call, Res.bind_ok, tryFrom_of_lt hl, dynOutOfRange, h2, Bool.false_eq_true, ↓reduceIte]
      exact dynLoop_rounds_stops (hlen k) rs true l n [] _ _ (hlen k _ _ _ h1) hr (by simpa using ha) NStr.newReverse_is (by simpa using he) h
  | @fixedDigits k l z rs first base m last out hl hz hr ha he =>
    intro w h
    rw [breaksOff_map] at h
    refine ⟨1 + rs.length, 1, fun fuel depth hf hd => ?_⟩
    obtain ⟨depth, rfl⟩ : ∃ e, depth = e + 1 := ⟨depth - 1, by omega⟩
    obtain ⟨fuel, rfl⟩ : ∃ e, fuel = e + 1 + rs.length := ⟨fuel - 1 - rs.length, by omega⟩
    have hcond : (if z = true then decide (n ≥ l) else decide (n > l)) = false := by
      unfold Beyond at hz
      cases z <;> simp_all
    rw [dynTryFormat]
    simp only [Nat.add_zero]
    rcases h with h | ⟨w1, h1, h | ⟨w2, h2, h | ⟨w3, h3, h⟩⟩⟩
    · simp only [quits] at h
      rw [h, call_res, res_bind]
    · rw [reply_len] at h1
      simp only [quits] at h
      simp only [h1, Res.call, Res.bind_ok, tryFrom_of_lt hl, dynOutOfRange, h]
      cases p <;> rfl
    · rw [reply_len] at h1
      rw [reply_fixed] at h2
      simp only [quits] at h
      simp only [h1, Res.call, Res.bind_ok, tryFrom_of_lt hl, dynOutOfRange, h2, ↓reduceIte, h]
      cases p <;> rfl
    · rw [reply_len] at h1
      rw [reply_fixed] at h2
      rw [reply_zeroBased] at h3
      simp only [h1, Res.call, Res.bind_ok, tryFrom_of_lt hl, dynOutOfRange, h2, h3, ↓reduceIte, hcond, Bool.false_eq_true]
      exact dynLoop_rounds_stops (hlen k) rs true l n [] _ _ (hlen k _ _ _ h1) hr (by simpa using ha) NStr.newReverse_is (by simpa using he) h
  | @refused k l z hl hz =>
    intro w h
    refine ⟨0, 1, fun fuel depth hf hd => ?_⟩
    obtain ⟨depth, rfl⟩ : ∃ e, depth = e + 1 := ⟨depth - 1, by omega⟩
    have hcond : (if z = true then decide (n ≥ l) else decide (n > l)) = true := by
      unfold Beyond at hz
      cases z <;> simp_all
    rw [dynTryFormat]
    simp only [Nat.add_zero]
    rcases h with h | ⟨w1, h1, h | ⟨w2, h2, h | ⟨w3, h3, h | ⟨w4, h4, h | ⟨w5, h5, h⟩⟩⟩⟩⟩
    · simp only [quits] at h
      rw [h, call_res, res_bind]
    · rw [reply_len] at h1
      simp only [quits] at h
      simp only [h1, Res.call, Res.bind_ok, tryFrom_of_lt hl, dynOutOfRange, h]
      cases p <;> rfl
    · rw [reply_len] at h1
      rw [reply_fixed] at h2
      simp only [quits] at h
      simp only [h1, Res.call, Res.bind_ok, tryFrom_of_lt hl, dynOutOfRange, h2, ↓reduceIte, h]
      cases p <;> rfl
    · rw [reply_len] at h1
      rw [reply_fixed] at h2
      rw [reply_zeroBased] at h3
      simp only [quits] at h
      simp only [h1, Res.call, Res.bind_ok, tryFrom_of_lt hl, dynOutOfRange, h2, h3, ↓reduceIte, hcond, DynSys.fallback, Nat.zero_add, h]
      cases p <;> rfl
    · rw [reply_len] at h1
      rw [reply_fixed] at h2
      rw [reply_zeroBased] at h3
      rw [reply_default] at h4
      simp only [quits] at h
      simp only [h1, Res.call, Res.bind_ok, tryFrom_of_lt hl, dynOutOfRange, h2, h3, ↓reduceIte, hcond, DynSys.fallback, Nat.zero_add, h4, h]
      cases p <;> rfl
    · exact h.elim
  | @fallback k l z rest out hl hz hs ih =>
    intro w h
    have hcond : (if z = true then decide (n ≥ l) else decide (n > l)) = true := by
      unfold Beyond at hz
      cases z <;> simp_all
    have early : (∀ fuel depth, dynTryFormat cfg T fuel (depth + 1) ⟨fun j => d.level (k + j)⟩ n w = p.res) →
        ∃ F D, ∀ fuel depth, F ≤ fuel → D ≤ depth → dynTryFormat cfg T fuel depth ⟨fun j => d.level (k + j)⟩ n w = p.res := by
      intro H
      refine ⟨0, 1, fun fuel depth hf hd => ?_⟩
      obtain ⟨depth, rfl⟩ : ∃ e, depth = e + 1 := ⟨depth - 1, by omega⟩
      exact H fuel depth
    rcases h with h | ⟨w1, h1, h | ⟨w2, h2, h | ⟨w3, h3, h | ⟨w4, h4, h | ⟨w5, h5, h⟩⟩⟩⟩⟩
    · refine early fun fuel depth => ?_
      simp only [quits] at h
      rw [dynTryFormat]
      simp only [Nat.add_zero]
      rw [h, call_res, res_bind]
    · refine early fun fuel depth => ?_
      rw [reply_len] at h1
      simp only [quits] at h
      simp only [dynTryFormat, Nat.add_zero, h1, Res.call, Res.bind_ok, tryFrom_of_lt hl, dynOutOfRange, h]
      cases p <;> rfl
    · refine early fun fuel depth => ?_
      rw [reply_len] at h1
      rw [reply_fixed] at h2
      simp only [quits] at h
      simp only [dynTryFormat, Nat.add_zero, h1, Res.call, Res.bind_ok, tryFrom_of_lt hl, dynOutOfRange, h2, ↓reduceIte, h]
      cases p <;> rfl
    · refine early fun fuel depth => ?_
      rw [reply_len] at h1
      rw [reply_fixed] at h2
      rw [reply_zeroBased] at h3
      simp only [quits] at h
      simp only [dynTryFormat, Nat.add_zero, h1, Res.call, Res.bind_ok, tryFrom_of_lt hl, dynOutOfRange, h2, h3, ↓reduceIte, hcond, DynSys.fallback, Nat.zero_add, h]
      cases p <;> rfl
    · refine early fun fuel depth => ?_
      rw [reply_len] at h1
      rw [reply_fixed] at h2
      rw [reply_zeroBased] at h3
      rw [reply_default] at h4
      simp only [quits] at h
      simp only [dynTryFormat, Nat.add_zero, h1, Res.call, Res.bind_ok, tryFrom_of_lt hl, dynOutOfRange, h2, h3, ↓reduceIte, hcond, DynSys.fallback, Nat.zero_add, h4, h]
      cases p <;> rfl
    · rw [reply_len] at h1
      rw [reply_fixed] at h2
      rw [reply_zeroBased] at h3
      rw [reply_default] at h4
      rw [reply_isEmpty] at h5
      obtain ⟨F, D, hFD⟩ := ih h
      refine ⟨F, D + 1, fun fuel depth hf hd => ?_⟩
      obtain ⟨depth, rfl⟩ : ∃ e, depth = e + 1 := ⟨depth - 1, by omega⟩
      simp only [dynTryFormat, Nat.add_zero, h1, Res.call, Res.bind_ok, tryFrom_of_lt hl, dynOutOfRange, h2, h3, ↓reduceIte, hcond,
        DynSys.fallback, Nat.zero_add, h4, h5, Bool.false_eq_true]
      have := hFD fuel depth hf (by omega)
      simpa only [Nat.add_assoc, Nat.add_comm 1] using this

/-! ## Where a panic comes from -/

theorem panic_inv {α β : Type} {r : Res Empty (α × σ)} {g : α × σ → Res Error β} (h : r.call.bind g = .panic) :
    r = .panic ∨ ∃ a w', r = .ok (a, w') ∧ g (a, w') = .panic := by
  cases r with
  | ok p => exact .inr ⟨p.1, p.2, rfl, h⟩
  | err e => exact e.elim
  | panic => exact .inl rfl
  | ub => cases h
  | timeout => cases h

/-- A round in which the symbol with this index is asked for can always be completed to the end of a conversation. -/
theorem ends_symbol {cfg : Cfg} {bits n base m m' : Nat} {first : Bool} {t : List Char} (hm : m ≠ 0 ∨ first = true) (hb : base ≠ 0) {a b e : Bool}
    (ht : ∀ i s x, (⟨a, b, e, i, s, x⟩ : Round).Takes bits cfg.checks first m m') (ch : Char) :
    ∃ rest out, Ends cfg.alloc bits cfg.checks n first base m t
      ((⟨a, b, e, m' % base, ch, 2 ^ bits⟩ : Round).asks first ++ .digit (m' % base) ch :: rest) out := by
  have hi : m' % base < base := Nat.mod_lt _ (by omega)
  have hdiv : m' % base + base * (m' / base) = m' := Nat.mod_add_div _ _
  have hq : (⟨a, b, e, m' % base, ch, 2 ^ bits⟩ : Round).Takes bits cfg.checks first m (m' % base + base * (m' / base)) := by
    rw [hdiv]
    exact ht _ _ _
  by_cases hl : cfg.alloc = true ∨ utf8Len (ch :: t) ≤ 62
  · exact ⟨_, _, .grown ⟨a, b, e, m' % base, ch, 2 ^ bits⟩ hm hi hq hl (Nat.le_refl _)⟩
  · have h1 : cfg.alloc = false := by
      cases h : cfg.alloc
      · rfl
      · exact absurd (.inl h) hl
    have h2 : 62 < utf8Len (ch :: t) := by
      have : ¬ utf8Len (ch :: t) ≤ 62 := fun h => hl (.inr h)
      omega
    exact ⟨_, _, .memory ⟨a, b, e, m' % base, ch, 2 ^ bits⟩ hm hi hq h1 h2⟩

/-- A round's questions can always be completed to the end of a conversation. -/
theorem ends_asks {cfg : Cfg} {bits n base m m' : Nat} {first : Bool} {t : List Char} (hm : m ≠ 0 ∨ first = true) {a b e : Bool}
    (ht : ∀ i s x, (⟨a, b, e, i, s, x⟩ : Round).Takes bits cfg.checks first m m') :
    ∃ i s x rest out, Ends cfg.alloc bits cfg.checks n first base m t ((⟨a, b, e, i, s, x⟩ : Round).asks first ++ rest) out := by
  by_cases hb : base = 0
  · subst hb
    exact ⟨0, 'a', 0, [], _, by rw [List.append_nil]; exact .empty ⟨a, b, e, 0, 'a', 0⟩ hm (ht _ _ _)⟩
  · obtain ⟨rest, out, h⟩ := ends_symbol (n := n) (t := t) hm hb ht 'a'
    exact ⟨_, _, _, _, _, h⟩

theorem dynSubtract_panic {β : Type} {cfg : Cfg} {T : IntTy} {c : DynColl σ} {w : σ} {first : Bool} {m : Nat} (hm : m ≠ 0 ∨ first = true)
    {g : Nat × σ → Res Error β} (h : (dynSubtract cfg T c first m w).bind g = .panic) :
    (∃ a b e m', ∀ i s x, stops .panic c w ((⟨a, b, e, i, s, x⟩ : Round).asks first) ∧
      (⟨a, b, e, i, s, x⟩ : Round).Takes (T.bits cfg) cfg.checks first m m') ∨
    (first = true ∧ m = 0 ∧ stops .panic c w [.hasZero false, .zeroBased false, .hasZero false]) ∨
    (∃ a b e w1 m', g (m', w1) = .panic ∧ ∀ i s x, talk c w ((⟨a, b, e, i, s, x⟩ : Round).asks first) = some w1 ∧
      (⟨a, b, e, i, s, x⟩ : Round).Takes (T.bits cfg) cfg.checks first m m') ∨
    (first = true ∧ m = 0 ∧ cfg.checks = true ∧ ∃ w1, talk c w [.hasZero false, .zeroBased false, .hasZero true] = some w1) := by
  unfold dynSubtract dynCondition at h
  simp only [Res.bind_assoc] at h
  rcases panic_inv h with h1 | ⟨a, w1, h1, h⟩
  · refine .inl ⟨true, false, false, m, fun i s x => ⟨.inl h1, ?_⟩⟩
    simp only [Round.Takes, Round.fromOne, Bool.not_true, Bool.false_and, Bool.false_eq_true, ↓reduceIte]
  · cases a
    · simp only [Bool.false_eq_true, ↓reduceIte, Res.bind_assoc] at h
      rcases panic_inv h with h3 | ⟨b, w2, h3, h⟩
      · have hstop : ∀ b l, stops .panic c w (.hasZero false :: .zeroBased b :: l) := fun b l => .inr ⟨w1, reply_hasZero.mpr h1, .inl h3⟩
        by_cases h0 : m = 0
        · have hf : first = true := by simpa [h0] using hm
          exact .inr (.inl ⟨hf, h0, hstop _ _⟩)
        · cases first
          · refine .inl ⟨false, true, false, m - 1, fun i s x => ⟨hstop _ _, ?_⟩⟩
            simp only [Round.Takes, Round.fromOne, Bool.not_false, Bool.or_true, Bool.true_and, ↓reduceIte, h0]
            omega
          · refine .inl ⟨false, true, false, m, fun i s x => ⟨hstop _ _, ?_⟩⟩
            simp only [Round.Takes, Round.fromOne, Bool.not_false, Bool.not_true, Bool.or_false, Bool.and_false, Bool.false_eq_true, ↓reduceIte]
      · simp only [Res.bind_ok] at h
        cases hc : (!b || !first)
        · simp only [hc, Bool.false_eq_true, ↓reduceIte, Res.bind_ok] at h
          refine .inr (.inr (.inl ⟨false, b, false, w2, m, h, fun i s x => ⟨?_, ?_⟩⟩))
          · simp only [Round.asks, Bool.false_eq_true, ↓reduceIte, talk, reply_hasZero.mpr h1, reply_zeroBased.mpr h3, Round.fromOne,
              Bool.not_false, Bool.true_and, hc, Option.bind_some]
          · simp only [Round.Takes, Round.fromOne, Bool.not_false, Bool.true_and, hc, Bool.false_eq_true, ↓reduceIte]
        · simp only [hc, ↓reduceIte, Res.bind_assoc] at h
          rcases panic_inv h with h5 | ⟨e, w3, h5, hh⟩
          · have hstop : ∀ e, stops .panic c w [.hasZero false, .zeroBased b, .hasZero e] := fun e =>
              .inr ⟨w1, reply_hasZero.mpr h1, .inr ⟨w2, reply_zeroBased.mpr h3, .inl h5⟩⟩
            by_cases h0 : m = 0
            · have hf : first = true := by simpa [h0] using hm
              subst h0 hf
              have hb : b = false := by simpa using hc
              subst hb
              exact .inr (.inl ⟨rfl, rfl, hstop false⟩)
            · refine .inl ⟨false, b, false, m - 1, fun i s x => ⟨?_, ?_⟩⟩
              · simp only [Round.asks, Bool.false_eq_true, ↓reduceIte, Round.fromOne, Bool.not_false, Bool.true_and, hc]
                exact hstop false
              · simp only [Round.Takes, Round.fromOne, Bool.not_false, Bool.true_and, hc, ↓reduceIte, h0]
                omega
          · simp only at hh
            have htalk : ∀ i s x, talk c w ((⟨false, b, e, i, s, x⟩ : Round).asks first) = some w3 := by
              intro i s x
              simp only [Round.asks, Bool.false_eq_true, ↓reduceIte, talk, reply_hasZero.mpr h1, reply_zeroBased.mpr h3, Round.fromOne,
                Bool.not_false, Bool.true_and, hc, Option.bind_some, reply_hasZero.mpr h5]
            by_cases h0 : m = 0
            · cases e
              · subst h0
                simp [Res.bind] at hh
              · simp only [Bool.not_true, Bool.false_and, Bool.false_eq_true, ↓reduceIte, decrement, h0] at hh
                have hf : first = true := by simpa [h0] using hm
                subst h0 hf
                have hb : b = false := by simpa using hc
                subst hb
                cases hk : cfg.checks <;> simp only [hk, Bool.false_eq_true, ↓reduceIte, Res.bind_ok] at hh
                · have : 0 < 2 ^ T.bits cfg := Nat.two_pow_pos _
                  refine .inr (.inr (.inl ⟨false, false, true, w3, 2 ^ T.bits cfg - 1, hh, fun i s x => ⟨htalk i s x, ?_⟩⟩))
                  simp only [Round.Takes, Round.fromOne, Bool.not_false, Bool.true_or, Bool.and_self, ↓reduceIte, true_and]
                  omega
                · refine .inr (.inr (.inr ⟨rfl, rfl, rfl, w3, ?_⟩))
                  simp only [talk, reply_hasZero.mpr h1, reply_zeroBased.mpr h3, reply_hasZero.mpr h5, Option.bind_some]
            · have : (m == 0) = false := by simp [h0]
              simp only [this, Bool.and_false, Bool.false_eq_true, ↓reduceIte, decrement, h0, Res.bind_ok] at hh
              refine .inr (.inr (.inl ⟨false, b, e, w3, m - 1, hh, fun i s x => ⟨htalk i s x, ?_⟩⟩))
              simp only [Round.Takes, Round.fromOne, Bool.not_false, Bool.true_and, hc, ↓reduceIte, h0]
              omega
    · simp only [↓reduceIte, Res.bind_ok, Bool.false_eq_true] at h
      refine .inr (.inr (.inl ⟨true, false, false, w1, m, h, fun i s x => ⟨?_, ?_⟩⟩))
      · simp only [Round.asks, ↓reduceIte, talk, reply_hasZero.mpr h1, Option.bind_some]
      · simp only [Round.Takes, Round.fromOne, Bool.not_true, Bool.false_and, Bool.false_eq_true, ↓reduceIte]

theorem dynLoop_panic {cfg : Cfg} {T : IntTy} {c : DynColl σ} {n : Nat} (hlen : UsizeLen cfg c) : ∀ (fuel base m : Nat) (first : Bool)
    (t : List Char) (s : NStr) (w : σ), base < 2 ^ cfg.ptr.bits → (cfg.alloc = true ∨ utf8Len t ≤ 62) → s.Is t →
    dynLoop cfg T c n fuel base m first s w = .panic →
    ∃ rs first' base' m' last out, Rounds (T.bits cfg) cfg.checks first base m rs first' base' m' ∧
      (cfg.alloc = true ∨ utf8Len (symbols rs ++ t) ≤ 62) ∧
      Ends cfg.alloc (T.bits cfg) cfg.checks n first' base' m' (symbols rs ++ t) last out ∧
      ((out = .panic ∧ ∃ w', talk c w (roundCalls first rs ++ last) = some w') ∨ stops .panic c w (roundCalls first rs ++ last)) := by
  intro fuel
  induction fuel with
  | zero => intro base m first t s w _ _ _ h; cases h
  | succ fuel ih =>
    intro base m first t s w hb ha hs h
    rw [dynLoop] at h
    by_cases hm : m ≠ 0 ∨ first = true
    · rw [if_pos hm] at h
      rcases dynSubtract_panic hm h with ⟨a, b, e, m', hround⟩ | ⟨h1, h2, h3⟩ | ⟨a, b, e, w1, m', h, hround⟩ | ⟨h1, h2, h3, w1, h4⟩
      · obtain ⟨i, x, l, rest, out, he⟩ := ends_asks (cfg := cfg) (n := n) (base := base) (t := t) hm fun i s x => (hround i s x).2
        exact ⟨[], first, base, m, _, out, ⟨rfl, rfl, rfl⟩, ha, he, .inr (by rw [roundCalls, List.nil_append]; exact (stops_append c _ _ w).mpr (.inl (hround i x l).1))⟩
      · subst h1 h2
        exact ⟨[], true, base, 0, _, _, ⟨rfl, rfl, rfl⟩, ha, .noZero, .inr h3⟩
      · simp only at h
        by_cases h0 : base = 0
        · subst h0
          exact ⟨[], first, 0, m, _, _, ⟨rfl, rfl, rfl⟩, ha, .empty ⟨a, b, e, 0, 'a', 0⟩ hm (hround _ _ _).2, .inl ⟨rfl, w1, (hround _ _ _).1⟩⟩
        · simp only [remT, divT, if_neg h0, Res.bind_ok] at h
          have hi : m' % base < base := Nat.mod_lt _ (by omega)
          rw [asUsize_of_lt hi hb] at h
          have hdiv : m' % base + base * (m' / base) = m' := Nat.mod_add_div _ _
          rcases panic_inv h with h2 | ⟨ch, w2, h2, h⟩
          · obtain ⟨rest, out, he⟩ := ends_symbol (cfg := cfg) (n := n) (t := t) hm h0 (fun i s x => (hround i s x).2) 'a'
            exact ⟨[], first, base, m, _, out, ⟨rfl, rfl, rfl⟩, ha, he,
              .inr (by rw [roundCalls, List.nil_append]; exact (stops_append c _ _ w).mpr (.inr ⟨w1, (hround _ _ _).1, .inl h2⟩))⟩
          · simp only at h
            have hdel := (hs.pushFront (cfg := cfg) ha ch).withNominal (n := n)
            generalize (s.pushFront cfg ch).withNominal n = p at hdel h
            cases hdel with
            | err t h4 h5 => cases h
            | ok s' t' h4 h5 =>
              simp only [Res.bind_ok] at h
              rcases panic_inv h with h6 | ⟨l, w3, h6, h⟩
              · obtain ⟨k1, k2⟩ := hround (m' % base) ch (2 ^ T.bits cfg)
                refine ⟨[], first, base, m, _, _, ⟨rfl, rfl, rfl⟩, ha,
                  .grown ⟨a, b, e, m' % base, ch, 2 ^ T.bits cfg⟩ (q := m' / base) hm hi (by rw [hdiv]; exact k2) h5 (Nat.le_refl _), .inr ?_⟩
                rw [roundCalls, List.nil_append]
                exact (stops_append c _ _ w).mpr (.inr ⟨w1, k1, .inr ⟨w2, reply_digit.mpr h2, .inl h6⟩⟩)
              · simp only at h
                obtain ⟨k1, k2⟩ := hround (m' % base) ch l
                have hcalls : talk c w ((⟨a, b, e, m' % base, ch, l⟩ : Round).calls first) = some w3 := by
                  simp only [Round.calls, talk_append, k1, Option.bind_some, talk, reply_digit.mpr h2, reply_len.mpr h6]
                by_cases hl : l < 2 ^ T.bits cfg
                · rw [tryFrom_of_lt hl] at h
                  obtain ⟨rs, first', base', m'', last, out, r1, r2, r3, r4⟩ := ih l (m' / base) false (ch :: t) s' w3 (hlen _ _ _ h6) h5 h4 h
                  refine ⟨⟨a, b, e, m' % base, ch, l⟩ :: rs, first', base', m'', last, out, ⟨hm, hi, hl, m' / base, by rw [hdiv]; exact k2, r1⟩,
                    ?_, ?_, ?_⟩
                  · simpa [symbols] using r2
                  · simpa [symbols] using r3
                  · rw [roundCalls, List.append_assoc]
                    rcases r4 with ⟨ho, w', r4⟩ | r4
                    · refine .inl ⟨ho, w', ?_⟩
                      rw [talk_append, hcalls]
                      exact r4
                    · exact .inr ((stops_append c _ _ w).mpr (.inr ⟨w3, hcalls, r4⟩))
                · rw [tryFrom_of_le (by omega)] at h
                  cases h
      · subst h1 h2
        exact ⟨[], true, base, 0, _, _, ⟨rfl, rfl, rfl⟩, ha, .underflow h3, .inl ⟨rfl, w1, h4⟩⟩
    · rw [if_neg hm] at h
      cases h

/-- Questions about the first symbol can always be completed. -/
theorem ends_first (cfg : Cfg) (bits n base m : Nat) : ∃ last out, Ends cfg.alloc bits cfg.checks n true base m [] last out := by
  obtain ⟨i, s, x, rest, out, h⟩ := ends_asks (cfg := cfg) (bits := bits) (n := n) (base := base) (m := m) (m' := m) (t := []) (first := true)
    (a := true) (b := false) (e := false) (.inr rfl) fun i s x => by
      simp only [Round.Takes, Round.fromOne, Bool.not_true, Bool.false_and, Bool.false_eq_true, ↓reduceIte]
  exact ⟨_, out, h⟩

theorem dynTryFormat_panic {cfg : Cfg} {T : IntTy} {n fuel : Nat} (d : DynSys σ) (hlen : ∀ k, UsizeLen cfg (d.level k)) :
    ∀ (depth k : Nat) (w : σ), dynTryFormat cfg T fuel depth ⟨fun j => d.level (k + j)⟩ n w = .panic →
    ∃ tr out, Session cfg T n k tr out ∧ ((out = .panic ∧ ∃ w', converse d w tr = some w') ∨ breaksOff .panic d w tr) := by
  intro depth
  induction depth with
  | zero => intro k w h; cases h
  | succ depth ih =>
    intro k w h
    rw [dynTryFormat] at h
    simp only [Nat.add_zero] at h
    rcases panic_inv h with h1 | ⟨l, w1, h1, h⟩
    · exact ⟨_, _, .symbol (2 ^ T.bits cfg) 'a' (Nat.le_refl _), .inr (.inl h1)⟩
    · simp only at h
      by_cases hl : l < 2 ^ T.bits cfg
      · rw [tryFrom_of_lt hl] at h
        simp only [dynOutOfRange, Res.bind_assoc] at h
        rcases panic_inv h with h3 | ⟨f, w2, h3, h⟩
        · obtain ⟨last, out, he⟩ := ends_first cfg (T.bits cfg) n l n
          exact ⟨_, _, .digits l [] hl ⟨rfl, rfl, rfl⟩ (.inr (by decide)) he, .inr (.inr ⟨w1, reply_len.mpr h1, .inl h3⟩)⟩
        · simp only at h
          cases f
          · simp only [Bool.false_eq_true, ↓reduceIte, Res.bind_ok] at h
            obtain ⟨rs, first', base', m', last, out, r1, r2, r3, r4⟩ :=
              dynLoop_panic (hlen k) fuel l n true [] NStr.newReverse w2 (hlen k _ _ _ h1) (.inr (by simp)) NStr.newReverse_is h
            rw [List.append_nil] at r2 r3
            refine ⟨_, out, .digits l rs hl r1 r2 r3, ?_⟩
            rw [converse_map, breaksOff_map]
            rcases r4 with ⟨ho, w', r4⟩ | r4
            · exact .inl ⟨ho, w', by simp only [talk, reply_len.mpr h1, reply_fixed.mpr h3, Option.bind_some, r4]⟩
            · exact .inr (.inr ⟨w1, reply_len.mpr h1, .inr ⟨w2, reply_fixed.mpr h3, r4⟩⟩)
          · simp only [↓reduceIte, Res.bind_assoc] at h
            rcases panic_inv h with h5 | ⟨z, w3, h5, h⟩
            · by_cases hz : Beyond n l true
              · exact ⟨_, _, .refused l true hl hz, .inr (.inr ⟨w1, reply_len.mpr h1, .inr ⟨w2, reply_fixed.mpr h3, .inl h5⟩⟩)⟩
              · obtain ⟨last, out, he⟩ := ends_first cfg (T.bits cfg) n l n
                exact ⟨_, _, .fixedDigits l true [] hl hz ⟨rfl, rfl, rfl⟩ (.inr (by decide)) he,
                  .inr (.inr ⟨w1, reply_len.mpr h1, .inr ⟨w2, reply_fixed.mpr h3, .inl h5⟩⟩)⟩
            · simp only [Res.bind_ok] at h
              by_cases hz : Beyond n l z
              · have hcond : (if z = true then decide (n ≥ l) else decide (n > l)) = true := by
                  unfold Beyond at hz
                  cases z <;> simp_all
                simp only [hcond, ↓reduceIte, DynSys.fallback, Nat.zero_add] at h
                have start : ∀ {rest}, breaksOff .panic d w3 rest →
                    breaksOff .panic d w ((k, .len l) :: (k, .fixed true) :: (k, .zeroBased z) :: rest) := fun hr =>
                  .inr ⟨w1, reply_len.mpr h1, .inr ⟨w2, reply_fixed.mpr h3, .inr ⟨w3, reply_zeroBased.mpr h5, hr⟩⟩⟩
                rcases panic_inv h with h7 | ⟨_, w4, h7, h⟩
                · exact ⟨_, _, .refused l z hl hz, .inr (start (.inl h7))⟩
                · rcases panic_inv h with h9 | ⟨e, w5, h9, h⟩
                  · exact ⟨_, _, .refused l z hl hz, .inr (start (.inr ⟨w4, reply_default.mpr h7, .inl h9⟩))⟩
                  · simp only at h
                    cases e
                    · simp only [Bool.false_eq_true, ↓reduceIte] at h
                      have he : (fun j => d.level (k + (j + 1))) = fun j => d.level (k + 1 + j) := by
                        funext j
                        congr 1
                        omega
                      rw [he] at h
                      obtain ⟨tr, out, r1, r2⟩ := ih (k + 1) w5 h
                      refine ⟨_, out, .fallback l z hl hz r1, ?_⟩
                      rcases r2 with ⟨ho, w', r2⟩ | r2
                      · refine .inl ⟨ho, w', ?_⟩
                        simp only [converse, reply_len.mpr h1, reply_fixed.mpr h3, reply_zeroBased.mpr h5, reply_default.mpr h7,
                          reply_isEmpty.mpr h9, Option.bind_some, r2]
                      · exact .inr (start (.inr ⟨w4, reply_default.mpr h7, .inr ⟨w5, reply_isEmpty.mpr h9, r2⟩⟩))
                    · simp only [↓reduceIte] at h
                      cases h
              · have hcond : (if z = true then decide (n ≥ l) else decide (n > l)) = false := by
                  unfold Beyond at hz
                  cases z <;> simp_all
                simp only [hcond, Bool.false_eq_true, ↓reduceIte] at h
                obtain ⟨rs, first', base', m', last, out, r1, r2, r3, r4⟩ :=
                  dynLoop_panic (hlen k) fuel l n true [] NStr.newReverse w3 (hlen k _ _ _ h1) (.inr (by simp)) NStr.newReverse_is h
                rw [List.append_nil] at r2 r3
                refine ⟨_, out, .fixedDigits l z rs hl hz r1 r2 r3, ?_⟩
                rw [converse_map, breaksOff_map]
                rcases r4 with ⟨ho, w', r4⟩ | r4
                · exact .inl ⟨ho, w', by
                    simp only [talk, reply_len.mpr h1, reply_fixed.mpr h3, reply_zeroBased.mpr h5, Option.bind_some, r4]⟩
                · exact .inr (.inr ⟨w1, reply_len.mpr h1, .inr ⟨w2, reply_fixed.mpr h3, .inr ⟨w3, reply_zeroBased.mpr h5, r4⟩⟩⟩)
      · have hl : 2 ^ T.bits cfg ≤ l := by omega
        rw [tryFrom_of_le hl] at h
        simp only [asUsize] at h
        rcases panic_inv h with h3 | ⟨ch, w2, h3, h⟩
        · exact ⟨_, _, .symbol l 'a' hl, .inr (.inr ⟨w1, reply_len.mpr h1, .inl h3⟩)⟩
        · simp only at h
          have hc := ofChar_del (ε := Error) cfg ch (.outOfMemory n)
          generalize NStr.ofChar (ε := Error) cfg ch = r at hc h
          cases hc with
          | err t h1 h2 => cases h
          | ok s' t' h5 h6 => cases h

end
end Nominals.Conversation
