import Verif.Model.OwnColl
import Verif.Proofs.Protocol

/-! # Collections as systems: the state after an error -/

namespace Nominals.Conversation

open Nominals Nominals.Spec

section
variable {σ : Type}

/-! ## The same code -/

theorem mapErr_bind {ε ε' α β : Type} (f : ε → ε') (r : Res ε α) (g : α → Res ε β) : (r.bind g).mapErr f = (r.mapErr f).bind fun a => (g a).mapErr f := by
  cases r <;> rfl

theorem mapErr_ask {α : Type} (r : Res Empty α) : (r.ask : Res (Error × σ) α).mapErr Prod.fst = r.call := by
  cases r with
  | err e => exact e.elim
  | _ => rfl

theorem mapErr_at {α : Type} (r : Res Error α) (w : σ) : (r.at w).mapErr Prod.fst = r := by cases r <;> rfl

theorem mapErr_remT (a b : Nat) : (remT a b : Res (Error × σ) Nat).mapErr Prod.fst = remT a b := by unfold remT; split <;> rfl

theorem mapErr_divT (a b : Nat) : (divT a b : Res (Error × σ) Nat).mapErr Prod.fst = divT a b := by unfold divT; split <;> rfl

theorem mapErr_ite {ε ε' α : Type} (f : ε → ε') (p : Prop) [Decidable p] (a b : Res ε α) :
    (if p then a else b).mapErr f = if p then a.mapErr f else b.mapErr f := by split <;> rfl

theorem mapErr_ok {ε ε' α : Type} (f : ε → ε') (a : α) : (Res.ok a : Res ε α).mapErr f = .ok a := rfl

theorem mapErr_err {ε ε' α : Type} (f : ε → ε') (e : ε) : (Res.err e : Res ε α).mapErr f = .err (f e) := rfl

theorem at_ok {α : Type} (a : α) (w : σ) : (Res.ok a).at w = .ok a := rfl

theorem at_err {α : Type} (e : Error) (w : σ) : (Res.err e : Res Error α).at w = .err (e, w) := rfl

theorem at_panic {α : Type} (w : σ) : (Res.panic : Res Error α).at w = .panic := rfl

theorem ownSubtract_same (cfg : Cfg) (T : IntTy) (c : DynColl σ) (first : Bool) (m : Nat) (w : σ) :
    (ownSubtract cfg T c first m w).mapErr Prod.fst = dynSubtract cfg T c first m w := by
  simp only [ownSubtract, dynSubtract, ownCondition, dynCondition, mapErr_bind, mapErr_ask, mapErr_at, mapErr_ite, mapErr_ok, mapErr_err]

theorem ownLoop_same (cfg : Cfg) (T : IntTy) (c : DynColl σ) (n : Nat) : ∀ (fuel count m : Nat) (first : Bool) (s : NStr) (w : σ),
    (ownLoop cfg T c n fuel count m first s w).mapErr Prod.fst = dynLoop cfg T c n fuel count m first s w := by
  intro fuel
  induction fuel with
  | zero => intros; rfl
  | succ fuel ih =>
    intro count m first s w
    simp only [ownLoop, dynLoop, mapErr_bind, mapErr_ask, mapErr_at, mapErr_ite, mapErr_ok, ownSubtract_same, mapErr_remT, mapErr_divT]
    split
    · congr 1
      funext p
      congr 1
      funext i
      congr 1
      funext q
      congr 1
      funext f
      congr 1
      funext m
      congr 1
      funext l
      cases T.tryFrom cfg l.1 with
      | some count => exact ih _ _ _ _ _
      | none => rfl
    · rfl

theorem ownTryFormat_same (cfg : Cfg) (T : IntTy) (fuel : Nat) : ∀ (depth : Nat) (d : DynSys σ) (n : Nat) (w : σ),
    (ownTryFormat cfg T fuel depth d n w).mapErr Prod.fst = dynTryFormat cfg T fuel depth d n w := by
  intro depth
  induction depth with
  | zero => intros; rfl
  | succ depth ih =>
    intro d n w
    simp only [ownTryFormat, dynTryFormat, mapErr_bind, mapErr_ask]
    congr 1
    funext p
    cases T.tryFrom cfg p.1 with
    | none => simp only [mapErr_bind, mapErr_ask, mapErr_at, mapErr_ok]
    | some count => simp only [ownOutOfRange, dynOutOfRange, mapErr_bind, mapErr_ask, mapErr_ite, mapErr_ok, mapErr_err, ih, ownLoop_same]

/-! ## More time changes nothing -/

theorem bind_more {ε α β : Type} {x : Res ε α} {g g' : α → Res ε β} {r : Res ε β} (h : x.bind g = r) (hg : ∀ a, g a = r → g' a = r) :
    x.bind g' = r := by
  cases x with
  | ok a => exact hg a h
  | _ => exact h

theorem ownLoop_more {cfg : Cfg} {T : IntTy} {c : DynColl σ} {n : Nat} {r : Res (Error × σ) (NStr × σ)} (hr : r ≠ .timeout) :
    ∀ (fuel count m : Nat) (first : Bool) (s : NStr) (w : σ), ownLoop cfg T c n fuel count m first s w = r →
    ∀ fuel', fuel ≤ fuel' → ownLoop cfg T c n fuel' count m first s w = r := by
  intro fuel
  induction fuel with
  | zero => intro count m first s w h; exact absurd h.symm hr
  | succ fuel ih =>
    intro count m first s w h fuel' hf
    obtain ⟨fuel', rfl⟩ : ∃ e, fuel' = e + 1 := ⟨fuel' - 1, by omega⟩
    rw [ownLoop] at h ⊢
    split
    · rename_i hc
      rw [if_pos hc] at h
      refine bind_more h fun p h => bind_more h fun i h => bind_more h fun q h => bind_more h fun f h => bind_more h fun m h => bind_more h fun l h => ?_
      cases ht : T.tryFrom cfg l.1 with
      | none => simp only [ht] at h ⊢; exact h
      | some count => simp only [ht] at h ⊢; exact ih _ _ _ _ _ h fuel' (by omega)
    · rename_i hc
      rw [if_neg hc] at h
      exact h

theorem ownTryFormat_more {cfg : Cfg} {T : IntTy} {n fuel : Nat} {r : Res (Error × σ) (NStr × σ)} (hr : r ≠ .timeout) :
    ∀ (depth : Nat) (d : DynSys σ) (w : σ), ownTryFormat cfg T fuel depth d n w = r →
    ∀ fuel' depth', fuel ≤ fuel' → depth ≤ depth' → ownTryFormat cfg T fuel' depth' d n w = r := by
  intro depth
  induction depth with
  | zero => intro d w h; exact absurd h.symm hr
  | succ depth ih =>
    intro d w h fuel' depth' hf hd
    obtain ⟨depth', rfl⟩ : ∃ e, depth' = e + 1 := ⟨depth' - 1, by omega⟩
    rw [ownTryFormat] at h ⊢
    refine bind_more h fun p h => ?_
    cases ht : T.tryFrom cfg p.1 with
    | none => simp only [ht] at h ⊢; exact h
    | some count =>
      simp only [ht] at h ⊢
      refine bind_more h fun o h => ?_
      cases ho : o.1
      · simp only [ho, Bool.false_eq_true, ↓reduceIte] at h ⊢
        exact ownLoop_more hr _ _ _ _ _ _ h _ hf
      · simp only [ho, ↓reduceIte] at h ⊢
        refine bind_more h fun x h => bind_more h fun e h => ?_
        cases he : e.1
        · simp only [he, Bool.false_eq_true, ↓reduceIte] at h ⊢
          exact ih _ _ h _ _ hf (by omega)
        · simp only [he, ↓reduceIte] at h ⊢
          exact h

/-! ## What a conversation leads to -/

theorem ownSubtract_asks {cfg : Cfg} {T : IntTy} {c : DynColl σ} {w w' : σ} {r : Round} {first : Bool} {m m' : Nat}
    (h : talk c w (r.asks first) = some w') (ht : r.Takes (T.bits cfg) cfg.checks first m m') :
    ownSubtract cfg T c first m w = .ok (m', w') := by
  obtain ⟨a, b, e, i, s, x⟩ := r
  simp only [Round.asks, talk, Option.bind_eq_some_iff] at h
  obtain ⟨w1, h1, h⟩ := h
  rw [reply_hasZero] at h1
  simp only [Round.Takes, Round.fromOne] at ht
  simp only [ownSubtract, ownCondition, h1, Res.ask, Res.call, Res.bind_ok]
  cases a
  · simp only [Bool.false_eq_true, ↓reduceIte, talk, Option.bind_eq_some_iff] at h
    obtain ⟨w2, h2, h⟩ := h
    rw [reply_zeroBased] at h2
    simp only [Bool.false_eq_true, ↓reduceIte, h2, Res.bind_ok]
    simp only [Round.fromOne, Bool.not_false, Bool.true_and] at h ht
    cases hc : (!b || !first)
    · rw [hc] at h ht
      simp only [Bool.false_eq_true, ↓reduceIte, talk, Option.some.injEq] at h ht ⊢
      rw [h, ht]
    · rw [hc] at h ht
      simp only [↓reduceIte, talk, Option.bind_eq_some_iff] at h ht ⊢
      obtain ⟨w3, h3, h⟩ := h
      rw [reply_hasZero] at h3
      simp only [h3, Res.bind_ok]
      simp only [Option.some.injEq] at h
      by_cases hm : m = 0
      · simp only [hm, ↓reduceIte] at ht
        obtain ⟨h4, h5, h6⟩ := ht
        subst h4 h hm
        simp only [Bool.not_true, Bool.false_and, Bool.false_eq_true, ↓reduceIte, decrement, h5, at_ok, Res.bind_ok, Res.ok.injEq, Prod.mk.injEq, and_true]
        omega
      · simp only [hm, ↓reduceIte] at ht
        subst h
        have : (m == 0) = false := by simp [hm]
        simp only [this, Bool.and_false, Bool.false_eq_true, ↓reduceIte, decrement, hm, at_ok, Res.bind_ok, Res.ok.injEq, Prod.mk.injEq, and_true]
        omega
  · simp only [↓reduceIte, talk, Option.some.injEq] at h
    simp only [Bool.not_true, Bool.false_and, Bool.false_eq_true, ↓reduceIte] at ht ⊢
    simp only [↓reduceIte, Res.bind_ok, Bool.false_eq_true, h, ht]

/-- The outcome of the formatter agrees with the outcome of a conversation that leaves state `w'`. -/
def Leaves (w' : σ) : Res (Error × σ) (NStr × σ) → Res Error (List Char) → Prop
  | r, .ok t => ∃ s, r = .ok (s, w') ∧ s.Is t
  | r, .err e => r = .err (e, w')
  | r, .panic => r = .panic
  | _, .ub => False
  | _, .timeout => False

theorem ownLoop_ends {cfg : Cfg} {T : IntTy} {c : DynColl σ} {n fuel base m : Nat} {first : Bool} {t : List Char} {last : List Call}
    {out : Res Error (List Char)} (hb : base < 2 ^ cfg.ptr.bits) (he : Ends cfg.alloc (T.bits cfg) cfg.checks n first base m t last out)
    {w w' : σ} (h : talk c w last = some w') {s : NStr} (hs : s.Is t) (ha : cfg.alloc = true ∨ utf8Len t ≤ 62) :
    Leaves w' (ownLoop cfg T c n (fuel + 1) base m first s w) out := by
  cases he with
  | done =>
    rw [ownLoop, if_neg (by simp)]
    simp only [talk, Option.some.injEq] at h
    exact ⟨s, by rw [h], hs⟩
  | noZero =>
    simp only [talk, Option.bind_eq_some_iff] at h
    obtain ⟨w1, h1, w2, h2, w3, h3, h4⟩ := h
    cases h4
    rw [reply_hasZero] at h1 h3
    rw [reply_zeroBased] at h2
    rw [ownLoop, if_pos (by simp)]
    simp [ownSubtract, ownCondition, h1, h2, h3, Res.ask, Res.call, Res.bind, Leaves]
  | underflow hc =>
    simp only [talk, Option.bind_eq_some_iff] at h
    obtain ⟨w1, h1, w2, h2, w3, h3, h4⟩ := h
    cases h4
    rw [reply_hasZero] at h1 h3
    rw [reply_zeroBased] at h2
    rw [ownLoop, if_pos (by simp)]
    simp [ownSubtract, ownCondition, h1, h2, h3, Res.ask, Res.call, Res.bind, Leaves, decrement, hc, at_panic]
  | empty r hm ht =>
    rw [ownLoop, if_pos hm, ownSubtract_asks h ht]
    simp [Res.bind, remT, Leaves]
  | memory r hm hi hq hal hl =>
    rw [talk_append, Option.bind_eq_some_iff] at h
    obtain ⟨w1, h1, h⟩ := h
    simp only [talk, Option.bind_eq_some_iff] at h
    obtain ⟨w2, h2, h⟩ := h
    rw [reply_digit] at h2
    rename_i q
    obtain ⟨hd, hr⟩ := div_of_eq (base := base) (i := r.index) (q := q) rfl hi
    rw [ownLoop, if_pos hm, ownSubtract_asks h1 hq]
    have hbase : base ≠ 0 := by omega
    simp only [Res.bind_ok, remT, if_neg hbase, hr, asUsize_of_lt hi hb, h2, Res.ask, Res.call]
    have hdel := (hs.pushFront (cfg := cfg) ha r.symbol).withNominal (n := n)
    generalize (s.pushFront cfg r.symbol).withNominal n = p at hdel ⊢
    cases hdel with
    | err t h1 h2 => cases h; rfl
    | ok s' t' h1 h2 =>
      exfalso
      rcases h2 with h2 | h2
      · rw [hal] at h2; cases h2
      · omega
  | grown r hm hi hq hal hl =>
    rw [Round.calls, talk_append, Option.bind_eq_some_iff] at h
    obtain ⟨w1, h1, h⟩ := h
    simp only [talk, Option.bind_eq_some_iff] at h
    obtain ⟨w2, h2, w3, h3, h⟩ := h
    rw [reply_digit] at h2
    rw [reply_len] at h3
    rename_i q
    obtain ⟨hd, hr⟩ := div_of_eq (base := base) (i := r.index) (q := q) rfl hi
    rw [ownLoop, if_pos hm, ownSubtract_asks h1 hq]
    have hbase : base ≠ 0 := by omega
    simp only [Res.bind_ok, remT, divT, if_neg hbase, hr, asUsize_of_lt hi hb, h2, Res.ask, Res.call]
    have hdel := (hs.pushFront (cfg := cfg) ha r.symbol).withNominal (n := n)
    generalize (s.pushFront cfg r.symbol).withNominal n = p at hdel ⊢
    cases hdel with
    | err t h1 h2 =>
      exfalso
      rcases hal with h4 | h4
      · rw [h4] at h1; cases h1
      · omega
    | ok s' t' h1 h2 =>
      cases h
      simp only [at_ok, Res.bind_ok, h3, tryFrom_of_le hl, Leaves]

theorem ownLoop_rounds {cfg : Cfg} {T : IntTy} {c : DynColl σ} {n fuel base' m' : Nat} {first' : Bool} {last : List Call}
    {out : Res Error (List Char)} (hlen : UsizeLen cfg c) : ∀ (rs : List Round) (first : Bool) (base m : Nat) (t : List Char) (s : NStr) (w w' : σ),
    base < 2 ^ cfg.ptr.bits → Rounds (T.bits cfg) cfg.checks first base m rs first' base' m' →
    (cfg.alloc = true ∨ utf8Len (symbols rs ++ t) ≤ 62) → s.Is t →
    Ends cfg.alloc (T.bits cfg) cfg.checks n first' base' m' (symbols rs ++ t) last out →
    talk c w (roundCalls first rs ++ last) = some w' →
    Leaves w' (ownLoop cfg T c n (fuel + 1 + rs.length) base m first s w) out := by
  intro rs
  induction rs with
  | nil =>
    intro first base m t s w w' hb hr ha hs he h
    obtain ⟨rfl, rfl, rfl⟩ := hr
    exact ownLoop_ends hb he h hs ha
  | cons r rs ih =>
    intro first base m t s w w' hb hr ha hs he h
    obtain ⟨hm, hi, hx, q, hq, hr⟩ := hr
    simp only [symbols, List.map_cons, List.reverse_cons, List.append_assoc, List.singleton_append] at ha he
    have hle := utf8Len_written_le rs r t
    have ha' : cfg.alloc = true ∨ utf8Len (r.symbol :: t) ≤ 62 := ha.imp_right fun h => by omega
    have ha0 : cfg.alloc = true ∨ utf8Len t ≤ 62 := ha'.imp_right fun h => by simp at h; omega
    rw [roundCalls, List.append_assoc, Round.calls, List.append_assoc, talk_append, Option.bind_eq_some_iff] at h
    obtain ⟨w1, h1, h⟩ := h
    simp only [List.cons_append, List.nil_append, talk, Option.bind_eq_some_iff] at h
    obtain ⟨w2, h2, w3, h3, h⟩ := h
    rw [reply_digit] at h2
    rw [reply_len] at h3
    obtain ⟨hd, hmod⟩ := div_of_eq (base := base) (i := r.index) (q := q) rfl hi
    have hbase : base ≠ 0 := by omega
    rw [show fuel + 1 + (r :: rs).length = (fuel + 1 + rs.length) + 1 by simp; omega, ownLoop, if_pos hm, ownSubtract_asks h1 hq]
    simp only [Res.bind_ok, remT, divT, if_neg hbase, hmod, hd, asUsize_of_lt hi hb, h2, Res.ask, Res.call]
    have hdel := (hs.pushFront (cfg := cfg) ha0 r.symbol).withNominal (n := n)
    generalize (s.pushFront cfg r.symbol).withNominal n = p at hdel ⊢
    cases hdel with
    | err t h1 h2 =>
      exfalso
      rcases ha' with h4 | h4
      · rw [h4] at h1; cases h1
      · omega
    | ok s' t' h5 h6 =>
      simp only [at_ok, Res.bind_ok, h3, tryFrom_of_lt hx]
      exact ih false r.next q (r.symbol :: t) s' w3 w' (hlen _ _ _ h3) hr ha h5 he h

theorem ownTryFormat_session {cfg : Cfg} {T : IntTy} {n : Nat} (d : DynSys σ) (hlen : ∀ k, UsizeLen cfg (d.level k)) {k : Nat}
    {tr : List (Nat × Call)} {out : Res Error (List Char)} (hs : Session cfg T n k tr out) : ∀ {w w' : σ}, converse d w tr = some w' →
    ∃ F D, ∀ fuel depth, F ≤ fuel → D ≤ depth → Leaves w' (ownTryFormat cfg T fuel depth ⟨fun j => d.level (k + j)⟩ n w) out := by
  induction hs with
  | @symbol k l c hl =>
    intro w w' h
    simp only [converse, Option.bind_eq_some_iff] at h
    obtain ⟨w1, h1, w2, h2, h⟩ := h
    rw [reply_len] at h1
    rw [reply_digit] at h2
    refine ⟨0, 1, fun fuel depth _ hd => ?_⟩
    obtain ⟨depth, rfl⟩ : ∃ e, depth = e + 1 := ⟨depth - 1, by omega⟩
    simp only [ownTryFormat, Nat.add_zero, h1, Res.ask, Res.call, Res.bind_ok, tryFrom_of_le hl, asUsize, h2]
    have hc := ofChar_del (ε := Error) cfg c (.outOfMemory n)
    have := utf8Size_le c
    generalize NStr.ofChar (ε := Error) cfg c = r at hc ⊢
    cases hc with
    | err t h1 h2 => simp at h2; omega
    | ok s' t' h3 h4 =>
      simp only [Option.some.injEq] at h
      exact ⟨s', by rw [← h]; rfl, h3⟩
  | @digits k l rs first base m last out hl hr ha he =>
    intro w w' h
    rw [converse_map] at h
    simp only [talk, Option.bind_eq_some_iff] at h
    obtain ⟨w1, h1, w2, h2, h⟩ := h
    rw [reply_len] at h1
    rw [reply_fixed] at h2
    refine ⟨1 + rs.length, 1, fun fuel depth hf hd => ?_⟩
    obtain ⟨depth, rfl⟩ : ∃ e, depth = e + 1 := ⟨depth - 1, by omega⟩
    obtain ⟨fuel, rfl⟩ : ∃ e, fuel = e + 1 + rs.length := ⟨fuel - 1 - rs.length, by omega⟩
    simp only [ownTryFormat, Nat.add_zero, h1, Res.ask, Res.call, Res.bind_ok, tryFrom_of_lt hl, ownOutOfRange, h2, Bool.false_eq_true, ↓reduceIte]
    exact ownLoop_rounds (hlen k) rs true l n [] _ _ _ (hlen k _ _ _ h1) hr (by simpa using ha) NStr.newReverse_is (by simpa using he) h
  | @fixedDigits k l z rs first base m last out hl hz hr ha he =>
    intro w w' h
    rw [converse_map] at h
    simp only [talk, Option.bind_eq_some_iff] at h
    obtain ⟨w1, h1, w2, h2, w3, h3, h⟩ := h
    rw [reply_len] at h1
    rw [reply_fixed] at h2
    rw [reply_zeroBased] at h3
    refine ⟨1 + rs.length, 1, fun fuel depth hf hd => ?_⟩
    obtain ⟨depth, rfl⟩ : ∃ e, depth = e + 1 := ⟨depth - 1, by omega⟩
    obtain ⟨fuel, rfl⟩ : ∃ e, fuel = e + 1 + rs.length := ⟨fuel - 1 - rs.length, by omega⟩
    have hcond : (if z = true then decide (n ≥ l) else decide (n > l)) = false := by
      unfold Beyond at hz
      cases z <;> simp_all
    simp only [ownTryFormat, Nat.add_zero, h1, Res.ask, Res.call, Res.bind_ok, tryFrom_of_lt hl, ownOutOfRange, h2, h3, ↓reduceIte, hcond, Bool.false_eq_true]
    exact ownLoop_rounds (hlen k) rs true l n [] _ _ _ (hlen k _ _ _ h1) hr (by simpa using ha) NStr.newReverse_is (by simpa using he) h
  | @refused k l z hl hz =>
    intro w w' h
    simp only [converse, Option.bind_eq_some_iff] at h
    obtain ⟨w1, h1, w2, h2, w3, h3, w4, h4, w5, h5, h⟩ := h
    rw [reply_len] at h1
    rw [reply_fixed] at h2
    rw [reply_zeroBased] at h3
    rw [reply_default] at h4
    rw [reply_isEmpty] at h5
    cases h
    refine ⟨0, 1, fun fuel depth hf hd => ?_⟩
    obtain ⟨depth, rfl⟩ : ∃ e, depth = e + 1 := ⟨depth - 1, by omega⟩
    have hcond : (if z = true then decide (n ≥ l) else decide (n > l)) = true := by
      unfold Beyond at hz
      cases z <;> simp_all
    simp only [ownTryFormat, Nat.add_zero, h1, Res.ask, Res.call, Res.bind_ok, tryFrom_of_lt hl, ownOutOfRange, h2, h3, ↓reduceIte, hcond,
      DynSys.fallback, Nat.zero_add, h4, h5, Leaves]
  | @fallback k l z rest out hl hz hs ih =>
    intro w w' h
    simp only [converse, Option.bind_eq_some_iff] at h
    obtain ⟨w1, h1, w2, h2, w3, h3, w4, h4, w5, h5, h⟩ := h
    rw [reply_len] at h1
    rw [reply_fixed] at h2
    rw [reply_zeroBased] at h3
    rw [reply_default] at h4
    rw [reply_isEmpty] at h5
    obtain ⟨F, D, hFD⟩ := ih h
    refine ⟨F, D + 1, fun fuel depth hf hd => ?_⟩
    obtain ⟨depth, rfl⟩ : ∃ e, depth = e + 1 := ⟨depth - 1, by omega⟩
    have hcond : (if z = true then decide (n ≥ l) else decide (n > l)) = true := by
      unfold Beyond at hz
      cases z <;> simp_all
    simp only [ownTryFormat, Nat.add_zero, h1, Res.ask, Res.call, Res.bind_ok, tryFrom_of_lt hl, ownOutOfRange, h2, h3, ↓reduceIte, hcond,
      DynSys.fallback, Nat.zero_add, h4, h5, Bool.false_eq_true]
    have := hFD fuel depth hf (by omega)
    simpa only [Nat.add_assoc, Nat.add_comm 1] using this

end
end Nominals.Conversation
