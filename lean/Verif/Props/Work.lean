import Verif.Proofs.Hebrew
import Verif.Props.Terminate
import Verif.Proofs.Additive
import Verif.Proofs.Ethiopic

/-!
# Property C69: how many loop iterations formatting takes

The loops of the model take a budget of iterations and answer `timeout` if it is used up (the last check of the loop condition
counts as one). "`timeout` exactly for budgets up to `k`" therefore means: the loop body runs exactly `k` times. Nothing here is
assumed about a user's collection: its methods may contradict each other.
-/

namespace Nominals.Props

open Nominals.Spec

/-- One turn either ends the loop, with the same result for every budget, or writes one more character in front. -/
theorem loop_step {cfg : Cfg} {T : IntTy} {c : Coll} {n count r : Nat} {f : Bool} {s : NStr} {t : List Char} (hs : s.Is t)
    (ha : cfg.alloc = true ∨ utf8Len t ≤ 62) :
    (∃ R, R ≠ .timeout ∧ (∀ s', R = .ok s' → s' = s) ∧ ∀ fuel, digitLoop cfg T c n (fuel + 1) count r f s = R) ∨
    ∃ count' r' s' ch, s'.Is (ch :: t) ∧ (cfg.alloc = true ∨ utf8Len (ch :: t) ≤ 62) ∧
      ∀ fuel, digitLoop cfg T c n (fuel + 1) count r f s = digitLoop cfg T c n fuel count' r' false s' := by
  have key : ∀ x, (∃ R, R ≠ .timeout ∧ (∀ s', R = .ok s' → s' = s) ∧ ∀ fuel, turn cfg T c n fuel count x s = R) ∨
      ∃ count' r' s' ch, s'.Is (ch :: t) ∧ (cfg.alloc = true ∨ utf8Len (ch :: t) ≤ 62) ∧
        ∀ fuel, turn cfg T c n fuel count x s = digitLoop cfg T c n fuel count' r' false s' := by
    intro x
    simp only [turn, remT, divT]
    by_cases h0 : count = 0
    · exact .inl ⟨.panic, nofun, nofun, fun fuel => by simp [h0, Res.bind]⟩
    · simp only [if_neg h0, Res.bind_ok]
      cases hd : c.digit (asUsize cfg (x % count)) with
      | none => exact .inl ⟨.panic, nofun, nofun, fun fuel => by simp [Res.ofIndex, Res.bind]⟩
      | some ch =>
        simp only [Res.ofIndex, Res.bind_ok]
        have hdel := (hs.pushFront ha ch).withNominal (n := n)
        revert hdel
        generalize (s.pushFront cfg ch).withNominal n = p
        generalize hu : ch :: t = u
        intro hdel
        cases hdel with
        | ok s' t' h1 h2 =>
          subst hu
          simp only [Res.bind_ok]
          cases ht : T.tryFrom cfg c.len with
          | none => exact .inl ⟨.err (.outOfBounds n), nofun, nofun, fun fuel => rfl⟩
          | some v => exact .inr ⟨v, x / count, s', ch, h1, h2, fun fuel => rfl⟩
        | err t' h1 h2 => exact .inl ⟨.err (.outOfMemory n), nofun, nofun, fun fuel => rfl⟩
  simp only [digitLoop_turn]
  split
  · split
    · split
      · exact .inl ⟨.err .noZeroSymbol, nofun, nofun, fun fuel => rfl⟩
      · exact key _
    · exact key _
  · exact .inl ⟨.ok s, nofun, fun s' h => (Res.ok.inj h).symm, fun fuel => rfl⟩

/-- A loop that is cut short has written one character per unit of budget. -/
theorem loop_timeout {cfg : Cfg} {T : IntTy} {c : Coll} {n : Nat} (fuel : Nat) : ∀ {count r : Nat} {f : Bool} {s : NStr} {t : List Char},
    s.Is t → (cfg.alloc = true ∨ utf8Len t ≤ 62) → digitLoop cfg T c n fuel count r f s = .timeout →
    (cfg.alloc = true ∨ utf8Len t + fuel ≤ 62) ∧
    ∀ fuel' s' t', digitLoop cfg T c n fuel' count r f s = .ok s' → s'.asStr = some t' → t.length + fuel ≤ t'.length := by
  induction fuel with
  | zero =>
    intro count r f s t hs ha _
    refine ⟨ha, fun fuel' => ?_⟩
    induction fuel' generalizing count r f s t with
    | zero => intro s' t' h; cases h
    | succ fuel' ih =>
      intro s' t' h ht'
      rcases loop_step (T := T) (c := c) (n := n) (count := count) (r := r) (f := f) hs ha with ⟨R, _, h2, h3⟩ | ⟨c', r', s1, ch, h1, h2, h3⟩
      · rw [h3] at h
        obtain rfl := h2 s' h
        have : t = t' := Option.some.inj ((hs.1.asStr).symm.trans ht')
        rw [this]; exact Nat.le_refl _
      · rw [h3] at h
        have := ih h1 h2 rfl s' t' h ht'
        simp only [List.length_cons] at this
        omega
  | succ fuel ih =>
    intro count r f s t hs ha h
    rcases loop_step (T := T) (c := c) (n := n) (count := count) (r := r) (f := f) hs ha with ⟨R, h1, _, h3⟩ | ⟨c', r', s1, ch, h1, h2, h3⟩
    · rw [h3] at h; exact absurd h h1
    · rw [h3] at h
      obtain ⟨i1, i2⟩ := ih h1 h2 h
      refine ⟨i1.imp id fun h => ?_, fun fuel' s' t' h' ht' => ?_⟩
      · have := Char.utf8Size_pos ch
        simp only [utf8Len_cons] at h
        omega
      · cases fuel' with
        | zero => cases h'
        | succ fuel' =>
          rw [h3] at h'
          have := i2 fuel' s' t' h' ht'
          simp only [List.length_cons] at this
          omega

/-- A loop that ends with a text has a budget larger than what it wrote. -/
theorem loop_ok {cfg : Cfg} {T : IntTy} {c : Coll} {n : Nat} (fuel : Nat) : ∀ {count r : Nat} {f : Bool} {s s' : NStr} {t t' : List Char},
    s.Is t → (cfg.alloc = true ∨ utf8Len t ≤ 62) → digitLoop cfg T c n fuel count r f s = .ok s' → s'.asStr = some t' →
    t'.length < t.length + fuel := by
  induction fuel with
  | zero => intro _ _ _ _ _ _ _ _ _ h; cases h
  | succ fuel ih =>
    intro count r f s s' t t' hs ha h ht'
    rcases loop_step (T := T) (c := c) (n := n) (count := count) (r := r) (f := f) hs ha with ⟨R, _, h2, h3⟩ | ⟨c', r', s1, ch, h1, h2, h3⟩
    · rw [h3] at h
      obtain rfl := h2 s' h
      have : t = t' := Option.some.inj ((hs.1.asStr).symm.trans ht')
      rw [this]; omega
    · rw [h3] at h
      have := ih h1 h2 h ht'
      simp only [List.length_cons] at this
      omega

theorem view_ok_iff {ε : Type} {r : Res ε NStr} {t : List Char} {i : Bool} (h : view r = .ok (t, i)) : ∃ s, r = .ok s ∧ s.asStr = some t := by
  cases r with
  | ok s =>
    refine ⟨s, rfl, ?_⟩
    simp only [view, Res.bind] at h
    split at h
    · next u hu => injection h with h; injection h with h _; rw [hu, h]
    · cases h
  | err e => cases h
  | panic => cases h
  | ub => cases h
  | timeout => cases h

/-- C69. The loop runs once per character of the text: for every collection that writes `n` itself and every run that returns a
text, budgets up to the length of the text are too small and all larger ones are enough. -/
theorem C69_once_per_character {cfg : Cfg} {T : IntTy} {d : DigitSys} {n fuel depth : Nat} (ho : ¬ HandsOver cfg T (d.level 0) n)
    (hl : (d.level 0).len < 2 ^ T.bits cfg) {t : List Char} {i : Bool}
    (h : view (digitTryFormat cfg T fuel (depth + 1) d n) = .ok (t, i)) (budget : Nat) :
    (digitTryFormat cfg T budget (depth + 1) d n = .timeout ↔ budget ≤ t.length) ∧
    (t.length < budget → digitTryFormat cfg T budget (depth + 1) d n = digitTryFormat cfg T fuel (depth + 1) d n) := by
  have step := fun f => (tryFormat_step (cfg := cfg) (T := T) (n := n) f depth d).2.1 ho hl
  rw [step fuel] at h
  obtain ⟨s, hs, ht⟩ := view_ok_iff h
  have start : cfg.alloc = true ∨ utf8Len [] ≤ 62 := .inr (by simp)
  have to : digitTryFormat cfg T budget (depth + 1) d n = .timeout → budget ≤ t.length := by
    intro hb
    rw [step budget] at hb
    simpa using (loop_timeout budget NStr.newReverse_is start hb).2 fuel s t hs ht
  have key : t.length < budget → digitTryFormat cfg T budget (depth + 1) d n = digitTryFormat cfg T fuel (depth + 1) d n := by
    intro hlt
    have hne : digitTryFormat cfg T budget (depth + 1) d n ≠ .timeout := fun e => by have := to e; omega
    have hne' : digitTryFormat cfg T fuel (depth + 1) d n ≠ .timeout := by rw [step, hs]; nofun
    rcases Nat.le_total budget fuel with hb | hb
    · exact (C52_budget_irrelevant _ _ d hne fuel _ hb (Nat.le_refl _)).symm
    · exact C52_budget_irrelevant _ _ d hne' budget _ hb (Nat.le_refl _)
  refine ⟨⟨to, fun hb => ?_⟩, key⟩
  apply Classical.byContradiction
  intro hne
  have e := C52_budget_irrelevant _ _ d hne (max budget fuel) _ (Nat.le_max_left _ _) (Nat.le_refl _)
  have e' := C52_budget_irrelevant (cfg := cfg) (T := T) (n := n) fuel (depth + 1) d (by rw [step, hs]; nofun) (max budget fuel) _ (Nat.le_max_right _ _) (Nat.le_refl _)
  have hbs : digitLoop cfg T (d.level 0) n budget (d.level 0).len n true NStr.newReverse = .ok s := by
    rw [← step budget, ← e, e', step, hs]
  have := loop_ok budget NStr.newReverse_is start hbs ht
  simp at this
  omega

/-- 1994 in decimal: four turns and a last look at the condition. -/
example : digitTryFormat ⟨true, .w64, true⟩ .u16 4 8 decimal 1994 = .timeout ∧
    view (digitTryFormat ⟨true, .w64, true⟩ .u16 5 8 decimal 1994) = .ok (['1', '9', '9', '4'], true) := by decide +kernel

/-- C69. Without `alloc` the loop runs at most 62 times to the end, for every collection and every number, also for those that
would run forever with `alloc`. -/
theorem C69_no_alloc {cfg : Cfg} {T : IntTy} {d : DigitSys} {n depth : Nat} (ha : cfg.alloc = false) (budget : Nat) (hb : 63 ≤ budget) :
    digitTryFormat cfg T budget depth d n = digitTryFormat cfg T 63 depth d n ∧
    (¬ HandsOver cfg T (d.level 0) n → digitTryFormat cfg T 63 (depth + 1) d n ≠ .timeout) := by
  have key : ∀ (d : DigitSys), ¬ HandsOver cfg T (d.level 0) n → ∀ depth, digitTryFormat cfg T 63 (depth + 1) d n ≠ .timeout := by
    intro d ho depth
    by_cases hl : (d.level 0).len < 2 ^ T.bits cfg
    · rw [(tryFormat_step 63 depth d).2.1 ho hl]
      intro h
      rcases (loop_timeout 63 NStr.newReverse_is (.inr (by simp)) h).1 with h | h
      · rw [ha] at h; cases h
      · omega
    · exact (tryFormat_step 63 depth d).2.2 hl
  refine ⟨?_, fun ho => key d ho depth⟩
  induction depth generalizing d with
  | zero => rfl
  | succ depth ih =>
    by_cases ho : HandsOver cfg T (d.level 0) n
    · rw [(tryFormat_step budget depth d).1 ho, (tryFormat_step 63 depth d).1 ho, ih]
    · exact C52_budget_irrelevant _ _ d (key d ho depth) budget _ hb (Nat.le_refl _)

/-- The one-symbol collection that runs forever with `alloc`. -/
example : digitTryFormat ⟨false, .w32, true⟩ .u8 63 1 (.digitSetNew ['0']) 1 = .err (.outOfMemory 1) := by decide +kernel

theorem loop_log {cfg : Cfg} {T : IntTy} {c : Coll} {n : Nat} (h : 2 ≤ c.len) (fuel : Nat) : ∀ (k r : Nat) (f : Bool) (s : NStr),
    r < 2 ^ k → (f = true → 1 ≤ k) → k + 1 ≤ fuel → digitLoop cfg T c n fuel c.len r f s ≠ .timeout := by
  induction fuel with
  | zero => intro k r f s _ _ h; omega
  | succ fuel ih =>
    intro k r f s hr hf hk
    have next : 1 ≤ k → ∀ r', r' < 2 ^ k → turn cfg T c n fuel c.len r' s ≠ .timeout := by
      intro h1 r' hr'
      refine turn_ne_timeout s fun s' => ih (k - 1) _ false s' ?_ nofun (by omega)
      refine Nat.div_lt_of_lt_mul (Nat.lt_of_lt_of_le hr' ?_)
      rw [show 2 ^ k = 2 * 2 ^ (k - 1) by rw [Nat.mul_comm, ← Nat.pow_succ]; congr 1; omega]
      exact Nat.mul_le_mul_right _ h
    rw [digitLoop_turn]
    have hk1 : r ≠ 0 ∨ f = true → 1 ≤ k := by
      rintro (h | h)
      · rcases k with _ | k
        · simp at hr; omega
        · omega
      · exact hf h
    split
    · rename_i hc
      split
      · split
        · nofun
        · exact next (hk1 hc) _ (by omega)
      · exact next (hk1 hc) _ hr
    · nofun

/-- C69. With at least two symbols (or none) the loop runs at most once per bit of the integer type, so at most 128 times: every
larger budget gives the same result. -/
theorem C69_once_per_bit {cfg : Cfg} {T : IntTy} {d : DigitSys} {n depth : Nat} (ho : ¬ HandsOver cfg T (d.level 0) n)
    (h1 : (d.level 0).len ≠ 1) (hn : T.Fits cfg n) (budget : Nat) (hb : T.bits cfg + 1 ≤ budget) :
    digitTryFormat cfg T budget (depth + 1) d n ≠ .timeout ∧
    digitTryFormat cfg T budget (depth + 1) d n = digitTryFormat cfg T (T.bits cfg + 1) (depth + 1) d n := by
  have key : digitTryFormat cfg T (T.bits cfg + 1) (depth + 1) d n ≠ .timeout := by
    by_cases hl : (d.level 0).len < 2 ^ T.bits cfg
    · rw [(tryFormat_step _ depth d).2.1 ho hl]
      by_cases h2 : 2 ≤ (d.level 0).len
      · exact loop_log h2 _ (T.bits cfg) n true _ hn (fun _ => by cases T <;> simp [IntTy.bits]; cases cfg.ptr <;> decide) (by omega)
      · rw [show (d.level 0).len = 0 by omega, digitLoop_turn, if_pos (.inr rfl)]
        split
        · split
          · nofun
          · simp [turn, remT, Res.bind]
        · simp [turn, remT, Res.bind]
    · exact (tryFormat_step _ depth d).2.2 hl
  have e := C52_budget_irrelevant _ _ d key budget _ hb (Nat.le_refl _)
  exact ⟨by rw [e]; exact key, e⟩

example : ¬ HandsOver ⟨true, .w64, true⟩ .u8 (decimal.level 0) 255 := by rintro ⟨h, _⟩; cases h

/-- C69. Additive sets, with `alloc` or with an empty symbol: the loop for one symbol runs once per copy, so its length is the
quotient, however large. An empty symbol, which `AdditiveSet::new` accepts, makes it run without writing anything. -/
theorem C69_additive_copies {cfg : Cfg} {n value : Nat} {symbol : List Char} (hv : value ≠ 0) (hx : cfg.alloc = true ∨ symbol = [])
    (budget remaining : Nat) {s : NStr} {t : List Char} (hs : s.Is t) (ha : cfg.alloc = true ∨ utf8Len t ≤ 62) :
    additiveWhile cfg T n symbol value budget remaining s = .timeout ↔ budget ≤ remaining / value := by
  induction budget generalizing remaining s t with
  | zero => exact ⟨fun _ => Nat.zero_le _, fun _ => rfl⟩
  | succ budget ih =>
    rw [additiveWhile]
    by_cases hr : remaining ≥ value
    · rw [if_pos hr, subT_le hr, Res.bind_ok, Nat.div_eq_sub_div (by omega) hr, Nat.add_le_add_iff_right]
      have hdel := (hs.pushStr ha symbol).withNominal (n := n)
      have hh : cfg.alloc = true ∨ utf8Len (t ++ symbol) ≤ 62 := by
        rcases hx with h | rfl
        · exact .inl h
        · simpa using ha
      revert hdel hh
      generalize (s.pushStr cfg symbol).withNominal n = p
      generalize t ++ symbol = u
      intro hdel hh
      cases hdel with
      | ok s' t' h1 h2 => rw [Res.bind_ok]; exact ih _ h1 h2
      | err t' h1 h2 =>
        rcases hh with h | h
        · rw [h1] at h; cases h
        · omega
    · rw [if_neg hr, Nat.div_eq_of_lt (by omega)]
      exact ⟨nofun, fun h => by omega⟩

/-- A thousand copies of a symbol of value 7: a budget of 142 rounds is too small, one of 143 is enough. -/
example : additiveWhile ⟨true, .w64, true⟩ .u32 1000 ['x', 'y'] 7 142 1000 NStr.new = .timeout ∧
    additiveWhile ⟨true, .w64, true⟩ .u32 1000 ['x', 'y'] 7 143 1000 NStr.new ≠ .timeout :=
  ⟨(C69_additive_copies (by decide) (.inl rfl) _ _ NStr.new_is (.inl rfl)).mpr (by decide),
    fun h => absurd ((C69_additive_copies (by decide) (.inl rfl) _ _ NStr.new_is (.inl rfl)).mp h) (by decide)⟩

/-- C69. Additive sets without `alloc`: with a non-empty symbol the loop ends after at most 62 copies. -/
theorem C69_additive_no_alloc {cfg : Cfg} {n value : Nat} {symbol : List Char} (hx : symbol ≠ []) (ha : cfg.alloc = false) (budget remaining : Nat) {s : NStr}
    {t : List Char} (hs : s.Is t) (hl : utf8Len t ≤ 62) (hb : 63 ≤ utf8Len t + budget) :
    additiveWhile cfg T n symbol value budget remaining s ≠ .timeout := by
  induction budget generalizing remaining s t with
  | zero => omega
  | succ budget ih =>
    rw [additiveWhile]
    split
    · next hr =>
      rw [subT_le hr, Res.bind_ok]
      have hdel := (hs.pushStr (cfg := cfg) (.inr hl) symbol).withNominal (n := n)
      have hlen : utf8Len t + 1 ≤ utf8Len (t ++ symbol) := by
        cases symbol with
        | nil => exact absurd rfl hx
        | cons ch rest =>
          have := Char.utf8Size_pos ch
          simp only [utf8Len_append, utf8Len_cons]
          omega
      revert hdel hlen
      generalize (s.pushStr cfg symbol).withNominal n = p
      generalize t ++ symbol = u
      intro hdel hlen
      cases hdel with
      | ok s' t' h1 h2 =>
        rw [Res.bind_ok]
        exact ih _ h1 (h2.resolve_left (by rw [ha]; nofun)) (by omega)
      | err t' h1 h2 => nofun
    · nofun

/-- An empty symbol of value 1: a million turns for a million, without `alloc`, and nothing written. -/
example : additiveWhile ⟨false, .w32, true⟩ .u32 1000000 [] 1 1000000 1000000 NStr.new = .timeout :=
  (C69_additive_copies (by decide) (.inr rfl) _ _ NStr.new_is (.inr (by simp))).mpr (by decide)

/-- C69. Hebrew: the loop for one letter runs at most once per copy of the letter, and without `alloc` at most 31 times, as a letter
has two bytes. -/
theorem C69_hebrew {cfg : Cfg} {n value : Nat} {symbol : Char} (hv : value ≠ 0) (hsym : 2 ≤ symbol.utf8Size) (budget remaining : Nat)
    {s : NStr} {t : List Char} (hs : s.Is t) (ha : cfg.alloc = true ∨ utf8Len t ≤ 62)
    (h : hebrewWhile cfg T n symbol value budget remaining s = .timeout) :
    budget ≤ remaining / value ∧ (cfg.alloc = false → utf8Len t + 2 * budget ≤ 62) := by
  induction budget generalizing remaining s t with
  | zero => exact ⟨Nat.zero_le _, fun hc => by rcases ha with ha | ha; (rw [hc] at ha; cases ha); omega⟩
  | succ budget ih =>
    rw [hebrewWhile] at h
    have step : ∀ {α : Type} {r : Res Error NStr} {u : List Char} {k : NStr → Res Error α}, Del cfg.alloc (.outOfMemory n) r u →
        r.bind k = .timeout → ∃ s', s'.Is u ∧ (cfg.alloc = true ∨ utf8Len u ≤ 62) ∧ k s' = .timeout := by
      intro α r u k hd hk
      cases hd with
      | ok s' t' h1 h2 => exact ⟨s', h1, h2, hk⟩
      | err t' h1 h2 => cases hk
    by_cases hr : remaining ≥ value
    · rw [if_pos hr] at h
      split at h
      · obtain ⟨_, _, _, h⟩ := step ((hs.pushStr ha _).withNominal) h; cases h
      · split at h
        · obtain ⟨_, _, _, h⟩ := step ((hs.pushStr ha _).withNominal) h; cases h
        · dsimp only at h
          split at h
          · obtain ⟨s1, h1, a1, h⟩ := step ((hs.push ha _).withNominal) h
            rw [subT_le hr, Res.bind_ok] at h
            obtain ⟨s2, h2, a2, h⟩ := step ((h1.push a1 _).withNominal) h
            obtain ⟨_, _, _, h⟩ := step ((h2.push a2 _).withNominal) h; cases h
          · rw [Res.bind_ok, subT_le hr, Res.bind_ok] at h
            obtain ⟨s2, h2, a2, h⟩ := step ((hs.push ha _).withNominal) h
            have := ih _ h2 a2 h
            rw [Nat.div_eq_sub_div (by omega) hr]
            refine ⟨by omega, fun hc => ?_⟩
            have := this.2 hc
            rw [utf8Len_append, utf8Len_cons] at this
            omega
    · rw [if_neg hr] at h; cases h

/-- Without `alloc` a million does not need 2,500 turns: 32 are enough to find that there is no room. -/
example : hebrewWhile ⟨false, .w64, true⟩ .u32 1000000 '\u05ea' 400 32 1000000 NStr.new ≠ .timeout := fun h =>
  absurd ((C69_hebrew (by decide) (by decide) _ _ NStr.new_is (.inr (by decide)) h).2 rfl) (by decide)

/-- C69. Hebrew with `alloc`: for a number of more than one letter the loop for the first letter runs exactly once per copy, however
many. -/
theorem C69_hebrew_copies {cfg : Cfg} (ha : cfg.alloc = true) {n : Nat} (budget remaining : Nat) (h400 : remaining ≠ 400)
    {s : NStr} {t : List Char} (hs : s.Is t) :
    hebrewWhile cfg T n '\u05ea' 400 budget remaining s = .timeout ↔ budget ≤ remaining / 400 := by
  refine ⟨fun h => (C69_hebrew (by decide) (by decide) _ _ hs (.inl ha) h).1, ?_⟩
  have key : ∀ (budget remaining : Nat) (s : NStr) (t : List Char), s.Is t → (remaining = 400 → t ≠ []) → budget ≤ remaining / 400 →
      hebrewWhile cfg T n '\u05ea' 400 budget remaining s = .timeout := by
    intro budget
    induction budget with
    | zero => intros; rfl
    | succ budget ih =>
      intro remaining s t hs h1 h
      have hr : remaining ≥ 400 := by omega
      have hns : ¬ ((decide (400 = remaining) && s.isEmpty) = true) := by
        rw [hs.isEmpty]
        simp only [Bool.and_eq_true, decide_eq_true_eq, not_and]
        intro he
        have := h1 he.symm
        cases t <;> simp_all
      rw [hebrewWhile, if_pos hr, if_neg (by omega), if_neg (by omega)]
      dsimp only
      rw [if_neg hns, Res.bind_ok, subT_le hr, Res.bind_ok]
      have hd := (hs.push (.inl ha) '\u05ea').withNominal (n := n)
      revert hd
      generalize hu : t ++ ['\u05ea'] = u
      generalize (s.push cfg '\u05ea').withNominal n = p
      intro hd
      cases hd with
      | ok s' t' h2 h3 => rw [Res.bind_ok, if_neg hns]; exact ih _ _ _ h2 (fun _ => by rw [← hu]; simp) (by omega)
      | err t' h2 h3 => rw [ha] at h2; cases h2
  exact fun h => key budget remaining s t hs (fun he => absurd he h400) h

/-- A million is 2500 letters: 2500 turns of the first loop. -/
example : hebrewWhile ⟨true, .w64, true⟩ .u32 1000000 '\u05ea' 400 2500 1000000 NStr.new = .timeout ∧
    hebrewWhile ⟨true, .w64, true⟩ .u32 1000000 '\u05ea' 400 2501 1000000 NStr.new ≠ .timeout :=
  ⟨(C69_hebrew_copies rfl _ _ (by decide) NStr.new_is).2 (by decide),
    fun h => absurd ((C69_hebrew_copies rfl _ _ (by decide) NStr.new_is).1 h) (by decide)⟩

theorem pushFront_ne_timeout' (cfg : Cfg) (s : NStr) (ch : Char) : s.pushFront cfg ch ≠ .timeout := by
  intro h
  have := pushFront_ne_timeout cfg s ch 0
  rw [h] at this
  exact this rfl

theorem ethiopic_turn (cfg : Cfg) (i r : Nat) (s : NStr) (hr : r ≠ 0) : ∃ body : Res OutOfMemoryError NStr, body ≠ .timeout ∧
    ∀ fuel, ethiopicLoop cfg (fuel + 1) i r s = body.bind fun s => ethiopicLoop cfg fuel (i + 1) (r / 100) s := by
  simp only [ethiopicLoop, if_neg hr, remT, divT, show ¬ (10 = 0) by decide, if_false, Res.bind_ok, Nat.div_div_eq_div_mul]
  have push : ∀ (b : Bool) (s : NStr) (o : Option Char),
      (if b = true then (Res.ofIndex o).bind fun ch => s.pushFront cfg ch else Res.ok s) ≠ .timeout := by
    intro b s o
    split
    · exact Res.bind_ne_timeout (Res.ofIndex_ne_timeout _) fun _ => pushFront_ne_timeout' _ _ _
    · nofun
  refine ⟨_, ?_, fun fuel => (Res.bind_assoc _ _ _).symm⟩
  refine Res.bind_ne_timeout ?_ fun s => ?_
  · split
    · split
      · exact pushFront_ne_timeout' _ _ _
      · split
        · exact pushFront_ne_timeout' _ _ _
        · nofun
    · nofun
  · split
    · exact Res.bind_ne_timeout (push _ _ _) fun s => push _ _ _
    · nofun

theorem ethiopic_ends (cfg : Cfg) (k : Nat) : ∀ (i r : Nat) (s : NStr), r < 100 ^ k → ∀ fuel, k < fuel →
    ethiopicLoop cfg fuel i r s ≠ .timeout ∧ ethiopicLoop cfg fuel i r s = ethiopicLoop cfg (k + 1) i r s := by
  induction k with
  | zero =>
    intro i r s hr fuel hf
    obtain ⟨fuel, rfl⟩ : ∃ m, fuel = m + 1 := ⟨fuel - 1, by omega⟩
    have : r = 0 := by simp at hr; exact hr
    subst this
    exact ⟨by simp [ethiopicLoop], by simp [ethiopicLoop]⟩
  | succ k ih =>
    intro i r s hr fuel hf
    obtain ⟨fuel, rfl⟩ : ∃ m, fuel = m + 1 := ⟨fuel - 1, by omega⟩
    by_cases h0 : r = 0
    · subst h0; exact ⟨by simp [ethiopicLoop], by simp [ethiopicLoop]⟩
    · obtain ⟨body, hb, e⟩ := ethiopic_turn cfg i r s h0
      have hr' : r / 100 < 100 ^ k := Nat.div_lt_of_lt_mul (by rw [Nat.pow_succ] at hr; omega)
      rw [e, e]
      refine ⟨Res.bind_ne_timeout hb fun s => (ih _ _ s hr' fuel (by omega)).1, Res.bind_congr _ fun s => ?_⟩
      exact (ih _ _ s hr' fuel (by omega)).2

/-- C69. Ethiopic: the loop runs at most once per two decimal digits; for a 128-bit number at most 20 times, so its `i32` counter
cannot overflow. -/
theorem C69_ethiopic {cfg : Cfg} {n : Nat} (hn : n < 2 ^ 128) (budget : Nat) (hb : 21 ≤ budget) :
    ethiopicLoop cfg budget 0 n NStr.newReverse ≠ .timeout ∧ ethiopicLoop cfg budget 0 n NStr.newReverse = formatEthiopic cfg n := by
  have h20 : n < 100 ^ 20 := Nat.lt_of_lt_of_le hn (by decide)
  obtain ⟨h1, h2⟩ := ethiopic_ends cfg 20 0 n NStr.newReverse h20 budget (by omega)
  refine ⟨h1, ?_⟩
  rw [h2, formatEthiopic]
  by_cases hs : n < 20
  · have small : n < 100 ^ n := Nat.lt_pow_self (by omega)
    obtain ⟨_, e1⟩ := ethiopic_ends cfg n 0 n NStr.newReverse small 21 (by omega)
    exact e1
  · exact (ethiopic_ends cfg 20 0 n NStr.newReverse h20 (n + 1) (by omega)).2.symm

example : ethiopicLoop ⟨true, .w64, true⟩ 30 0 (10 ^ 37 + 1) NStr.newReverse = formatEthiopic ⟨true, .w64, true⟩ (10 ^ 37 + 1) :=
  (C69_ethiopic (by decide) 30 (by decide)).2

end Nominals.Props
