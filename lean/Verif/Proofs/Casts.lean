import Verif.Model.Casts
import Verif.Spec.Protocol
import Verif.Proofs.ChineseFormat
import Verif.Proofs.DigitNamed

/-!
# No cast to `usize` loses anything
-/

namespace Nominals

open Nominals.Spec

theorem checkedUsize_ok {ε : Type} {cfg : Cfg} {out : Res Empty Nat} {n : Nat} (h : n < 2 ^ cfg.ptr.bits) :
    checkedUsize (ε := ε) cfg out n = .ok n := if_pos h

theorem asUsize_ok {cfg : Cfg} {n : Nat} (h : n < 2 ^ cfg.ptr.bits) : asUsize cfg n = n := Nat.mod_eq_of_lt h

theorem checked_bind {ε α : Type} {cfg : Cfg} {out : Res Empty Nat} {n : Nat} (h : n < 2 ^ cfg.ptr.bits) (f : Nat → Res ε α) :
    (checkedUsize cfg out n).bind f = f (asUsize cfg n) := by
  rw [checkedUsize_ok h, asUsize_ok h]; rfl

theorem bind_congr' {ε α β : Type} {r : Res ε α} {f g : α → Res ε β} (h : ∀ a, r = .ok a → f a = g a) : r.bind f = r.bind g := by
  cases r with
  | ok a => exact h a rfl
  | _ => rfl

theorem bind_is_ok {ε α β : Type} {r : Res ε α} {f : α → Res ε β} {b : β} (h : r.bind f = .ok b) : ∃ a, r = .ok a ∧ f a = .ok b := by
  cases r with
  | ok a => exact ⟨a, rfl, h⟩
  | _ => cases h

theorem remT_lt {ε : Type} {a b c : Nat} (h : remT (ε := ε) a b = .ok c) : c < b := by
  unfold remT at h
  split at h
  · cases h
  · rename_i hb
    cases h
    exact Nat.mod_lt _ (Nat.pos_of_ne_zero hb)

theorem tryFrom_value {cfg : Cfg} {T : IntTy} {v c : Nat} (h : T.tryFrom cfg v = some c) : c = v := by
  unfold IntTy.tryFrom at h
  split at h <;> simp_all

theorem tryFrom_none_lt {cfg : Cfg} {T : IntTy} {v n : Nat} (h : T.tryFrom cfg v = none) (hn : T.Fits cfg n) : n < v := by
  unfold IntTy.tryFrom at h
  split at h
  · cases h
  · exact Nat.lt_of_lt_of_le hn (by omega)

/-! ## Digit collections -/

theorem digitLoopK_eq {cfg : Cfg} {out : Res Empty Nat} {T : IntTy} {c : Coll} (hc : c.len < 2 ^ cfg.ptr.bits) {nominal : Nat} :
    ∀ (fuel count remaining : Nat) (first : Bool) (s : NStr), count < 2 ^ cfg.ptr.bits →
      digitLoopK cfg out T c nominal fuel count remaining first s = digitLoop cfg T c nominal fuel count remaining first s := by
  intro fuel
  induction fuel with
  | zero => intros; rfl
  | succ fuel ih =>
    intro count remaining first s hcount
    unfold digitLoopK digitLoop
    split
    · refine bind_congr' fun rem _ => bind_congr' fun idx hidx => ?_
      rw [checked_bind (Nat.lt_trans (remT_lt hidx) hcount)]
      refine bind_congr' fun ch _ => bind_congr' fun f _ => bind_congr' fun r _ => ?_
      cases ht : T.tryFrom cfg c.len with
      | none => rfl
      | some k => exact ih _ _ _ _ (tryFrom_value ht ▸ hc)
    · rfl

theorem digitTryFormatK_eq {cfg : Cfg} {out : Res Empty Nat} {T : IntTy} {fuel nominal : Nat} (hn : T.Fits cfg nominal) :
    ∀ (depth : Nat) (d : DigitSys), (∀ k, (d.level k).len < 2 ^ cfg.ptr.bits) →
      digitTryFormatK cfg out T fuel depth d nominal = digitTryFormat cfg T fuel depth d nominal := by
  intro depth
  induction depth with
  | zero => intros; rfl
  | succ depth ih =>
    intro d hd
    unfold digitTryFormatK digitTryFormat
    simp only
    cases ht : T.tryFrom cfg (d.level 0).len with
    | none => exact checked_bind (Nat.lt_trans (tryFrom_none_lt ht hn) (hd 0)) _
    | some count =>
      simp only
      rw [ih d.fallback fun k => hd (k + 1), digitLoopK_eq (hd 0) _ _ _ _ _ (tryFrom_value ht ▸ hd 0)]

theorem call_ok {ε α : Type} {r : Res Empty α} {a : α} (h : r.call (ε := ε) = .ok a) : r = .ok a := by
  cases r with
  | ok b => cases h; rfl
  | err e => exact e.elim
  | _ => cases h

theorem dynLoopK_eq {σ : Type} {cfg : Cfg} {out : Res Empty Nat} {T : IntTy} {c : DynColl σ} (hc : UsizeLen cfg c) {nominal : Nat} :
    ∀ (fuel count remaining : Nat) (first : Bool) (s : NStr) (w : σ), count < 2 ^ cfg.ptr.bits →
      dynLoopK cfg out T c nominal fuel count remaining first s w = dynLoop cfg T c nominal fuel count remaining first s w := by
  intro fuel
  induction fuel with
  | zero => intros; rfl
  | succ fuel ih =>
    intro count remaining first s w hcount
    unfold dynLoopK dynLoop
    split
    · refine bind_congr' fun rem _ => bind_congr' fun idx hidx => ?_
      rw [checked_bind (Nat.lt_trans (remT_lt hidx) hcount)]
      refine bind_congr' fun ch _ => bind_congr' fun f _ => bind_congr' fun r _ => bind_congr' fun (l, w') hl => ?_
      have hl' : l < 2 ^ cfg.ptr.bits := hc ch.2 l w' (call_ok hl)
      simp only
      cases ht : T.tryFrom cfg l with
      | none => rfl
      | some k => exact ih _ _ _ _ _ (tryFrom_value ht ▸ hl')
    · rfl

theorem dynTryFormatK_eq {σ : Type} {cfg : Cfg} {out : Res Empty Nat} {T : IntTy} {fuel nominal : Nat} (hn : T.Fits cfg nominal) :
    ∀ (depth : Nat) (d : DynSys σ) (w : σ), (∀ k, UsizeLen cfg (d.level k)) →
      dynTryFormatK cfg out T fuel depth d nominal w = dynTryFormat cfg T fuel depth d nominal w := by
  intro depth
  induction depth with
  | zero => intros; rfl
  | succ depth ih =>
    intro d w hd
    unfold dynTryFormatK dynTryFormat
    simp only
    refine bind_congr' fun (l, w') hl => ?_
    have hl' : l < 2 ^ cfg.ptr.bits := hd 0 w l w' (call_ok hl)
    simp only
    cases ht : T.tryFrom cfg l with
    | none => exact checked_bind (Nat.lt_trans (tryFrom_none_lt ht hn) hl') _
    | some count =>
      refine bind_congr' fun o _ => ?_
      split
      · refine bind_congr' fun _ _ => bind_congr' fun e _ => ?_
        rw [ih d.fallback _ fun k => hd (k + 1)]
      · exact dynLoopK_eq (hd 0) _ _ _ _ _ _ (tryFrom_value ht ▸ hl')

/-! ## Ethiopic -/

theorem small_ptr {cfg : Cfg} {n : Nat} (h : n < 65536) : n < 2 ^ cfg.ptr.bits := Nat.lt_of_lt_of_le h (ptr_ge cfg)

theorem ethiopicLoopK_eq {cfg : Cfg} {out : Res Empty Nat} : ∀ (fuel g r : Nat) (s : NStr),
    ethiopicLoopK cfg out fuel g r s = ethiopicLoop cfg fuel g r s := by
  intro fuel
  induction fuel with
  | zero => intros; rfl
  | succ fuel ih =>
    intro g r s
    unfold ethiopicLoopK ethiopicLoop
    split
    · rfl
    · refine bind_congr' fun first h1 => bind_congr' fun rem _ => bind_congr' fun second h2 => bind_congr' fun rem' _ => ?_
      have h1 := remT_lt h1
      have h2 := remT_lt h2
      simp only
      refine bind_congr' fun f _ => ?_
      simp only [checked_bind (small_ptr (cfg := cfg) (n := first) (by omega)),
        checked_bind (small_ptr (cfg := cfg) (n := second) (by omega)), ih]

theorem ethiopicTryFormatK_eq {cfg : Cfg} {out : Res Empty Nat} {T : IntTy} {n : Nat} :
    ethiopicTryFormatK cfg out n = ethiopicTryFormat cfg T n := by
  unfold ethiopicTryFormatK ethiopicTryFormat formatEthiopic
  rw [ethiopicLoopK_eq]

/-! ## Chinese -/

theorem pushDigitK_eq {cfg : Cfg} {out : Res Empty Nat} {characters : List Char} {d : Nat} (h : d < 65536) (s : NStr) :
    pushDigitK cfg out characters d s = pushAt cfg characters (asUsize cfg d) s := checked_bind (small_ptr h) _

theorem chineseInnerK_eq {cfg : Cfg} {out : Res Empty Nat} {formal : Bool} {characters : List Char} {n : Nat} {p z : Bool} (h : n < 65536) :
    chineseInnerK cfg out formal characters n p z = chineseInner cfg formal characters n p z := by
  unfold chineseInnerK chineseInner
  simp only [pushDigitK_eq (show n / 10 / 10 / 10 < 65536 by omega), pushDigitK_eq (show n / 10 / 10 % 10 < 65536 by omega),
    pushDigitK_eq (show n / 10 % 10 < 65536 by omega), pushDigitK_eq (show n % 10 < 65536 by omega)]

theorem shortBodyK_eq {cfg : Cfg} {out : Res Empty Nat} {characters large : List Char} {rank scale remaining : Nat} {s : NStr} {z : Bool} :
    shortBodyK cfg out characters large rank scale remaining s z = shortBody cfg characters large rank scale remaining s z := by
  unfold shortBodyK shortBody
  refine bind_congr' fun v _ => ?_
  split
  · rfl
  · simp only [pushDigitK_eq (show v < 65536 by omega)]

theorem shortBody_lt {cfg : Cfg} {characters large : List Char} {rank scale remaining : Nat} {s : NStr} {z : Bool} {r : Nat × NStr × Bool}
    (h : shortBody cfg characters large rank scale remaining s z = .ok r) : r.1 < scale := by
  unfold shortBody at h
  obtain ⟨v, -, h⟩ := bind_is_ok h
  split at h
  · cases h
  · obtain ⟨rem, hr, h⟩ := bind_is_ok h
    have hr := remT_lt hr
    split at h
    · split at h
      · obtain ⟨f, -, h⟩ := bind_is_ok h
        cases h
        exact hr
      · cases h
        exact hr
    · obtain ⟨f, -, h⟩ := bind_is_ok h
      obtain ⟨f, -, h⟩ := bind_is_ok h
      cases h
      exact hr

theorem shortLoopK_eq {cfg : Cfg} {out : Res Empty Nat} {T : IntTy} {characters large : List Char} : ∀ (rank scale remaining : Nat) (s : NStr) (z : Bool),
    shortLoopK cfg out T characters large rank scale remaining s z = shortLoop cfg T characters large rank scale remaining s z := by
  intro rank
  induction rank with
  | zero =>
    intro scale remaining s z
    unfold shortLoopK shortLoop
    rw [shortBodyK_eq]
  | succ rank ih =>
    intro scale remaining s z
    unfold shortLoopK shortLoop
    rw [shortBodyK_eq]
    split
    · rfl
    · refine bind_congr' fun v _ => bind_congr' fun sc _ => ?_
      cases T.tryFrom cfg sc with
      | none => rfl
      | some k => exact ih _ _ _ _

theorem shortLoop_lt {cfg : Cfg} {T : IntTy} {characters large : List Char} : ∀ (rank scale remaining : Nat) (s : NStr) (z : Bool)
    (r : Nat × NStr × Bool), (rank = 0 → scale = 10 ^ 4) → shortLoop cfg T characters large rank scale remaining s z = .ok r → r.1 < 10 ^ 4 := by
  intro rank
  induction rank with
  | zero =>
    intro scale remaining s z r hs h
    unfold shortLoop at h
    split at h
    · rename_i h0
      cases h
      show remaining < _
      omega
    · exact hs rfl ▸ shortBody_lt h
  | succ rank ih =>
    intro scale remaining s z r _ h
    unfold shortLoop at h
    split at h
    · rename_i h0
      cases h
      show remaining < _
      omega
    · obtain ⟨v, -, h⟩ := bind_is_ok h
      obtain ⟨sc, hsc, h⟩ := bind_is_ok h
      cases ht : T.tryFrom cfg sc with
      | none => rw [ht] at h; cases h
      | some k =>
        rw [ht] at h
        refine ih _ _ _ _ _ (fun h0 => ?_) h
        subst h0
        cases hsc
        exact tryFrom_value ht

theorem formatShortRankAtK_eq {cfg : Cfg} {out : Res Empty Nat} {T : IntTy} {formal : Bool} {characters large : List Char} {n rank scale : Nat}
    (hs : rank = 0 → scale = 10 ^ 4) :
    formatShortRankAtK cfg out T formal characters large n rank scale = formatShortRankAt cfg T formal characters large n rank scale := by
  unfold formatShortRankAtK formatShortRankAt
  rw [shortLoopK_eq]
  refine bind_congr' fun r hr => ?_
  have := shortLoop_lt _ _ _ _ _ _ hs hr
  simp only [chineseInnerK_eq (show r.1 < 65536 by omega)]
  rfl

theorem formatShortRankK_eq {cfg : Cfg} {out : Res Empty Nat} {T : IntTy} {formal : Bool} {characters large : List Char} {n : Nat} : ∀ rank,
    formatShortRankK cfg out T formal characters large n rank = formatShortRank cfg T formal characters large n rank := by
  intro rank
  induction rank with
  | zero =>
    unfold formatShortRankK formatShortRank
    refine bind_congr' fun sc hsc => ?_
    cases ht : T.tryFrom cfg sc with
    | none => rfl
    | some k => exact formatShortRankAtK_eq fun _ => by cases hsc; exact tryFrom_value ht
  | succ rank ih =>
    unfold formatShortRankK formatShortRank
    refine bind_congr' fun sc hsc => ?_
    cases ht : T.tryFrom cfg sc with
    | none => exact ih
    | some k => exact formatShortRankAtK_eq fun h => absurd h (by omega)

/-- If the part below agrees on all numbers that reach it, so does a rank. -/
theorem scaledRankBody_congr {cfg : Cfg} {large : List Char} {scales : List (Option Nat)} {rank : Nat} {f g : ScaledFn} {n : Nat}
    (h0 : scales[rank]?.join = none → ∀ p z, f n p z = g n p z)
    (h1 : ∀ sc, scales[rank]?.join = some sc → ∀ x, x < sc → ∀ p z, f x p z = g x p z)
    (h2 : ∀ sc, scales[rank]?.join = some sc → (∀ up, scales[rank + 1]?.join = some up → n / sc < up / sc) → ∀ p z, f (n / sc) p z = g (n / sc) p z)
    (p z : Bool) : scaledRankBody cfg large scales rank f n p z = scaledRankBody cfg large scales rank g n p z := by
  unfold scaledRankBody
  cases hs : scales[rank]?.join with
  | none => exact h0 hs p z
  | some sc =>
    refine bind_congr' fun rem hrem => bind_congr' fun v hv => bind_congr' fun u hu => ?_
    have hrem := remT_lt hrem
    have hv' : v = n / sc := by
      unfold divT at hv
      split at hv <;> cases hv
      rfl
    subst hv'
    have hup : ∀ up, scales[rank + 1]?.join = some up → n / sc < up / sc := by
      intro up hup
      rw [hup] at hu
      obtain ⟨fa, hfa, hu⟩ := bind_is_ok hu
      have : fa = up / sc := by
        unfold divT at hfa
        split at hfa <;> cases hfa
        rfl
      subst this
      split at hu
      · cases hu
      · omega
    simp only [h2 sc hs hup, h1 sc hs rem hrem]

/-- A rank that has scales of 10⁴ and at most 10⁸ for the first two ranks. -/
theorem scaledNextK_one {cfg : Cfg} {out : Res Empty Nat} {formal : Bool} {characters large : List Char} {scales : List (Option Nat)} {n : Nat}
    (h0 : scales[0]?.join = some (10 ^ 4)) (h1 : scales[1]?.join = some (10 ^ 8) ∨ n < 65536) (p z : Bool) :
    scaledNextK cfg out formal characters large scales 1 n p z = scaledNext cfg formal characters large scales 1 n p z := by
  show scaledRankBody _ _ _ _ _ _ _ _ = scaledRankBody _ _ _ _ _ _ _ _
  refine scaledRankBody_congr (fun h => ?_) (fun sc hsc x hx p z => ?_) (fun sc hsc hup p z => ?_) p z
  · rw [h0] at h; cases h
  · rw [h0] at hsc
    cases hsc
    show (chineseInnerK _ _ _ _ _ _ _).toChinese = _
    rw [chineseInnerK_eq (by omega)]
    rfl
  · rw [h0] at hsc
    cases hsc
    show (chineseInnerK _ _ _ _ _ _ _).toChinese = _
    rw [chineseInnerK_eq]
    · rfl
    · rcases h1 with h1 | h1
      · have := hup _ h1
        omega
      · omega

theorem scaledNextK_all {cfg : Cfg} {out : Res Empty Nat} {formal : Bool} {characters large : List Char} {scales : List (Option Nat)}
    (h0 : scales[0]?.join = some (10 ^ 4)) (h1 : scales[1]?.join = some (10 ^ 8)) : ∀ (rank n : Nat) (p z : Bool),
    scaledNextK cfg out formal characters large scales (rank + 1) n p z = scaledNext cfg formal characters large scales (rank + 1) n p z := by
  intro rank
  induction rank with
  | zero => exact fun n p z => scaledNextK_one h0 (.inl h1) p z
  | succ rank ih =>
    intro n p z
    show scaledRankBody _ _ _ _ _ _ _ _ = scaledRankBody _ _ _ _ _ _ _ _
    exact scaledRankBody_congr (fun _ => ih n) (fun _ _ x _ => ih x) (fun _ _ _ => ih _) p z

theorem scaledNextK_none {cfg : Cfg} {out : Res Empty Nat} {formal : Bool} {characters large : List Char} {scales : List (Option Nat)}
    (h0 : scales[0]?.join = some (10 ^ 4)) (h1 : ∀ r, scales[r + 1]?.join = none) {n : Nat} (hn : n < 65536) : ∀ (rank : Nat) (p z : Bool),
    scaledNextK cfg out formal characters large scales (rank + 1) n p z = scaledNext cfg formal characters large scales (rank + 1) n p z := by
  intro rank
  induction rank with
  | zero => exact fun p z => scaledNextK_one h0 (.inr hn) p z
  | succ rank ih =>
    intro p z
    show scaledRankBody _ _ _ _ _ _ _ _ = scaledRankBody _ _ _ _ _ _ _ _
    refine scaledRankBody_congr (fun _ => ih) (fun sc h => ?_) (fun sc h => ?_) p z <;> rw [h1 rank] at h <;> cases h

theorem formatScaledK_eq {cfg : Cfg} {out : Res Empty Nat} {T : IntTy} {formal : Bool} {characters large : List Char} {rest : List Nat} {n : Nat}
    (hr : ∀ x ∈ rest, 10 ^ 8 ≤ x) (h4 : 10 ^ 4 < 2 ^ T.bits cfg) (hn : T.Fits cfg n) :
    formatScaledK cfg out T formal (10 ^ 4 :: 10 ^ 8 :: rest) characters large n
      = formatScaled cfg T formal (10 ^ 4 :: 10 ^ 8 :: rest) characters large n := by
  show Res.map _ (scaledNextK _ _ _ _ _ _ 11 _ _ _) = Res.map _ (scaledNext _ _ _ _ _ 11 _ _ _)
  have h0 : ((10 ^ 4 :: 10 ^ 8 :: rest).map (T.tryFrom cfg))[0]?.join = some (10 ^ 4) := by
    show T.tryFrom cfg (10 ^ 4) = _
    exact if_pos h4
  by_cases h8 : 10 ^ 8 < 2 ^ T.bits cfg
  · rw [scaledNextK_all h0]
    show T.tryFrom cfg (10 ^ 8) = _
    exact if_pos h8
  · have hT : 2 ^ T.bits cfg ≤ 65536 := by
      rcases bits_cases cfg T with h | h | h | h | h <;> rw [h] at h8 ⊢ <;> omega
    rw [scaledNextK_none h0 _ (Nat.lt_of_lt_of_le hn hT)]
    intro r
    show ((10 ^ 8 :: rest).map (T.tryFrom cfg))[r]?.join = none
    rw [List.getElem?_map]
    cases hx : (10 ^ 8 :: rest)[r]? with
    | none => rfl
    | some x =>
      have hx8 : 10 ^ 8 ≤ x := by
        rcases List.mem_cons.mp (List.mem_of_getElem? hx) with h | h
        · omega
        · exact hr x h
      have : T.tryFrom cfg x = none := if_neg (by omega)
      exact this

theorem formatChineseK_eq {cfg : Cfg} {out : Res Empty Nat} {T : IntTy} {formal : Bool} {characters large : List Char} {n : Nat}
    {scale : ChineseScale} (hn : T.Fits cfg n) :
    formatChineseK cfg out T formal characters large n scale = formatChinese cfg T formal characters large n scale := by
  unfold formatChineseK formatChinese
  split
  · rfl
  · simp only
    cases ht : T.tryFrom cfg 10000 with
    | none => simp only [chineseInnerK_eq (show n < 65536 by have := tryFrom_none_lt ht hn; omega)]
    | some v =>
      have h4 : 10 ^ 4 < 2 ^ T.bits cfg := by
        unfold IntTy.tryFrom at ht
        split at ht
        · assumption
        · cases ht
      have hv := tryFrom_value ht
      simp only
      split
      · have : scale.formatK cfg out T formal characters large n = scale.format cfg T formal characters large n := by
          cases scale
          · exact formatShortRankK_eq _
          · exact formatScaledK_eq (by decide) h4 hn
          · exact formatScaledK_eq (by decide) h4 hn
          · exact formatScaledK_eq (by decide) h4 hn
        rw [this]
        rfl
      · rw [chineseInnerK_eq (by omega)]

/-! ## Named systems -/

theorem EnumSet.tryFormatK_eq (e : EnumSet) (cfg : Cfg) (T : IntTy) (n : Nat) : e.tryFormatK cfg T n = e.tryFormat cfg T n := rfl

theorem named_short {d : DigitSys} (h : (d.level 0).len < 65536) : ∀ k, ((DigitSys.named d).level k).len < 65536
  | 0 => h
  | _ + 1 => by show 0 < 65536; omega

theorem Named.tryFormatK_eq (s : Named) {cfg : Cfg} {out : Res Empty Nat} {T : IntTy} {n : Nat} (hn : T.Fits cfg n) :
    s.tryFormatK cfg out T n = s.system.tryFormat cfg T n := by
  have fixed : ∀ c : Coll, c.len < 65536 → ∀ k, ((DigitSys.withFallback c Nominals.cjkDecimal).level k).len < 65536
    | _, h, 0 => h
    | _, _, k + 1 => named_short (d := .digitSetNew cjkDecimalDigits) (by decide) k
  cases s with
  | ethiopic => exact ethiopicTryFormatK_eq (T := T)
  | chinese k o => exact formatChineseK_eq hn
  | circledNumber => exact EnumSet.tryFormatK_eq _ _ T _
  | doubleCircledNumber => exact EnumSet.tryFormatK_eq _ _ T _
  | romanLower => rfl
  | romanUpper => rfl
  | armenianUpper => rfl
  | armenianLower => rfl
  | georgian => rfl
  | japaneseFormal => rfl
  | japaneseInformal => rfl
  | hangeulFormal => rfl
  | hanjaInformal => rfl
  | hanjaFormal => rfl
  | hebrew => rfl
  | cjkHeavenlyStem => exact digitTryFormatK_eq hn _ _ fun k => small_ptr (fixed _ (show _ < 65536 by decide) k)
  | cjkEarthlyBranch => exact digitTryFormatK_eq hn _ _ fun k => small_ptr (fixed _ (show _ < 65536 by decide) k)
  | _ => exact digitTryFormatK_eq hn _ _ fun k => small_ptr (named_short (by decide) k)

end Nominals
