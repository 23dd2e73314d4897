import Verif.Model.ChineseTrace
import Verif.Spec.ChineseTrace
import Verif.Spec.Catalogue
import Verif.Proofs.ChineseFormat

/-!
# Property C69, the Chinese systems: which four-digit groups are formatted, and how often
-/

namespace Nominals.Props

open Nominals.Spec

/-! ## Logs -/

theorem erase_bind {ε α β : Type} (r : Traced ε α) (f : α → Traced ε β) : (r.bind f).2 = r.2.bind fun a => (f a).2 := by
  unfold Traced.bind
  cases r.2 <;> rfl

theorem erase_silent {ε α : Type} (r : Res ε α) : r.silent.2 = r := rfl

/-- The log is `g`, or the beginning of it if there was an error. -/
def Follows {ε α : Type} (t : Traced ε α) (g : List Nat) : Prop := t.1 <+: g ∧ ((∃ a, t.2 = .ok a) → t.1 = g)

theorem Follows.silent {ε α : Type} (r : Res ε α) : Follows r.silent [] := ⟨List.nil_prefix, fun _ => rfl⟩

theorem Follows.bind {ε α β : Type} {t : Traced ε α} {f : α → Traced ε β} {g h : List Nat} (ht : Follows t g)
    (hf : ∀ a, t.2 = .ok a → Follows (f a) h) : Follows (t.bind f) (g ++ h) := by
  obtain ⟨l, r⟩ := t
  cases r with
  | ok a =>
    have e : l = g := ht.2 ⟨a, rfl⟩
    subst e
    obtain ⟨h1, h2⟩ := hf a rfl
    refine ⟨(List.prefix_append_right_inj l).2 h1, fun ⟨b, hb⟩ => ?_⟩
    show l ++ (f a).1 = _
    rw [h2 ⟨b, hb⟩]
  | err _ => exact ⟨ht.1.trans (List.prefix_append _ _), fun ⟨_, h⟩ => nomatch h⟩
  | panic => exact ⟨ht.1.trans (List.prefix_append _ _), fun ⟨_, h⟩ => nomatch h⟩
  | ub => exact ⟨ht.1.trans (List.prefix_append _ _), fun ⟨_, h⟩ => nomatch h⟩
  | timeout => exact ⟨ht.1.trans (List.prefix_append _ _), fun ⟨_, h⟩ => nomatch h⟩

theorem Follows.silent_bind {ε α β : Type} {r : Res ε α} {f : α → Traced ε β} {h : List Nat}
    (hf : ∀ a, r = .ok a → Follows (f a) h) : Follows (r.silent.bind f) h :=
  (Follows.silent r).bind hf

theorem Follows.then_silent {ε α β : Type} {t : Traced ε α} {f : α → Res ε β} {g : List Nat} (ht : Follows t g) :
    Follows (t.bind fun a => (f a).silent) g := by
  simpa using ht.bind (h := []) fun a _ => .silent _

/-! ## The log does not matter -/

theorem erase_shortAt (cfg : Cfg) (T : IntTy) (formal : Bool) (characters large : List Char) (nominal rank scale : Nat) :
    (formatShortRankAtT cfg T formal characters large nominal rank scale).2 = formatShortRankAt cfg T formal characters large nominal rank scale := by
  unfold formatShortRankAtT formatShortRankAt
  rw [erase_bind, erase_silent]
  congr 1
  funext ⟨remaining, formatted, l⟩
  dsimp only
  split
  · rw [erase_bind]; rfl
  · rfl

theorem erase_short (cfg : Cfg) (T : IntTy) (formal : Bool) (characters large : List Char) (nominal : Nat) : ∀ rank,
    (formatShortRankT cfg T formal characters large nominal rank).2 = formatShortRank cfg T formal characters large nominal rank
  | 0 => by
    unfold formatShortRankT formatShortRank
    rw [erase_bind, erase_silent]
    congr 1
    funext sc
    cases T.tryFrom cfg sc
    · rfl
    · exact erase_shortAt _ _ _ _ _ _ _ _
  | rank + 1 => by
    unfold formatShortRankT formatShortRank
    rw [erase_bind, erase_silent]
    congr 1
    funext sc
    cases T.tryFrom cfg sc
    · exact erase_short cfg T formal characters large nominal rank
    · exact erase_shortAt _ _ _ _ _ _ _ _

theorem erase_body (cfg : Cfg) (large : List Char) (scales : List (Option Nat)) (rank : Nat) (next : ScaledFnT) (n : Nat) (p l : Bool) :
    (scaledRankBodyT cfg large scales rank next n p l).2 = scaledRankBody cfg large scales rank (fun n p l => (next n p l).2) n p l := by
  unfold scaledRankBodyT scaledRankBody
  cases scales[rank]?.join with
  | none => rfl
  | some scale =>
    dsimp only
    simp only [erase_bind, erase_silent]
    congr 1
    funext remaining
    congr 1
    funext rankValue
    congr 1
    funext _
    congr 1
    · split
      · rfl
      · simp only [erase_bind, erase_silent]
    · funext ⟨formatted, l⟩
      dsimp only
      split
      · rfl
      · simp only [erase_bind, erase_silent]
        rfl

theorem erase_next (cfg : Cfg) (formal : Bool) (characters large : List Char) (scales : List (Option Nat)) : ∀ rank n p l,
    (scaledNextT cfg formal characters large scales rank n p l).2 = scaledNext cfg formal characters large scales rank n p l
  | 0, _, _, _ => rfl
  | rank + 1, n, p, l => by
    unfold scaledNextT scaledNext
    rw [erase_body]
    congr 1
    funext n p l
    exact erase_next cfg formal characters large scales rank n p l

theorem erase_scaled (cfg : Cfg) (T : IntTy) (formal : Bool) (scales : List Nat) (characters large : List Char) (n : Nat) :
    (formatScaledT cfg T formal scales characters large n).2 = formatScaled cfg T formal scales characters large n := by
  unfold formatScaledT formatScaled
  dsimp only
  rw [erase_body]
  congr 2
  funext n p l
  exact erase_next _ _ _ _ _ _ _ _ _

theorem erase_chinese (cfg : Cfg) (T : IntTy) (formal : Bool) (characters large : List Char) (n : Nat) (scale : ChineseScale) :
    (formatChineseT cfg T formal characters large n scale).2 = formatChinese cfg T formal characters large n scale := by
  have hf : (scale.formatT cfg T formal characters large n).2 = scale.format cfg T formal characters large n := by
    cases scale
    · exact erase_short _ _ _ _ _ _ _
    all_goals exact erase_scaled _ _ _ _ _ _ _
  unfold formatChineseT formatChinese
  by_cases h : n = 0
  · rw [if_pos h, if_pos h]; rfl
  · rw [if_neg h, if_neg h]
    dsimp only
    cases T.tryFrom cfg 10000 with
    | none => rfl
    | some t =>
      dsimp only
      by_cases ht : n ≥ t
      · rw [if_pos ht, if_pos ht, ← hf]; rfl
      · rw [if_neg ht, if_neg ht]; rfl

/-! ## Groups -/

theorem groups_zero (k : Nat) : groups k 0 = [] := by simp [groups]

theorem groups_succ (k n : Nat) : groups (k + 1) n = (if n / 10 ^ (4 * k) % 10 ^ 4 = 0 then [] else [n / 10 ^ (4 * k) % 10 ^ 4]) ++ groups k n := by
  unfold groups
  rw [List.range_succ, List.reverse_append, List.map_append, List.filter_append]
  congr 1
  by_cases h : n / 10 ^ (4 * k) % 10 ^ 4 = 0 <;> simp [h]

theorem groups_more {k n : Nat} (h : n < 10 ^ (4 * k)) : ∀ j, groups (k + j) n = groups k n
  | 0 => rfl
  | j + 1 => by
    rw [← Nat.add_assoc, groups_succ, groups_more h j]
    have : 10 ^ (4 * k) ≤ 10 ^ (4 * (k + j)) := Nat.pow_le_pow_right (by omega) (by omega)
    rw [Nat.div_eq_of_lt (by omega)]
    rfl

theorem groups_add (b n : Nat) : ∀ a, groups (a + b) n = groups a (n / 10 ^ (4 * b)) ++ groups b (n % 10 ^ (4 * b))
  | 0 => by
    rw [Nat.zero_add]
    show _ = [] ++ _
    rw [List.nil_append]
    unfold groups
    congr 1
    refine List.map_congr_left fun i hi => ?_
    simp only [List.mem_reverse, List.mem_range] at hi
    have e : 10 ^ (4 * b) = 10 ^ (4 * i) * 10 ^ (4 * (b - i)) := by rw [← Nat.pow_add]; congr 1; omega
    rw [e, Nat.mod_mul_right_div_self, Nat.mod_mod_of_dvd]
    exact Nat.pow_dvd_pow _ (by omega)
  | a + 1 => by
    rw [Nat.add_right_comm, groups_succ, groups_add b n a, groups_succ a, List.append_assoc, Nat.div_div_eq_div_mul, ← Nat.pow_add]
    have : 4 * (a + b) = 4 * b + 4 * a := by omega
    rw [this]

theorem groups_one {k n : Nat} (h0 : n ≠ 0) (h : n < 10 ^ 4) : groups (k + 1) n = [n] := by
  have := groups_more (k := 1) (n := n) (by simpa using h) k
  rw [Nat.add_comm k 1, this]
  rw [groups_succ, Nat.mul_zero, Nat.pow_zero, Nat.div_one, Nat.mod_eq_of_lt h, if_neg h0]
  rfl

/-- Splitting at a multiple of four digits. -/
theorem groups_split {K b x : Nat} (hb : b ≤ K) (hx : x < 10 ^ (4 * K)) :
    groups K x = groups K (x / 10 ^ (4 * b)) ++ groups K (x % 10 ^ (4 * b)) := by
  obtain ⟨a, rfl⟩ : ∃ a, K = a + b := ⟨K - b, by omega⟩
  have h1 : x / 10 ^ (4 * b) < 10 ^ (4 * a) := by
    rw [Nat.div_lt_iff_lt_mul (Nat.pow_pos (by omega)), ← Nat.pow_add]
    have : 4 * a + 4 * b = 4 * (a + b) := by omega
    rwa [this]
  have h2 : x % 10 ^ (4 * b) < 10 ^ (4 * b) := Nat.mod_lt _ (Nat.pow_pos (by omega))
  rw [groups_add, groups_more h1 b, Nat.add_comm a b, groups_more h2 a]

/-! ## Scaled -/

theorem body_follows {cfg : Cfg} {large : List Char} {scales : List (Option Nat)} {e : Nat → Nat} {m : Nat} (hsc : ScalesOf scales e m)
    {r : Nat} (hr : r < m) (hr' : e r ≤ 40) {next : ScaledFnT} (ih : ∀ x p l, x ≠ 0 → x < 10 ^ e r → Follows (next x p l) (groups 10 x))
    {x : Nat} (hx : x < 10 ^ 40) (hq : x / 10 ^ e r < 10 ^ e r) (p l : Bool) :
    Follows (scaledRankBodyT cfg large scales r next x p l) (groups 10 x) := by
  have hp : 0 < 10 ^ e r := Nat.pow_pos (by omega)
  have hpos : 10 ^ e r ≠ 0 := by omega
  have h4 := hsc.four r hr
  have hsplit : groups 10 x = groups 10 (x / 10 ^ e r) ++ groups 10 (x % 10 ^ e r) := by
    have := groups_split (K := 10) (b := e r / 4) (x := x) (by omega) hx
    rwa [show 4 * (e r / 4) = e r by omega] at this
  unfold scaledRankBodyT
  rw [hsc.have_ r hr]
  dsimp only
  refine Follows.silent_bind fun remaining e1 => Follows.silent_bind fun rankValue e2 => Follows.silent_bind fun _ _ => ?_
  rw [remT, if_neg hpos] at e1
  rw [divT, if_neg hpos] at e2
  injection e1 with e1
  injection e2 with e2
  subst e1
  subst e2
  rw [hsplit]
  refine Follows.bind (g := groups 10 (x / 10 ^ e r)) ?_ fun ⟨f, l'⟩ _ => ?_
  · split
    · next h => rw [h, groups_zero]; exact .silent _
    · next h => exact (ih _ p l h hq).then_silent
  · dsimp only
    split
    · next h => rw [h, groups_zero]; exact .silent _
    · next h => exact (ih _ _ l' h (Nat.mod_lt _ hp)).then_silent

theorem next_follows {cfg : Cfg} {formal : Bool} {characters large : List Char} {scales : List (Option Nat)} {e : Nat → Nat} {m : Nat}
    (hsc : ScalesOf scales e m) (h40 : ∀ i, i < m → e i ≤ 40) : ∀ r, r < m → ∀ x p l, x ≠ 0 → x < 10 ^ e r →
      Follows (scaledNextT cfg formal characters large scales r x p l) (groups 10 x)
  | 0, _, x, p, l, h0, hx => by
    rw [hsc.first] at hx
    rw [groups_one h0 hx]
    exact ⟨List.prefix_rfl, fun _ => rfl⟩
  | r + 1, hr, x, p, l, h0, hx => by
    have hst := hsc.step r hr
    refine body_follows hsc (by omega) (h40 r (by omega)) (next_follows hsc h40 r (by omega)) ?_ ?_ p l
    · exact Nat.lt_of_lt_of_le hx (Nat.pow_le_pow_right (by omega) (h40 _ hr))
    · rw [Nat.div_lt_iff_lt_mul (Nat.pow_pos (by omega)), ← Nat.pow_add]
      exact Nat.lt_of_lt_of_le hx (Nat.pow_le_pow_right (by omega) (by omega))

theorem skipT {cfg : Cfg} {formal : Bool} {chars large : List Char} {scales : List (Option Nat)} {e : Nat → Nat} {m : Nat}
    (hsc : ScalesOf scales e m) (k : Nat) :
    scaledRankBodyT cfg large scales (m + k) (scaledNextT cfg formal chars large scales (m + k)) =
      scaledNextT cfg formal chars large scales m := by
  have key : ∀ r, m ≤ r → scaledRankBodyT cfg large scales r (scaledNextT cfg formal chars large scales r) =
      scaledNextT cfg formal chars large scales r := by
    intro r hr
    funext x np l
    unfold scaledRankBodyT
    rw [hsc.none_ r hr]
  rw [key _ (by omega)]
  induction k with
  | zero => rfl
  | succ k ih =>
    rw [← Nat.add_assoc, scaledNextT, key _ (by omega)]
    exact ih

theorem Follows.map {ε ε' α β : Type} {t : Traced ε α} {g : List Nat} (ht : Follows t g) {r : Res ε' β} (h : (∃ b, r = .ok b) → ∃ a, t.2 = .ok a) :
    Follows ((t.1, r) : Traced ε' β) g := ⟨ht.1, fun hr => ht.2 (h hr)⟩

theorem scaled_follows {cfg : Cfg} {T : IntTy} {formal : Bool} {characters large : List Char} {L : List Nat} {e : Nat → Nat} {m : Nat}
    (hsc : ScalesOf (L.map (T.tryFrom cfg)) e m) (h40 : ∀ i, i < m → e i ≤ 40) (hm : 0 < m) (hm10 : m ≤ 10) {x : Nat}
    (hx : x < 10 ^ 40) (hq : x / 10 ^ e (m - 1) < 10 ^ e (m - 1)) :
    Follows (formatScaledT cfg T formal L characters large x) (groups 10 x) := by
  unfold formatScaledT
  dsimp only
  have hskip := skipT (cfg := cfg) (formal := formal) (chars := characters) (large := large) hsc (10 - m)
  rw [show m + (10 - m) = 10 by omega] at hskip
  rw [hskip]
  obtain ⟨k, rfl⟩ : ∃ k, m = k + 1 := ⟨m - 1, by omega⟩
  rw [scaledNextT]
  refine (body_follows hsc (by omega) (h40 k (by omega)) (next_follows hsc h40 k (by omega)) hx hq true false).map ?_
  rintro ⟨b, hb⟩
  revert hb
  generalize (scaledRankBodyT _ _ _ _ _ _ _ _).2 = r
  cases r with
  | ok a => exact fun _ => ⟨a, rfl⟩
  | _ => exact fun h => nomatch h

/-! ## Short -/

theorem bind_ok_inv {ε α β : Type} {r : Res ε α} {f : α → Res ε β} {b : β} (h : r.bind f = .ok b) : ∃ a, r = .ok a ∧ f a = .ok b := by
  cases r with
  | ok a => exact ⟨a, rfl, h⟩
  | _ => nomatch h

theorem shortBody_rest {cfg : Cfg} {characters large : List Char} {rank scale x r : Nat} {s s' : NStr} {l l' : Bool}
    (h : shortBody cfg characters large rank scale x s l = .ok (r, s', l')) : r = x % scale := by
  unfold shortBody at h
  obtain ⟨q, _, h⟩ := bind_ok_inv h
  split at h
  · nomatch h
  · obtain ⟨y, hy, h⟩ := bind_ok_inv h
    have hy : x % scale = y := by
      rw [remT] at hy
      split at hy
      · nomatch hy
      · injection hy
    rw [hy]
    split at h
    · split at h
      · obtain ⟨_, _, h⟩ := bind_ok_inv h
        injection h with h; injection h with h _; exact h.symm
      · injection h with h; injection h with h _; exact h.symm
    · obtain ⟨_, _, h⟩ := bind_ok_inv h
      obtain ⟨_, _, h⟩ := bind_ok_inv h
      injection h with h; injection h with h _; exact h.symm

theorem tryFrom_some {cfg : Cfg} {T : IntTy} {a b : Nat} (h : T.tryFrom cfg a = some b) : b = a := by
  unfold IntTy.tryFrom at h
  split at h
  · injection h with h; exact h.symm
  · nomatch h

theorem shortLoop_rest {cfg : Cfg} {T : IntTy} {characters large : List Char} : ∀ (rank : Nat), rank < 11 → ∀ {x r : Nat} {s s' : NStr} {l l' : Bool},
    shortLoop cfg T characters large rank (10 ^ shortE rank) x s l = .ok (r, s', l') → r = x % 10 ^ 4
  | 0, _, x, r, s, s', l, l', h => by
    unfold shortLoop at h
    split at h
    · next h0 => injection h with h; injection h with h _; subst h; rw [h0]
    · exact shortBody_rest h
  | rank + 1, hr, x, r, s, s', l, l', h => by
    unfold shortLoop at h
    split at h
    · next h0 => injection h with h; injection h with h _; subst h; rw [h0]
    · obtain ⟨⟨y, s1, l1⟩, h1, h⟩ := bind_ok_inv h
      obtain ⟨sc, hsc, h⟩ := bind_ok_inv h
      rw [short_scale_get rank (by omega)] at hsc
      injection hsc with hsc
      subst hsc
      cases ht : T.tryFrom cfg (10 ^ shortE rank) with
      | none => simp only [ht] at h; nomatch h
      | some ns =>
        simp only [ht] at h
        rw [tryFrom_some ht] at h
        rw [shortLoop_rest rank (by omega) h, shortBody_rest h1, Nat.mod_mod_of_dvd]
        exact Nat.pow_dvd_pow _ (by simp only [shortE]; omega)

theorem groups_last (x : Nat) : groups 1 x = if x % 10 ^ 4 = 0 then [] else [x % 10 ^ 4] := by
  rw [groups_succ, Nat.mul_zero, Nat.pow_zero, Nat.div_one]
  split <;> rfl

theorem shortAt_follows {cfg : Cfg} {T : IntTy} {formal : Bool} {characters large : List Char} {x rank : Nat} (hr : rank < 11) :
    Follows (formatShortRankAtT cfg T formal characters large x rank (10 ^ shortE rank)) (groups 1 x) := by
  unfold formatShortRankAtT
  refine Follows.silent_bind fun ⟨y, s, l⟩ h => ?_
  have := shortLoop_rest rank hr h
  subst this
  dsimp only
  rw [groups_last]
  by_cases h0 : x % 10 ^ 4 = 0
  · rw [if_neg (by simpa using h0), if_pos h0]; exact .silent _
  · rw [if_pos h0, if_neg h0]
    exact Follows.then_silent ⟨List.prefix_rfl, fun _ => rfl⟩

theorem short_follows {cfg : Cfg} {T : IntTy} {formal : Bool} {characters large : List Char} {x : Nat} : ∀ rank, rank < 11 →
    Follows (formatShortRankT cfg T formal characters large x rank) (groups 1 x)
  | 0, h => by
    unfold formatShortRankT
    refine Follows.silent_bind fun sc hsc => ?_
    rw [short_scale_get 0 h] at hsc
    injection hsc with hsc
    subst hsc
    cases ht : T.tryFrom cfg (10 ^ shortE 0) with
    | none => exact ⟨List.nil_prefix, fun ⟨_, h⟩ => nomatch h⟩
    | some ns => rw [tryFrom_some ht]; exact shortAt_follows h
  | rank + 1, h => by
    unfold formatShortRankT
    refine Follows.silent_bind fun sc hsc => ?_
    rw [short_scale_get (rank + 1) h] at hsc
    injection hsc with hsc
    subst hsc
    cases ht : T.tryFrom cfg (10 ^ shortE (rank + 1)) with
    | none => exact short_follows rank (by omega)
    | some ns => rw [tryFrom_some ht]; exact shortAt_follows h

/-! ## All scales, all types -/

theorem lt_40 {cfg : Cfg} {T : IntTy} {n : Nat} (h : T.Fits cfg n) : n < 10 ^ 40 := by
  unfold IntTy.Fits at h
  rcases bits_cases cfg T with hb | hb | hb | hb | hb <;> rw [hb] at h <;> omega

theorem format_follows {cfg : Cfg} {T : IntTy} {formal : Bool} {characters large : List Char} {n : Nat} (scale : ChineseScale)
    (hn : T.Fits cfg n) (h4 : 10000 ≤ n) : Follows (scale.formatT cfg T formal characters large n) (chunks scale n) := by
  have h40 := lt_40 hn
  unfold IntTy.Fits at hn
  cases scale
  · exact short_follows 10 (by decide)
  · show Follows (formatScaledT cfg T formal MYRIAD_SCALE characters large n) (groups 10 n)
    rcases bits_cases cfg T with hb | hb | hb | hb | hb <;> rw [hb] at hn
    · omega
    · exact scaled_follows (e := fun i => 4 * (i + 1)) (m := 1)
        (.of_list [some (10 ^ 4), none, none, none, none, none, none, none, none] (by simp [MYRIAD_SCALE, IntTy.tryFrom, hb]) (by decide) (by decide) (by decide) (by decide) (by decide) (by decide))
        (by decide) (by decide) (by decide) h40 (by show n / 10 ^ 4 < 10 ^ 4; omega)
    · exact scaled_follows (e := fun i => 4 * (i + 1)) (m := 2)
        (.of_list [some (10 ^ 4), some (10 ^ 8), none, none, none, none, none, none, none] (by simp [MYRIAD_SCALE, IntTy.tryFrom, hb]) (by decide) (by decide) (by decide) (by decide) (by decide) (by decide))
        (by decide) (by decide) (by decide) h40 (by show n / 10 ^ 8 < 10 ^ 8; omega)
    · exact scaled_follows (e := fun i => 4 * (i + 1)) (m := 4)
        (.of_list [some (10 ^ 4), some (10 ^ 8), some (10 ^ 12), some (10 ^ 16), none, none, none, none, none] (by simp [MYRIAD_SCALE, IntTy.tryFrom, hb]) (by decide) (by decide) (by decide) (by decide) (by decide) (by decide))
        (by decide) (by decide) (by decide) h40 (by show n / 10 ^ 16 < 10 ^ 16; omega)
    · exact scaled_follows (e := fun i => 4 * (i + 1)) (m := 9)
        (.of_list [some (10 ^ 4), some (10 ^ 8), some (10 ^ 12), some (10 ^ 16), some (10 ^ 20), some (10 ^ 24), some (10 ^ 28), some (10 ^ 32), some (10 ^ 36)] (by simp [MYRIAD_SCALE, IntTy.tryFrom, hb]) (by decide) (by decide) (by decide) (by decide) (by decide) (by decide))
        (by decide) (by decide) (by decide) h40 (by show n / 10 ^ 36 < 10 ^ 36; omega)
  · show Follows (formatScaledT cfg T formal MID_SCALE characters large n) (groups 10 n)
    rcases bits_cases cfg T with hb | hb | hb | hb | hb <;> rw [hb] at hn
    · omega
    · exact scaled_follows (e := fun i => if i = 0 then 4 else 8 * i) (m := 1)
        (.of_list [some (10 ^ 4), none, none, none, none] (by simp [MID_SCALE, IntTy.tryFrom, hb]) (by decide) (by decide) (by decide) (by decide) (by decide) (by decide))
        (by decide) (by decide) (by decide) h40 (by show n / 10 ^ 4 < 10 ^ 4; omega)
    · exact scaled_follows (e := fun i => if i = 0 then 4 else 8 * i) (m := 2)
        (.of_list [some (10 ^ 4), some (10 ^ 8), none, none, none] (by simp [MID_SCALE, IntTy.tryFrom, hb]) (by decide) (by decide) (by decide) (by decide) (by decide) (by decide))
        (by decide) (by decide) (by decide) h40 (by show n / 10 ^ 8 < 10 ^ 8; omega)
    · exact scaled_follows (e := fun i => if i = 0 then 4 else 8 * i) (m := 3)
        (.of_list [some (10 ^ 4), some (10 ^ 8), some (10 ^ 16), none, none] (by simp [MID_SCALE, IntTy.tryFrom, hb]) (by decide) (by decide) (by decide) (by decide) (by decide) (by decide))
        (by decide) (by decide) (by decide) h40 (by show n / 10 ^ 16 < 10 ^ 16; omega)
    · exact scaled_follows (e := fun i => if i = 0 then 4 else 8 * i) (m := 5)
        (.of_list [some (10 ^ 4), some (10 ^ 8), some (10 ^ 16), some (10 ^ 24), some (10 ^ 32)] (by simp [MID_SCALE, IntTy.tryFrom, hb]) (by decide) (by decide) (by decide) (by decide) (by decide) (by decide))
        (by decide) (by decide) (by decide) h40 (by show n / 10 ^ 32 < 10 ^ 32; omega)
  · show Follows (formatScaledT cfg T formal LONG_SCALE characters large n) (groups 10 n)
    rcases bits_cases cfg T with hb | hb | hb | hb | hb <;> rw [hb] at hn
    · omega
    · exact scaled_follows (e := fun i => 4 * 2 ^ i) (m := 1)
        (.of_list [some (10 ^ 4), none, none, none] (by simp [LONG_SCALE, IntTy.tryFrom, hb]) (by decide) (by decide) (by decide) (by decide) (by decide) (by decide))
        (by decide) (by decide) (by decide) h40 (by show n / 10 ^ 4 < 10 ^ 4; omega)
    · exact scaled_follows (e := fun i => 4 * 2 ^ i) (m := 2)
        (.of_list [some (10 ^ 4), some (10 ^ 8), none, none] (by simp [LONG_SCALE, IntTy.tryFrom, hb]) (by decide) (by decide) (by decide) (by decide) (by decide) (by decide))
        (by decide) (by decide) (by decide) h40 (by show n / 10 ^ 8 < 10 ^ 8; omega)
    · exact scaled_follows (e := fun i => 4 * 2 ^ i) (m := 3)
        (.of_list [some (10 ^ 4), some (10 ^ 8), some (10 ^ 16), none] (by simp [LONG_SCALE, IntTy.tryFrom, hb]) (by decide) (by decide) (by decide) (by decide) (by decide) (by decide))
        (by decide) (by decide) (by decide) h40 (by show n / 10 ^ 16 < 10 ^ 16; omega)
    · exact scaled_follows (e := fun i => 4 * 2 ^ i) (m := 4)
        (.of_list [some (10 ^ 4), some (10 ^ 8), some (10 ^ 16), some (10 ^ 32)] (by simp [LONG_SCALE, IntTy.tryFrom, hb]) (by decide) (by decide) (by decide) (by decide) (by decide) (by decide))
        (by decide) (by decide) (by decide) h40 (by show n / 10 ^ 32 < 10 ^ 32; omega)

theorem chunks_small {scale : ChineseScale} {n : Nat} (h0 : n ≠ 0) (h : n < 10000) : chunks scale n = [n] := by
  unfold chunks
  split
  · exact groups_one (k := 0) h0 h
  · exact groups_one (k := 9) h0 h

theorem chinese_follows {cfg : Cfg} {T : IntTy} {formal : Bool} {characters large : List Char} {n : Nat} (scale : ChineseScale)
    (hn : T.Fits cfg n) : Follows (formatChineseT cfg T formal characters large n scale) (chunks scale n) := by
  unfold formatChineseT
  by_cases h0 : n = 0
  · subst h0
    rw [if_pos rfl]
    have : chunks scale 0 = [] := by unfold chunks; split <;> exact groups_zero _
    rw [this]
    exact .silent _
  · rw [if_neg h0]
    dsimp only
    cases ht : T.tryFrom cfg 10000 with
    | none =>
      have : n < 10000 := by
        unfold IntTy.Fits at hn
        unfold IntTy.tryFrom at ht
        split at ht
        · nomatch ht
        · omega
      rw [chunks_small h0 this]
      exact ⟨List.prefix_rfl, fun _ => rfl⟩
    | some t =>
      have := tryFrom_some ht
      subst this
      dsimp only
      by_cases h4 : n ≥ 10000
      · rw [if_pos h4]
        refine (format_follows scale hn h4).map ?_
        rintro ⟨b, hb⟩
        revert hb
        generalize (scale.formatT cfg T formal characters large n).2 = r
        cases r with
        | ok a => exact fun _ => ⟨a, rfl⟩
        | _ => exact fun h => nomatch h
      · rw [if_neg h4, chunks_small h0 (by omega)]
        exact ⟨List.prefix_rfl, fun _ => rfl⟩

theorem chunks_length (scale : ChineseScale) (n : Nat) : (chunks scale n).length ≤ 10 := by
  unfold chunks groups
  split
  · exact Nat.le_trans (List.length_filter_le _ _) (by simp)
  · exact Nat.le_trans (List.length_filter_le _ _) (by simp)

/-- C69: `format_chinese_inner` is called once for each non-zero group of four digits, in order, and for nothing else; with an error,
for the first few of them. So there are at most ten calls. The first part says that the log is only a log. -/
theorem C69_chinese_calls (k : ChineseKind) (o : ChineseOptions) (cfg : Cfg) (T : IntTy) (n : Nat) (hn : T.Fits cfg n) :
    let r := formatChineseT cfg T k.formal (k.characters o.usage) k.large n o.scale
    r.2 = chineseTryFormat k o cfg T n ∧ r.1 <+: chunks o.scale n ∧ ((∃ s, r.2 = .ok s) → r.1 = chunks o.scale n) ∧ r.1.length ≤ 10 := by
  have h := chinese_follows (formal := k.formal) (characters := k.characters o.usage) (large := k.large) o.scale hn
  exact ⟨erase_chinese _ _ _ _ _ _ _, h.1, h.2, Nat.le_trans h.1.length_le (chunks_length _ _)⟩

/-- 120000003 on the myriad scale: one call for 1 and one each for 2000 and 3. -/
example : (formatChineseT ⟨true, .w64, true⟩ .u32 false SIMPLIFIED_ORDINARY SIMPLIFIED_LARGE 120000003 .myriad).1 = [1, 2000, 3] := by
  decide +kernel

/-- On the short scale only the last group. -/
example : chunks .short 120000003 = [3] ∧ chunks .mid 120000000 = [1, 2000] := by decide +kernel

end Nominals.Props
