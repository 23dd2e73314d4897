import Verif.Spec.Relabel
import Verif.Spec.Dyn
import Verif.Proofs.Outcome
import Verif.Proofs.Digits
import Verif.Props.LabelOrder
import Verif.Props.Dyn

/-! # C104: the same system in other signs -/

namespace Nominals

open Nominals.Spec

section
variable {ε α β α' β' : Type} {P : α → β → Prop} {Q : α' → β' → Prop}

theorem Spec.EndAlike.bind {r : Res ε α} {r' : Res ε β} {k : α → Res ε α'} {k' : β → Res ε β'} (h : EndAlike P r r')
    (hk : ∀ a b, P a b → EndAlike Q (k a) (k' b)) : EndAlike Q (r.bind k) (r'.bind k') := by
  cases h with
  | ok h => exact hk _ _ h
  | err => exact .err _
  | panic => exact .panic
  | ub => exact .ub
  | timeout => exact .timeout

theorem Spec.EndAlike.refl (r : Res ε α) : EndAlike (fun a b => a = b) r r := by
  cases r <;> constructor
  rfl

/-- The same computation on both sides. -/
theorem Spec.EndAlike.same {r : Res ε α} {k : α → Res ε α'} {k' : α → Res ε β'} (hk : ∀ a, EndAlike Q (k a) (k' a)) : EndAlike Q (r.bind k) (r.bind k') :=
  (Spec.EndAlike.refl r).bind fun a b h => by cases h; exact hk a

theorem Spec.EndAlike.mono {P' : α → β → Prop} {r : Res ε α} {r' : Res ε β} (h : EndAlike P r r') (hp : ∀ a b, P a b → P' a b) : EndAlike P' r r' := by
  cases h with
  | ok h => exact .ok (hp _ _ h)
  | err => exact .err _
  | panic => exact .panic
  | ub => exact .ub
  | timeout => exact .timeout

end

/-- The two strings hold corresponding texts. -/
def Corr (cfg : Cfg) (g : Char → List Char) (x y : NStr) : Prop :=
  ∃ t, x.Is t ∧ y.Is (t.flatMap g) ∧ (cfg.alloc = true ∨ utf8Len t ≤ 62) ∧ (cfg.alloc = true ∨ utf8Len (t.flatMap g) ≤ 62)

theorem Corr.shows {cfg : Cfg} {g : Char → List Char} {x y : NStr} (h : Corr cfg g x y) : Shows g x y := by
  obtain ⟨t, h1, h2, -⟩ := h
  exact ⟨t, h1.1.asStr, h2.1.asStr⟩

theorem flatMap_len {g : Char → List Char} (hg : SameSize g) (t : List Char) : utf8Len (t.flatMap g) = utf8Len t := by
  induction t with
  | nil => rfl
  | cons c t ih => rw [List.flatMap_cons, utf8Len_append, utf8Len_cons, ih, hg c]

theorem Del.alike {ε : Type} {cfg : Cfg} {g : Char → List Char} (hg : cfg.alloc = true ∨ SameSize g) {e : ε} {r r' : Res ε NStr} {t : List Char}
    (h : Del cfg.alloc e r t) (h' : Del cfg.alloc e r' (t.flatMap g)) : EndAlike (Corr cfg g) r r' := by
  cases h with
  | ok s t h1 h2 =>
    cases h' with
    | ok s' t' h3 h4 => exact .ok ⟨t, h1, h3, h2, h4⟩
    | err t' h3 h4 =>
      rcases hg with hg | hg
      · rw [hg] at h3; cases h3
      · rcases h2 with h2 | h2
        · rw [h2] at h3; cases h3
        · rw [flatMap_len hg] at h4; omega
  | err t h1 h2 =>
    cases h' with
    | ok s' t' h3 h4 =>
      rcases hg with hg | hg
      · rw [hg] at h1; cases h1
      · rcases h4 with h4 | h4
        · rw [h4] at h1; cases h1
        · rw [flatMap_len hg] at h4; omega
    | err t' h3 h4 => exact .err _

section
variable {σ : Type} {cfg : Cfg} {f : Char → Char}

theorem dynLoop_alike (hg : cfg.alloc = true ∨ SameSize fun c => [f c]) {T : IntTy} {c : DynColl σ} {n : Nat} : ∀ (fuel count remaining : Nat)
    (first : Bool) (x y : NStr) (w : σ), Corr cfg (fun c => [f c]) x y →
    EndAlike (fun a b => Corr cfg (fun c => [f c]) a.1 b.1 ∧ a.2 = b.2) (dynLoop cfg T c n fuel count remaining first x w)
      (dynLoop cfg T (relabelled f c) n fuel count remaining first y w) := by
  intro fuel
  induction fuel with
  | zero => intros; exact .timeout
  | succ fuel ih =>
    intro count remaining first x y w hxy
    rw [dynLoop, dynLoop]
    split
    · refine Spec.EndAlike.same fun (remaining, w) => Spec.EndAlike.same fun idx => ?_
      show EndAlike _ _ (((c.digit (asUsize cfg idx) w).map fun (ch, w) => (f ch, w)).call.bind _)
      cases c.digit (asUsize cfg idx) w with
      | err e => cases e
      | panic => exact .panic
      | ub => exact .ub
      | timeout => exact .timeout
      | ok p =>
        obtain ⟨ch, w⟩ := p
        obtain ⟨t, h1, h2, h3, h4⟩ := hxy
        refine (Del.alike hg ((h1.pushFront h3 ch).withNominal (n := n)) ((h2.pushFront h4 (f ch)).withNominal (n := n))).bind
          fun x y hxy => ?_
        refine Spec.EndAlike.same fun remaining => Spec.EndAlike.same fun (l, w) => ?_
        dsimp only
        split
        · exact ih _ _ _ _ _ _ hxy
        · exact .err _
    · exact .ok ⟨hxy, rfl⟩

theorem dynTryFormat_alike (hg : cfg.alloc = true ∨ SameSize fun c => [f c]) {T : IntTy} {fuel n : Nat} : ∀ (depth : Nat) (d : DynSys σ) (w : σ),
    EndAlike (fun a b => Corr cfg (fun c => [f c]) a.1 b.1 ∧ a.2 = b.2) (dynTryFormat cfg T fuel depth d n w)
      (dynTryFormat cfg T fuel depth (relabelledSys f d) n w) := by
  intro depth
  induction depth with
  | zero => intros; exact .timeout
  | succ depth ih =>
    intro d w
    rw [dynTryFormat, dynTryFormat]
    refine Spec.EndAlike.same fun (l, w) => ?_
    dsimp only
    split
    · show EndAlike _ _ ((((d.level 0).digit (asUsize cfg n) w).map fun (ch, w) => (f ch, w)).call.bind _)
      cases (d.level 0).digit (asUsize cfg n) w with
      | err e => cases e
      | panic => exact .panic
      | ub => exact .ub
      | timeout => exact .timeout
      | ok p =>
        obtain ⟨ch, w⟩ := p
        exact (Del.alike hg (ofChar_del cfg ch (Error.outOfMemory n)) (ofChar_del cfg (f ch) (Error.outOfMemory n))).bind
          fun x y hxy => .ok ⟨hxy, rfl⟩
    · refine Spec.EndAlike.same fun (out, w) => ?_
      dsimp only
      split
      · refine Spec.EndAlike.same fun (_, w) => Spec.EndAlike.same fun (empty, w) => ?_
        dsimp only
        split
        · exact .err _
        · exact ih d.fallback w
      · exact dynLoop_alike hg _ _ _ _ _ _ _ ⟨[], NStr.newReverse_is, NStr.newReverse_is, .inr (by decide), .inr (show utf8Len [] ≤ 62 by decide)⟩

end

theorem additiveWhile_alike {cfg : Cfg} {g : Char → List Char} (hg : cfg.alloc = true ∨ SameSize g) {T : IntTy} {n value : Nat} {s : List Char} :
    ∀ (fuel remaining : Nat) (x y : NStr), Corr cfg g x y →
    EndAlike (fun a b => a.1 = b.1 ∧ Corr cfg g a.2 b.2) (additiveWhile cfg T n s value fuel remaining x)
      (additiveWhile cfg T n (s.flatMap g) value fuel remaining y) := by
  intro fuel
  induction fuel with
  | zero => intros; exact .timeout
  | succ fuel ih =>
    intro remaining x y hxy
    rw [additiveWhile, additiveWhile]
    split
    · refine Spec.EndAlike.same fun remaining => ?_
      obtain ⟨t, h1, h2, h3, h4⟩ := hxy
      have := (h2.pushStr h4 (s.flatMap g)).withNominal (n := n)
      rw [← List.flatMap_append] at this
      exact (Del.alike hg ((h1.pushStr h3 s).withNominal (n := n)) this).bind fun x y hxy => ih _ _ _ hxy
    · exact .ok ⟨rfl, hxy⟩

theorem additiveFor_alike {cfg : Cfg} {g : Char → List Char} (hg : cfg.alloc = true ∨ SameSize g) {T : IntTy} {n : Nat}
    (table : List (List Char × Nat)) : ∀ (remaining : Nat) (x y : NStr), Corr cfg g x y →
    EndAlike (Corr cfg g) (additiveFor cfg T n table remaining x) (additiveFor cfg T n (relabelledTable g table) remaining y) := by
  induction table with
  | nil => intro _ x y h; exact .ok h
  | cons p rest ih =>
    obtain ⟨s, v⟩ := p
    intro remaining x y h
    show EndAlike _ _ (additiveFor cfg T n ((s.flatMap g, v) :: relabelledTable g rest) remaining y)
    rw [additiveFor, additiveFor]
    split
    · exact .ok h
    · split
      · exact ih _ _ _ h
      · refine (additiveWhile_alike hg _ _ _ _ h).bind fun a b hab => ?_
        obtain ⟨ra, xa⟩ := a
        obtain ⟨rb, xb⟩ := b
        obtain ⟨rfl, hab⟩ := hab
        exact ih _ _ _ hab

theorem ofStr_alike {ε : Type} {cfg : Cfg} {g : Char → List Char} (hg : cfg.alloc = true ∨ SameSize g) (s : List Char) :
    EndAlike (ε := ε) (Corr cfg g) (NStr.ofStr cfg s) (NStr.ofStr cfg (s.flatMap g)) := by
  by_cases h : cfg.alloc = true ∨ utf8Len s ≤ 62
  · have h' : cfg.alloc = true ∨ utf8Len (s.flatMap g) ≤ 62 := by
      rcases hg with hg | hg
      · exact .inl hg
      · rwa [flatMap_len hg]
    obtain ⟨x, e1, h1⟩ := ofStr_is (ε := ε) cfg s h
    obtain ⟨y, e2, h2⟩ := ofStr_is (ε := ε) cfg _ h'
    rw [e1, e2]
    exact .ok ⟨s, h1, h2, h, h'⟩
  · have ha : ¬cfg.alloc = true := fun hc => h (.inl hc)
    have hl : ¬utf8Len s ≤ 62 := fun hc => h (.inr hc)
    have hl' : ¬utf8Len (s.flatMap g) ≤ 62 := by
      rcases hg with hg | hg
      · exact absurd hg ha
      · rwa [flatMap_len hg]
    have panics : ∀ u : List Char, ¬utf8Len u ≤ 62 → NStr.ofStr (ε := ε) cfg u = .panic := by
      intro u hu
      unfold NStr.ofStr
      simp only [utf8Encode_length, INLINE_CAPACITY]
      rw [if_neg (by omega), if_neg ha]
    rw [panics _ hl, panics _ hl']
    exact .panic

end Nominals

namespace Nominals.Props

open Nominals Nominals.Spec

/-- C104. A digit collection of the user's own, whatever it does, with its fallbacks: a wrapper that replaces the digits one for one makes
formatting end alike - with the text in which every character is replaced, with the same error, with a panic or not at all - and leaves the
program in the same state. Builds without `alloc` can do this for replacements that keep the sizes in bytes. -/
theorem C104_collections {σ : Type} {cfg : Cfg} {f : Char → Char} (hf : cfg.alloc = true ∨ SameSize fun c => [f c]) (T : IntTy)
    (fuel depth n : Nat) (d : DynSys σ) (w : σ) :
    EndAlike (fun a b => Shows (fun c => [f c]) a.1 b.1 ∧ a.2 = b.2) (dynTryFormat cfg T fuel depth d n w)
      (dynTryFormat cfg T fuel depth (relabelledSys f d) n w) :=
  (dynTryFormat_alike hf depth d w).mono fun _ _ h => ⟨h.1.shows, h.2⟩

/-- A counting collection, in small and in capital letters: the same questions, the other text; on a build without `alloc`. -/
example : (SameSize fun c => [if c = 'o' then 'O' else if c = 'i' then 'I' else c]) ∧
    ((dynTryFormat ⟨false, .w64, true⟩ .u8 9 3 (loggedSys (constantSys (.digitSetNew ['o', 'i']))) 6 ((), [])).bind fun (s, (_, log)) =>
      .ok (s.asStr, log)) = .ok (some ['i', 'i', 'o'], ['i', 'i', 'o']) ∧
    ((dynTryFormat ⟨false, .w64, true⟩ .u8 9 3 (relabelledSys (fun c => if c = 'o' then 'O' else if c = 'i' then 'I' else c) (loggedSys (constantSys (.digitSetNew ['o', 'i'])))) 6 ((), [])).bind
      fun (s, (_, log)) => .ok (s.asStr, log)) = .ok (some ['I', 'I', 'O'], ['i', 'i', 'o']) := by
  refine ⟨fun c => ?_, by decide +kernel, by decide +kernel⟩
  dsimp only
  split
  · subst_vars; rfl
  · split
    · subst_vars; rfl
    · exact Nat.add_zero _

/-- C104. Additive sets: the signs may be replaced by texts, which changes the texts of the numbers in the same way. -/
theorem C104_additive {cfg : Cfg} {g : Char → List Char} (hg : cfg.alloc = true ∨ SameSize g) (T : IntTy) (n : Nat)
    (table : List (List Char × Nat)) :
    EndAlike (Shows g) (additiveTryFormat table cfg T n) (additiveTryFormat (relabelledTable g table) cfg T n) := by
  have hdesc : ∀ t : List (List Char × Nat), strictlyDescending (relabelledTable g t) = strictlyDescending t := by
    intro t
    induction t with
    | nil => rfl
    | cons a t ih =>
      cases t with
      | nil => rfl
      | cons b t =>
        show (decide (a.2 > b.2) && strictlyDescending (relabelledTable g (b :: t))) = _
        rw [ih]
        rfl
  unfold additiveTryFormat AdditiveSet.new
  rw [hdesc]
  split
  · simp only [Res.bind_ok, AdditiveSet.tryFormat]
    split
    · have hl : (relabelledTable g table).getLast? = table.getLast?.map fun (s, v) => (s.flatMap g, v) := List.getLast?_map
      rw [hl]
      match table.getLast? with
      | none => exact .err _
      | some (z, 0) => exact (ofStr_alike hg z).mono fun _ _ h => h.shows
      | some (z, v + 1) => exact .err _
    · exact (additiveFor_alike hg table n _ _ ⟨[], NStr.new_is, NStr.new_is, .inr (by decide), .inr (show utf8Len [] ≤ 62 by decide)⟩).mono
        fun _ _ h => h.shows
  · exact .panic

/-- Tallies with words for signs. -/
example : relabelledTable (fun c => if c = 'V' then ['f', 'i', 'v', 'e', ' '] else ['o', 'n', 'e', ' ']) [(['V'], 5), (['I'], 1)] =
      [(['f', 'i', 'v', 'e', ' '], 5), (['o', 'n', 'e', ' '], 1)] ∧
    view (additiveTryFormat [(['V'], 5), (['I'], 1)] ⟨true, .w64, true⟩ .u8 7) = .ok (['V', 'I', 'I'], true) ∧
    view (additiveTryFormat [(['f', 'i', 'v', 'e', ' '], 5), (['o', 'n', 'e', ' '], 1)] ⟨true, .w64, true⟩ .u8 7) =
      .ok (['f', 'i', 'v', 'e', ' ', 'o', 'n', 'e', ' ', 'o', 'n', 'e', ' '], true) := by
  decide +kernel

/-- C104. Enumerated sets. -/
theorem C104_enumerated {cfg : Cfg} {g : Char → List Char} (hg : cfg.alloc = true ∨ SameSize g) (T : IntTy) (n : Nat) (e : EnumSet) :
    EndAlike (Shows g) (e.tryFormat cfg T n) ((relabelledEnum g e).tryFormat cfg T n) := by
  unfold EnumSet.tryFormat relabelledEnum
  split
  · exact .err _
  · dsimp only
    split
    · exact .err _
    · refine Spec.EndAlike.same fun i => ?_
      rw [List.getElem?_map]
      cases e.symbols[i]? with
      | none => exact .err _
      | some s => exact (ofStr_alike hg s).mono fun _ _ h => h.shows

/-- The four symbols of a card player, by their letters. -/
example : view ((⟨false, [['J'], ['Q'], ['K'], ['A']]⟩ : EnumSet).tryFormat ⟨true, .w64, true⟩ .u8 3) = .ok (['K'], true) ∧
    view ((relabelledEnum (fun c => ['<', c, '>']) ⟨false, [['J'], ['Q'], ['K'], ['A']]⟩).tryFormat ⟨true, .w64, true⟩ .u8 3) = .ok (['<', 'K', '>'], true) := by
  decide +kernel

/-! ## The named systems -/

/-- The sign of the second list in the place of the sign of the first. -/
def swap (al al' : List Char) (c : Char) : Char := al'.getD (al.idxOf c) '?'

def relabelDigits (f : Char → Char) (d : DigitSys) : DigitSys := ⟨fun k => { d.level k with digit := fun i => ((d.level k).digit i).map f }⟩

theorem relabelDigits_alike {cfg : Cfg} {f : Char → Char} (hf : cfg.alloc = true ∨ SameSize fun c => [f c]) (T : IntTy) (n : Nat) (d : DigitSys) :
    EndAlike (Shows fun c => [f c]) (d.tryFormat cfg T n) ((relabelDigits f d).tryFormat cfg T n) := by
  have h := C104_collections hf T (n + 64) DEFAULT_DEPTH n (constantSys d) ()
  have e : relabelledSys f (constantSys d) = constantSys (relabelDigits f d) := by
    simp only [relabelledSys, constantSys, relabelDigits, relabelled, constant, DynSys.mk.injEq]
    funext k
    simp only [DynColl.mk.injEq, true_and, and_true]
    funext i w
    cases (d.level k).digit i <;> rfl
  rw [e, C53_constant, C53_constant] at h
  unfold DigitSys.tryFormat
  revert h
  generalize digitTryFormat cfg T (n + 64) DEFAULT_DEPTH d n = r
  generalize digitTryFormat cfg T (n + 64) DEFAULT_DEPTH (relabelDigits f d) n = r'
  intro h
  cases r <;> cases r' <;> cases h
  · next h => exact .ok h.1
  all_goals constructor

theorem relabel_set (f : Char → Char) (al : List Char) :
    relabelDigits f (.named (.digitSetNew al)) = .named (.digitSetNew (al.map f)) ∧
    relabelDigits f (.named (.digitSetZeroless al)) = .named (.digitSetZeroless (al.map f)) := by
  constructor <;>
  · simp only [relabelDigits, DigitSys.named, DigitSys.digitSetNew, DigitSys.digitSetZeroless, DigitSys.withFallback, DigitSys.noFallback, DigitSys.mk.injEq]
    funext k
    cases k with
    | zero =>
      simp only [Coll.mk.injEq, true_and, List.length_map]
      funext i
      exact (List.getElem?_map ..).symm
    | succ k => cases k <;> rfl

theorem relabel_hex (f : Char → Char) (al al' : List Char) (h : al.map f = al) :
    relabelDigits f (.named (.restrict 16 (.chain (.named (.digitSetNew al)) (.named (.digitSetZeroless al'))))) =
      .named (.restrict 16 (.chain (.named (.digitSetNew al)) (.named (.digitSetZeroless (al'.map f))))) := by
  refine congrArg DigitSys.mk (funext fun k => ?_)
  cases k with
  | zero =>
    show Coll.mk false true true 16 (fun i => Option.map f (if al.length ≤ i then al'[i - al.length]? else al[i]?)) =
      Coll.mk false true true 16 fun i => if al.length ≤ i then (al'.map f)[i - al.length]? else al[i]?
    refine congrArg _ (funext fun i => ?_)
    by_cases hi : al.length ≤ i
    · rw [if_pos hi, if_pos hi]
      exact (List.getElem?_map ..).symm
    · rw [if_neg hi, if_neg hi]
      conv => rhs; rw [← h]
      exact (List.getElem?_map ..).symm
  | succ k => rfl

/-- The digits of the named digit sets, with a zero digit or without. -/
def signsOf : Named → Option (Bool × List Char)
  | .decimal => some (true, decimalDigits)
  | .easternArabic => some (true, easternArabicDigits)
  | .persian => some (true, persianDigits)
  | .bengali => some (true, bengaliDigits)
  | .cambodian => some (true, cambodianDigits)
  | .cjkDecimal => some (true, cjkDecimalDigits)
  | .devanagari => some (true, devanagariDigits)
  | .gujarati => some (true, gujaratiDigits)
  | .gurmukhi => some (true, gurmukhiDigits)
  | .kannada => some (true, kannadaDigits)
  | .lao => some (true, laoDigits)
  | .malayalam => some (true, malayalamDigits)
  | .mongolian => some (true, mongolianDigits)
  | .myanmar => some (true, myanmarDigits)
  | .oriya => some (true, oriyaDigits)
  | .tamil => some (true, tamilDigits)
  | .telugu => some (true, teluguDigits)
  | .thai => some (true, thaiDigits)
  | .tibetan => some (true, tibetanDigits)
  | .letterUpper => some (false, letterUpperDigits)
  | .letterLower => some (false, letterLowerDigits)
  | .greekUpper => some (false, greekUpperDigits)
  | .greekLower => some (false, greekLowerDigits)
  | .hiragana => some (false, hiraganaDigits)
  | .hiraganaIroha => some (false, hiraganaIrohaDigits)
  | .katakana => some (false, katakanaDigits)
  | .katakanaIroha => some (false, katakanaIrohaDigits)
  | .hangeulJamo => some (false, hangeulJamoDigits)
  | .hangeulSyllable => some (false, hangeulSyllableDigits)
  | _ => none

def signSystem (p : Bool × List Char) : DigitSys := .named (if p.1 then .digitSetNew p.2 else .digitSetZeroless p.2)

theorem signs_system {s : Named} {p : Bool × List Char} (h : signsOf s = some p) : s.system = (signSystem p).system := by
  cases s <;> cases h <;> rfl

/-- The tables of the named additive sets. -/
def tableOf : Named → Option (List (List Char × Nat))
  | .romanLower => some romanLowerTable
  | .romanUpper => some romanUpperTable
  | .japaneseFormal => some japaneseFormalTable
  | .hangeulFormal => some hangeulFormalTable
  | .hanjaFormal => some hanjaFormalTable
  | .japaneseInformal => some japaneseInformalTable
  | .hanjaInformal => some hanjaInformalTable
  | _ => none

theorem tableOf_system {s : Named} {t : List (List Char × Nat)} (h : tableOf s = some t) : s.system = { tryFormat := additiveTryFormat t } := by
  cases s <;> cases h <;> rfl

def signSets : List (Bool × List Char) :=
  [(true, decimalDigits), (true, easternArabicDigits), (true, persianDigits), (true, bengaliDigits), (true, cambodianDigits), (true, cjkDecimalDigits),
   (true, devanagariDigits), (true, gujaratiDigits), (true, gurmukhiDigits), (true, kannadaDigits), (true, laoDigits), (true, malayalamDigits),
   (true, mongolianDigits), (true, myanmarDigits), (true, oriyaDigits), (true, tamilDigits), (true, teluguDigits), (true, thaiDigits),
   (true, tibetanDigits), (false, letterUpperDigits), (false, letterLowerDigits), (false, greekUpperDigits), (false, greekLowerDigits),
   (false, hiraganaDigits), (false, hiraganaIrohaDigits), (false, katakanaDigits), (false, katakanaIrohaDigits), (false, hangeulJamoDigits),
   (false, hangeulSyllableDigits)]

theorem swap_signs : ∀ p ∈ signSets, ∀ q ∈ signSets, p.2.length = q.2.length → p.2.map (swap p.2 q.2) = q.2 := by decide +kernel

theorem signs_mem {s : Named} {p : Bool × List Char} (h : signsOf s = some p) : p ∈ signSets := by
  cases s <;> cases h <;> simp [signSets]

theorem signs_alike {cfg : Cfg} (ha : cfg.alloc = true) (T : IntTy) (n : Nat) {s s' : Named} {p q : Bool × List Char} (hp : signsOf s = some p)
    (hq : signsOf s' = some q) (h1 : p.1 = q.1) (h2 : p.2.length = q.2.length) :
    EndAlike (Shows fun c => [swap p.2 q.2 c]) (tryToNominal cfg T n s.system) (tryToNominal cfg T n s'.system) := by
  have e := swap_signs p (signs_mem hp) q (signs_mem hq) h2
  have hd : relabelDigits (swap p.2 q.2) (signSystem p) = signSystem q := by
    unfold signSystem
    rw [← h1]
    cases p.1
    · simpa [e] using (relabel_set (swap p.2 q.2) p.2).2
    · simpa [e] using (relabel_set (swap p.2 q.2) p.2).1
  rw [signs_system hp, signs_system hq, ← hd]
  exact relabelDigits_alike (.inl ha) T n _

/-- All characters of a table. -/
def tableSigns (t : List (List Char × Nat)) : List Char := t.flatMap (·.1)

theorem tables_alike {cfg : Cfg} (ha : cfg.alloc = true) (T : IntTy) (n : Nat) {s s' : Named} {t u : List (List Char × Nat)} (ht : tableOf s = some t)
    (hu : tableOf s' = some u) (h : relabelledTable (fun c => [swap (tableSigns t) (tableSigns u) c]) t = u) :
    EndAlike (Shows fun c => [swap (tableSigns t) (tableSigns u) c]) (tryToNominal cfg T n s.system) (tryToNominal cfg T n s'.system) := by
  have := C104_additive (g := fun c => [swap (tableSigns t) (tableSigns u) c]) (.inl ha) T n t
  rw [h] at this
  rw [tableOf_system ht, tableOf_system hu]
  exact this

theorem swap_tables :
    (∀ t ∈ [romanLowerTable, romanUpperTable], ∀ u ∈ [romanLowerTable, romanUpperTable],
      relabelledTable (fun c => [swap (tableSigns t) (tableSigns u) c]) t = u) ∧
    (∀ t ∈ [japaneseFormalTable, hangeulFormalTable, hanjaFormalTable], ∀ u ∈ [japaneseFormalTable, hangeulFormalTable, hanjaFormalTable],
      relabelledTable (fun c => [swap (tableSigns t) (tableSigns u) c]) t = u) ∧
    (∀ t ∈ [japaneseInformalTable, hanjaInformalTable], ∀ u ∈ [japaneseInformalTable, hanjaInformalTable],
      relabelledTable (fun c => [swap (tableSigns t) (tableSigns u) c]) t = u) := by
  refine ⟨?_, ?_, ?_⟩ <;> decide +kernel

theorem hex_alike {cfg : Cfg} (ha : cfg.alloc = true) (T : IntTy) (n : Nat) {al al' : List Char} {f : Char → Char} (h : decimalDigits.map f = decimalDigits)
    (e : al.map f = al') :
    EndAlike (Shows fun c => [f c]) ((DigitSys.named (.restrict 16 (.chain (.named (.digitSetNew decimalDigits)) (.named (.digitSetZeroless al))))).tryFormat cfg T n)
      ((DigitSys.named (.restrict 16 (.chain (.named (.digitSetNew decimalDigits)) (.named (.digitSetZeroless al'))))).tryFormat cfg T n) := by
  rw [← e, ← relabel_hex f _ _ h]
  exact relabelDigits_alike (.inl ha) T n _

/-- What the catalogue says, in other signs. -/
def respell (f : Char → Char) : Answer → Answer
  | .text t => .text (t.map f)
  | .noZero => .noZero
  | .outOfBounds => .outOfBounds

theorem flatMap_single (f : Char → Char) (t : List Char) : (t.flatMap fun c => [f c]) = t.map f := by
  induction t with
  | nil => rfl
  | cons c t ih => rw [List.flatMap_cons, ih]; rfl

theorem err_of_view {ε : Type} {r : Res ε NStr} {e : ε} (h : view r = .err e) : r = .err e := by
  cases r with
  | ok x =>
    simp only [view, Res.bind_ok] at h
    cases hs : x.asStr <;> rw [hs] at h <;> cases h
  | err e' => cases h; rfl
  | _ => cases h

theorem alike_of_answer {cfg : Cfg} (ha : cfg.alloc = true) {T : IntTy} {n : Nat} (hn : T.Fits cfg n) {s s' : Named} {f : Char → Char}
    (h : answer s' n = respell f (answer s n)) :
    EndAlike (Shows fun c => [f c]) (tryToNominal cfg T n s.system) (tryToNominal cfg T n s'.system) := by
  have h1 := C51_catalogue s hn
  have h2 := C51_catalogue s' hn
  rw [h] at h2
  rw [ha] at h1 h2
  cases hs : answer s n with
  | text t =>
    rw [hs] at h1 h2
    simp only [present, respell, deliver_alloc_gives] at h1 h2
    obtain ⟨x, e1, t1⟩ := string_of_view h1
    obtain ⟨y, e2, t2⟩ := string_of_view h2
    rw [e1, e2]
    exact .ok ⟨t, t1, by rw [flatMap_single]; exact t2⟩
  | noZero =>
    rw [hs] at h1 h2
    rw [err_of_view h1, err_of_view h2]
    exact .err _
  | outOfBounds =>
    rw [hs] at h1 h2
    rw [err_of_view h1, err_of_view h2]
    exact .err _

/-- One Chinese sign for another of the same meaning. -/
def chineseSwap (k : ChineseKind) (o : ChineseOptions) (c : Char) : Char :=
  match tokenOf c with
  | some t => chineseGlyph (isTraditional k) (o.usage = .financial) t
  | none => '?'

theorem chinese_respell {k k' : ChineseKind} {o o' : ChineseOptions} (hk : isFormal k = isFormal k') (ho : o.scale = o'.scale) {n : Nat} (hn : n < 2 ^ 128) :
    answer (.chinese k' o') n = respell (chineseSwap k' o') (answer (.chinese k o) n) := by
  simp only [answer, ← ho]
  split
  · rfl
  · next h =>
    simp only [respell, chineseText, List.map_map, ← hk, ← ho]
    congr 1
    refine List.map_congr_left fun t ht => ?_
    have hv := tokens_valid (isFormal k) ⟨hn, fun hs => Nat.lt_of_not_le fun hc => h ⟨hs, hc⟩⟩ t ht
    simp only [Function.comp, chineseSwap, tokenOf_glyph _ _ hv]

theorem chinese_writing {k : ChineseKind} {o : ChineseOptions} : 20 ≤ writing (.chinese k o) := by
  obtain ⟨u, a⟩ := o
  cases k <;> cases a <;> simp [writing]

theorem other_writing {s : Named} (h : ∀ k o, s ≠ .chinese k o) : writing s < 20 := by
  cases s with
  | chinese k o => exact absurd rfl (h k o)
  | _ => decide

/-- For every two systems that write alike there is one replacement of signs for all numbers. -/
theorem same_writing {s s' : Named} (h : writing s = writing s') : ∃ f : Char → Char, ∀ cfg T n, cfg.alloc = true → T.Fits cfg n →
    EndAlike (Shows fun c => [f c]) (tryToNominal cfg T n s.system) (tryToNominal cfg T n s'.system) := by
  by_cases he : s = s'
  · subst he
    refine ⟨id, fun cfg T n ha hn => alike_of_answer ha hn ?_⟩
    cases answer s n <;> simp [respell]
  cases hp : signsOf s with
  | some p =>
    cases hq : signsOf s' with
    | some q =>
      have hpq : p.1 = q.1 ∧ p.2.length = q.2.length := by
        clear he
        cases s <;> cases hp <;> cases s' <;> cases hq <;> first | (exact absurd h (by decide)) | (exact ⟨rfl, by decide +kernel⟩)
      exact ⟨swap p.2 q.2, fun cfg T n ha _ => signs_alike ha T n hp hq hpq.1 hpq.2⟩
    | none =>
      exfalso
      have h1 : writing s < 20 := other_writing fun k o e => by rw [e] at hp; cases hp
      cases s' with
      | chinese k o => exact absurd (chinese_writing (k := k) (o := o)) (by omega)
      | _ => cases s <;> cases hp <;> cases hq <;> exact absurd h (by decide)
  | none =>
    have both : ∀ {t u : List (List Char × Nat)}, tableOf s = some t → tableOf s' = some u →
        relabelledTable (fun c => [swap (tableSigns t) (tableSigns u) c]) t = u → ∃ f : Char → Char, ∀ cfg T n, cfg.alloc = true → T.Fits cfg n →
          EndAlike (Shows fun c => [f c]) (tryToNominal cfg T n s.system) (tryToNominal cfg T n s'.system) :=
      fun ht hu e => ⟨_, fun cfg T n ha _ => tables_alike ha T n ht hu e⟩
    cases s with
    | chinese k o =>
      cases s' with
      | chinese k' o' =>
        have hko : isFormal k = isFormal k' ∧ o.scale = o'.scale := by
          obtain ⟨u, a⟩ := o
          obtain ⟨u', a'⟩ := o'
          clear he hp both
          cases k <;> cases a <;> cases k' <;> cases a' <;> first | (exact ⟨rfl, rfl⟩) | (simp [writing] at h)
        exact ⟨chineseSwap k' o', fun cfg T n ha hn => alike_of_answer ha hn (chinese_respell hko.1 hko.2 (fits_lt hn))⟩
      | _ => exact absurd (chinese_writing (k := k) (o := o)) (by rw [h]; decide)
    | _ =>
      cases s' with
      | chinese k o => exact absurd (chinese_writing (k := k) (o := o)) (by rw [← h]; decide)
      | _ =>
        first
        | exact absurd h (by decide)
        | exact absurd rfl he
        | (cases hp; done)
        | (refine both rfl rfl (swap_tables.1 _ ?_ _ ?_) <;> (simp; done))
        | (refine both rfl rfl (swap_tables.2.1 _ ?_ _ ?_) <;> (simp; done))
        | (refine both rfl rfl (swap_tables.2.2 _ ?_ _ ?_) <;> (simp; done))
        | exact ⟨Char.toLower, fun cfg T n ha _ => hex_alike ha T n (by decide) (by decide +kernel)⟩
        | exact ⟨fun c => if c.isLower then c.toUpper else c, fun cfg T n ha _ => hex_alike ha T n (by decide) (by decide +kernel)⟩

/-- How long an answer is, or which error it is. -/
def shape : Answer → Nat
  | .noZero => 0
  | .outOfBounds => 1
  | .text t => t.length + 2

def shapes (s : Named) : List Nat := [0, 1, 10, 11, 14, 16, 24, 26, 46, 101].map fun n => shape (answer s n)

/-- The systems the shapes of ten small numbers tell apart; 15 stands for Georgian and Ethiopic as well, 20 and 30 for all scales of the formal and informal
Chinese numerals. -/
def byShapes : List (List Nat × Nat) :=
  [([3, 3, 4, 4, 4, 4, 4, 4, 4, 5], 0), ([3, 3, 3, 3, 3, 3, 3, 4, 4, 4], 1), ([3, 3, 3, 3, 3, 3, 4, 4, 4, 4], 2),
   ([3, 3, 3, 3, 3, 3, 3, 3, 4, 4], 3), ([3, 3, 3, 3, 3, 3, 3, 3, 3, 4], 4), ([3, 3, 3, 3, 4, 4, 4, 4, 4, 4], 5),
   ([3, 3, 3, 3, 3, 4, 4, 4, 4, 4], 6), ([3, 3, 3, 4, 5, 5, 6, 6, 6, 4], 7), ([3, 3, 4, 5, 5, 5, 5, 5, 5, 5], 8),
   ([3, 3, 3, 4, 4, 4, 5, 5, 5, 4], 9), ([0, 3, 3, 4, 4, 4, 4, 4, 4, 5], 10), ([0, 3, 3, 3, 4, 4, 4, 4, 4, 5], 11),
   ([3, 3, 3, 3, 3, 3, 3, 3, 3, 1], 12), ([0, 3, 3, 1, 1, 1, 1, 1, 1, 1], 13), ([0, 4, 3, 5, 4, 4, 4, 4, 4, 5], 14),
   ([0, 3, 3, 4, 4, 4, 4, 4, 4, 4], 15), ([0, 5, 5, 4, 4, 5, 4, 4, 4, 4], 17), ([3, 3, 4, 5, 5, 5, 5, 5, 5, 6], 20),
   ([3, 3, 3, 4, 4, 4, 5, 5, 5, 6], 30)]

/-- All scales together, and Georgian and Ethiopic with lower case Armenian. -/
def coarse (w : Nat) : Nat := if w < 20 then if w = 16 ∨ w = 18 then 15 else w else if w < 30 then 20 else 30

theorem shapes_tell (s : Named) : byShapes.lookup (shapes s) = some (coarse (writing s)) := by
  cases s with
  | chinese k o =>
    obtain ⟨u, a⟩ := o
    cases u <;> cases k <;> cases a <;> decide +kernel
  | _ => decide +kernel

theorem letters_tell (s : Named) : (writing s = 15 → shape (answer s 9001) = 4 ∧ shape (answer s 10001) = 5) ∧
    (writing s = 16 → shape (answer s 9001) = 4 ∧ shape (answer s 10001) = 4) ∧ (writing s = 18 → shape (answer s 9001) ≠ 4) := by
  cases s with
  | chinese k o => 
    have := chinese_writing (k := k) (o := o)
    exact ⟨fun h => absurd this (by omega), fun h => absurd this (by omega), fun h => absurd this (by omega)⟩
  | armenianLower => exact ⟨fun _ => by decide +kernel, fun h => absurd h (by decide), fun h => absurd h (by decide)⟩
  | georgian => exact ⟨fun h => absurd h (by decide), fun _ => by decide +kernel, fun h => absurd h (by decide)⟩
  | ethiopic => exact ⟨fun h => absurd h (by decide), fun h => absurd h (by decide), fun _ => by decide +kernel⟩
  | _ => exact ⟨fun h => absurd h (by decide), fun h => absurd h (by decide), fun h => absurd h (by decide)⟩

def bigShapes (s : Named) : List Nat := [10 ^ 12, 10 ^ 15, 10 ^ 24].map fun n => shape (answer s n)

theorem bigShapes_tell (k : ChineseKind) (o : ChineseOptions) :
    [([4, 1, 1], 0), ([4, 5, 4], 1), ([5, 6, 4], 2), ([5, 6, 5], 3)].lookup (bigShapes (.chinese k o)) = some (writing (.chinese k o) % 10) := by
  obtain ⟨u, a⟩ := o
  cases u <;> cases k <;> cases a <;> decide +kernel

theorem shape_of_alike {cfg : Cfg} {T : IntTy} {n : Nat} (ha : cfg.alloc = true) (hn : T.Fits cfg n) {s s' : Named} {f : Char → Char}
    (h : EndAlike (Shows fun c => [f c]) (tryToNominal cfg T n s.system) (tryToNominal cfg T n s'.system)) :
    shape (answer s n) = shape (answer s' n) := by
  have h1 := C51_catalogue s hn
  have h2 := C51_catalogue s' hn
  rw [ha] at h1 h2
  have gives : ∀ t : List Char, present true n (.text t) = .ok (t, decide (utf8Len t ≤ 62)) := fun t => deliver_alloc_gives n t
  revert h h1 h2
  generalize tryToNominal cfg T n s.system = r
  generalize tryToNominal cfg T n s'.system = r'
  intro h h1 h2
  cases h with
  | ok h =>
    obtain ⟨t, t1, t2⟩ := h
    rw [view_of_ok rfl t1] at h1
    rw [view_of_ok rfl t2] at h2
    rw [flatMap_single] at h2
    cases e1 : answer s n with
    | text u =>
      rw [e1, gives] at h1
      cases e2 : answer s' n with
      | text v =>
        rw [e2, gives] at h2
        simp only [Res.ok.injEq, Prod.mk.injEq] at h1 h2
        simp [shape, ← h1.1, ← h2.1]
      | noZero => rw [e2] at h2; cases h2
      | outOfBounds => rw [e2] at h2; cases h2
    | noZero => rw [e1] at h1; cases h1
    | outOfBounds => rw [e1] at h1; cases h1
  | err e =>
    cases e1 : answer s n with
    | text u => rw [e1, gives] at h1; cases h1
    | noZero =>
      rw [e1] at h1
      cases h1
      cases e2 : answer s' n with
      | text u => rw [e2, gives] at h2; cases h2
      | noZero => rfl
      | outOfBounds => rw [e2] at h2; cases h2
    | outOfBounds =>
      rw [e1] at h1
      cases h1
      cases e2 : answer s' n with
      | text u => rw [e2, gives] at h2; cases h2
      | noZero => rw [e2] at h2; cases h2
      | outOfBounds => rfl
  | _ =>
    cases e1 : answer s n with
    | text u => rw [e1, gives] at h1; cases h1
    | noZero => rw [e1] at h1; cases h1
    | outOfBounds => rw [e1] at h1; cases h1

/-- C104. Between two named systems a replacement of signs, the same for all numbers, translates the labels exactly if they write alike:
between the nineteen decimal scripts, the cases of letters, Greek, hexadecimals and Roman numerals, hiragana and katakana, consonants and
syllables, the formal and the informal numerals of Japan and Korea, and the Chinese numerals of the same scale and form. -/
theorem C104_named (s s' : Named) :
    (∃ f : Char → Char, ∀ cfg T n, cfg.alloc = true → T.Fits cfg n →
      EndAlike (Shows fun c => [f c]) (tryToNominal cfg T n s.system) (tryToNominal cfg T n s'.system)) ↔ writing s = writing s' := by
  refine ⟨fun ⟨f, h⟩ => ?_, same_writing⟩
  have key : ∀ n, n < 2 ^ 128 → shape (answer s n) = shape (answer s' n) := fun n hn =>
    shape_of_alike (cfg := ⟨true, .w64, true⟩) (T := .u128) rfl hn (h ⟨true, .w64, true⟩ .u128 n rfl hn)
  have e1 : shapes s = shapes s' := by
    simp only [shapes, List.map_cons, List.map_nil]
    rw [key 0 (by decide), key 1 (by decide), key 10 (by decide), key 11 (by decide), key 14 (by decide), key 16 (by decide), key 24 (by decide),
      key 26 (by decide), key 46 (by decide), key 101 (by decide)]
  have hc : coarse (writing s) = coarse (writing s') := by
    have h1 := shapes_tell s
    rw [e1, shapes_tell s'] at h1
    exact (Option.some.inj h1).symm
  have tell := letters_tell s
  have tell' := letters_tell s'
  rw [key 9001 (by decide), key 10001 (by decide)] at tell
  by_cases h1 : writing s < 20
  · have h2 : writing s' < 20 := Classical.byContradiction fun h2 => by
      simp only [coarse, if_pos h1, if_neg h2] at hc
      split at hc <;> split at hc <;> omega
    simp only [coarse, if_pos h1, if_pos h2] at hc
    split at hc <;> split at hc <;> omega
  · have h2 : ¬writing s' < 20 := fun h2 => by
      simp only [coarse, if_neg h1, if_pos h2] at hc
      split at hc <;> split at hc <;> omega
    have chin : ∀ s : Named, ¬writing s < 20 → ∃ k o, s = .chinese k o := fun s hs =>
      Classical.byContradiction fun hc => hs (other_writing fun k o e => hc ⟨k, o, e⟩)
    obtain ⟨k, o, rfl⟩ := chin s h1
    obtain ⟨k', o', rfl⟩ := chin s' h2
    have e2 : bigShapes (.chinese k o) = bigShapes (.chinese k' o') := by
      simp only [bigShapes, List.map_cons, List.map_nil]
      rw [key (10 ^ 12) (by decide), key (10 ^ 15) (by decide), key (10 ^ 24) (by decide)]
    have h3 := bigShapes_tell k o
    rw [e2, bigShapes_tell k' o'] at h3
    have h3 := Option.some.inj h3
    have lt : ∀ k o, writing (.chinese k o) < 24 ∨ 30 ≤ writing (.chinese k o) ∧ writing (.chinese k o) < 34 := by
      intro k o
      obtain ⟨u, a⟩ := o
      cases k <;> cases a <;> simp [writing]
    have l1 := lt k o
    have l2 := lt k' o'
    simp only [coarse, if_neg h1, if_neg h2] at hc
    split at hc <;> split at hc <;> omega

/-- Devanagari and Thai, Japanese and Korean; but the decimal scripts and hexadecimals do not write alike. -/
example : writing .devanagari = writing .thai ∧ writing .japaneseFormal = writing .hangeulFormal ∧ writing .decimal ≠ writing .hexLower ∧
    view (tryToNominal ⟨true, .w64, true⟩ .u8 21 Named.devanagari.system) = .ok ([Char.ofNat 0x968, Char.ofNat 0x967], true) ∧
    view (tryToNominal ⟨true, .w64, true⟩ .u8 21 Named.thai.system) = .ok ([Char.ofNat 0xe52, Char.ofNat 0xe51], true) := by
  decide +kernel

/-- C104. The labels themselves correspond whatever the builds and integer types. -/
theorem C104_labels {s s' : Named} (h : writing s = writing s') : ∃ f : Char → Char, ∀ cfg cfg' T T' n x y, T.Fits cfg n → T'.Fits cfg' n →
    tryToNominal cfg T n s.system = .ok x → tryToNominal cfg' T' n s'.system = .ok y → Shows (fun c => [f c]) x y := by
  obtain ⟨f, hf⟩ := same_writing h
  refine ⟨f, fun cfg cfg' T T' n x y hn hn' hx hy => ?_⟩
  have h128 : n < 2 ^ 128 := fits_lt hn
  have hA := hf ⟨true, .w64, true⟩ .u128 n rfl h128
  obtain ⟨t, a1, t1⟩ := named_text hn hx
  obtain ⟨u, a2, t2⟩ := named_text hn' hy
  have c1 := C51_catalogue (cfg := ⟨true, .w64, true⟩) (T := .u128) s h128
  have c2 := C51_catalogue (cfg := ⟨true, .w64, true⟩) (T := .u128) s' h128
  rw [a1] at c1
  rw [a2] at c2
  simp only [present, deliver_alloc_gives] at c1 c2
  obtain ⟨x', e1, t1'⟩ := string_of_view c1
  obtain ⟨y', e2, t2'⟩ := string_of_view c2
  rw [e1, e2] at hA
  cases hA with
  | ok h =>
    obtain ⟨v, h1, h2⟩ := h
    rw [t1'] at h1
    cases h1
    rw [t2'] at h2
    exact ⟨t, t1, by rw [t2]; exact h2⟩

/-- A `u8` on a build without `alloc` and a `u128` on one with it. -/
example : view (tryToNominal ⟨false, .w16, true⟩ .u8 14 Named.romanLower.system) = .ok (['x', 'i', 'v'], true) ∧
    view (tryToNominal ⟨true, .w64, true⟩ .u128 14 Named.romanUpper.system) = .ok (['X', 'I', 'V'], true) := by
  decide +kernel

/-- C104. The Armenian cases differ in more than their signs: the capital one is written with a space after it, in every label that ends with
it. Replacing signs by texts, the space by nothing, translates between them as well. -/
theorem C104_armenian :
    (∃ g : Char → List Char, g ' ' = [] ∧ ∀ cfg T n, cfg.alloc = true →
      EndAlike (Shows g) (tryToNominal cfg T n Named.armenianUpper.system) (tryToNominal cfg T n Named.armenianLower.system)) ∧
    ∃ g : Char → List Char, g '\u0561' = ['\u0531', ' '] ∧ ∀ cfg T n, cfg.alloc = true →
      EndAlike (Shows g) (tryToNominal cfg T n Named.armenianLower.system) (tryToNominal cfg T n Named.armenianUpper.system) := by
  constructor
  · refine ⟨fun c => if c = ' ' then [] else [Char.ofNat (c.toNat + 0x30)], rfl, fun cfg T n ha => ?_⟩
    have := C104_additive (g := fun c => if c = ' ' then [] else [Char.ofNat (c.toNat + 0x30)]) (.inl ha) T n armenianUpperTable
    rw [show relabelledTable _ armenianUpperTable = armenianLowerTable by decide +kernel] at this
    exact this
  · refine ⟨fun c => if c = '\u0561' then ['\u0531', ' '] else [Char.ofNat (c.toNat - 0x30)], rfl, fun cfg T n ha => ?_⟩
    have := C104_additive (g := fun c => if c = '\u0561' then ['\u0531', ' '] else [Char.ofNat (c.toNat - 0x30)]) (.inl ha) T n armenianLowerTable
    rw [show relabelledTable _ armenianLowerTable = armenianUpperTable by decide +kernel] at this
    exact this

/-- Eleven. -/
example : view (tryToNominal ⟨true, .w64, true⟩ .u8 11 Named.armenianUpper.system) = .ok (['\u053a', '\u0531', ' '], true) ∧
    view (tryToNominal ⟨true, .w64, true⟩ .u8 11 Named.armenianLower.system) = .ok (['\u056a', '\u0561'], true) := by
  decide +kernel

end Nominals.Props
