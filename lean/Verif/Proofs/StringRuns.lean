import Verif.Proofs.StringRefine
import Verif.Spec.Strings

/-!
# Histories of string operations
-/

namespace Nominals

open Spec

theorem InlineString.replace_holds {s : InlineString} {t t' : List Char} (h : s.Holds t) (hlen : utf8Len t' = utf8Len t) :
    InlineString.Holds (InlineString.mk s.length (s.bytes.take s.dataOffset ++ (utf8Encode t').map some
      ++ s.bytes.drop (s.dataOffset + s.lenUsize))) t' := by
  obtain ⟨hl, pad, hp, hb, hx⟩ := h
  refine ⟨?_, pad, by omega, ?_, hx⟩
  · rw [hlen, ← hl]; rfl
  · rw [hl, hb, InlineString.dataOffset, hl]
    have hrr : ∀ b, InlineString.isReverse { length := s.length, bytes := b } = s.isReverse := fun _ => rfl
    cases hr : s.isReverse
    · simp only [hrr, hr, Bool.false_eq_true, ↓reduceIte, List.take_zero, List.nil_append, Nat.zero_add]
      rw [List.drop_left' (by simp)]
    · simp only [hrr, hr, ↓reduceIte, INLINE_CAPACITY]
      rw [List.take_left' (by omega), List.drop_of_length_le (by simp; omega), List.append_nil]

/-- The window of an inline string after its bytes are overwritten by as many others. -/
theorem InlineString.replace_asBytes {s : InlineString} (hw : s.dataOffset + s.lenUsize ≤ s.bytes.length) {bs : List UInt8}
    (hl : bs.length = s.lenUsize) :
    InlineString.asBytes (InlineString.mk s.length (s.bytes.take s.dataOffset ++ bs.map some
      ++ s.bytes.drop (s.dataOffset + s.lenUsize))) = some bs := by
  have e1 : ∀ b, InlineString.dataOffset { length := s.length, bytes := b } = s.dataOffset := fun _ => rfl
  have e2 : ∀ b, InlineString.lenUsize { length := s.length, bytes := b } = s.lenUsize := fun _ => rfl
  have hm : ∀ l : List UInt8, (l.map some).mapM id = some l := by
    intro l
    induction l with
    | nil => rfl
    | cons a l ih => simp [List.mapM_cons, ih]
  unfold InlineString.asBytes
  simp only [e1, e2]
  rw [if_pos (by simp; omega), List.append_assoc, List.drop_left' (by simp; omega), List.take_left' (by simp [hl]), hm]

theorem NStr.mutate_holds {s : NStr} {t : List Char} (h : s.Holds t) (f : List Char → List Char)
    (hf : ∀ t, utf8Len (f t) = utf8Len t) :
    ∃ s', s.mutate (editBytes f) = some s' ∧ s'.Holds (f t) ∧ s'.isInline = s.isInline := by
  cases s with
  | inline s =>
    simp only [NStr.mutate, InlineString.Holds.asBytes h, Option.map_some, editBytes, utf8Decode_encode]
    exact ⟨_, rfl, InlineString.replace_holds h (hf t), rfl⟩
  | heap u =>
    cases h
    simp only [NStr.mutate, editBytes, utf8Decode_encode, Option.map_some]
    exact ⟨_, rfl, rfl, rfl⟩

/-- One operation of the code behaves like one operation of the abstract machine. -/
theorem call_refines {cfg : Cfg} {s : NStr} {t : List Char} (h : s.Holds t) (op : Op) :
    ∃ s', op.call cfg s = .ok (s', (absStep cfg.alloc t (!s.isInline) op).2.2) ∧
      s'.Holds (absStep cfg.alloc t (!s.isInline) op).1 ∧
      (!s'.isInline) = (absStep cfg.alloc t (!s.isInline) op).2.1 := by
  have hh : ∀ t', NStr.isInline (.heap t') = false := fun _ => rfl
  have key : ∀ (r : Res (OutOfMemoryError × NStr) NStr), NStr.Ext cfg s (op.on t) r →
      ∃ s', callOutcome r = .ok (s', (absStep cfg.alloc t (!s.isInline) op).2.2) ∧
        s'.Holds (absStep cfg.alloc t (!s.isInline) op).1 ∧
        (!s'.isInline) = (absStep cfg.alloc t (!s.isInline) op).2.1 := by
    intro r hr
    generalize ht : op.on t = t' at hr
    unfold absStep
    rw [ht]
    cases hr with
    | fits s' h1 h2 h3 h4 => exact ⟨s', by simp [h1, h2, callOutcome], by simpa [h1, h2] using h4, by simp [h1, h2, h3]⟩
    | spills h1 h2 h3 =>
      have h2' : ¬ utf8Len t' ≤ 62 := by omega
      exact ⟨.heap t', by simp [h1, h2', h3, callOutcome], by simp [h1, h2', h3, NStr.Holds],
        by simp [h1, h2', h3, hh]⟩
    | fails h1 h2 h3 =>
      have h2' : ¬ utf8Len t' ≤ 62 := by omega
      exact ⟨s, by simp [h1, h2', h3, callOutcome], by simpa [h1, h2', h3] using h, by simp [h1, h2', h3]⟩
    | heap h1 => exact ⟨.heap t', by simp [h1, callOutcome], by simp [h1, NStr.Holds], by simp [h1, hh]⟩
  cases op with
  | push c => exact key _ (NStr.tryPush_ext h c)
  | pushStr u => exact key _ (NStr.tryPushStr_ext h u)
  | pushFront c => exact key _ (NStr.tryPushFront_ext h c)
  | edit f hf =>
    obtain ⟨s', h1, h2, h3⟩ := NStr.mutate_holds h f hf
    refine ⟨s', ?_⟩
    simp only [Op.call, h1, absStep, Op.on]
    cases hi : s.isInline
    · rw [hi] at h3
      simp [h2, h3]
    · have hle := h.len_le hi
      rw [hi] at h3
      rw [← hf t] at hle
      simp [h2, h3, hle]

theorem run_refines {cfg : Cfg} {s : NStr} {t : List Char} (h : s.Holds t) (ops : List Op) :
    run cfg s ops = .ok (absRun cfg.alloc t (!s.isInline) ops) := by
  induction ops generalizing s t with
  | nil => rfl
  | cons op ops ih =>
    obtain ⟨s', h1, h2, h3⟩ := call_refines (cfg := cfg) h op
    simp only [run, h1, Res.bind, h2.asStr, ih h2, absRun, h3]

theorem build_holds {cfg : Cfg} {i : Init} (h : i.Allowed cfg.alloc) :
    ∃ s, i.build cfg = .ok s ∧ s.Holds i.text ∧ (!s.isInline) = i.onHeap := by
  cases i with
  | new => exact ⟨_, rfl, NStr.new_holds, rfl⟩
  | newReverse => exact ⟨_, rfl, NStr.newReverse_holds, rfl⟩
  | fromChar c =>
    have hd := ofChar_del (ε := Empty ⊕ Unit) cfg c (.inr ())
    have hc : NStr.ofChar (ε := Empty ⊕ Unit) cfg c = (NStr.ofChar (ε := Empty) cfg c).mapErr .inl := by
      unfold NStr.ofChar
      cases NStr.push cfg NStr.new c <;> rfl
    have h4 := utf8Size_le c
    simp only [Init.build]
    generalize NStr.ofChar (ε := Empty) cfg c = r at *
    rw [hc] at hd
    cases r with
    | ok s =>
      cases hd with
      | ok s t h1 h2 =>
        refine ⟨s, rfl, h1.1, ?_⟩
        rw [h1.2]
        simp [Init.onHeap]
        omega
    | err e => cases e
    | panic => cases hd
    | ub => cases hd
    | timeout => cases hd
  | fromStr t =>
    obtain ⟨s, h1, h2, h3⟩ := ofStr_is (ε := Empty) cfg t h
    refine ⟨s, h1, h2, ?_⟩
    rw [h3]
    simp only [Init.onHeap]
    by_cases hl : utf8Len t ≤ 62 <;> simp [hl]
    omega
  | fromString t => exact ⟨_, rfl, rfl, rfl⟩

end Nominals

namespace Nominals

open Spec

theorem runState_holds {cfg : Cfg} {s : NStr} {t : List Char} (h : s.Holds t) (ops : List Op)
    (hi : cfg.alloc = true ∨ s.isInline = true) :
    ∃ s' t', runState cfg s ops = .ok s' ∧ s'.Holds t' ∧ (cfg.alloc = true ∨ s'.isInline = true) := by
  induction ops generalizing s t with
  | nil => exact ⟨s, t, rfl, h, hi⟩
  | cons op ops ih =>
    obtain ⟨s', h1, h2, h3⟩ := call_refines (cfg := cfg) h op
    have hi' : cfg.alloc = true ∨ s'.isInline = true := by
      rcases hi with hi | hi
      · exact .inl hi
      · cases ha : cfg.alloc
        · right
          have : (!s'.isInline) = false := by
            rw [h3]
            simp only [absStep, hi, ha, Bool.not_true, Bool.false_eq_true, ↓reduceIte]
            split <;> rfl
          simpa using this
        · left; rfl
    obtain ⟨s2, t2, h4, h5, h6⟩ := ih h2 hi'
    exact ⟨s2, t2, by simp only [runState, h1, Res.bind, h4], h5, h6⟩

theorem init_inline {cfg : Cfg} {i : Init} {s : NStr} (h : i.Allowed cfg.alloc) (hh : (!s.isInline) = i.onHeap) :
    cfg.alloc = true ∨ s.isInline = true := by
  cases ha : cfg.alloc
  · right
    rw [ha] at h
    have : i.onHeap = false := by
      cases i with
      | fromStr t =>
        rcases h with h | h
        · cases h
        · simp only [Init.onHeap, decide_eq_false_iff_not]; omega
      | fromString t => cases h
      | new => rfl
      | newReverse => rfl
      | fromChar c => rfl
    rw [this] at hh
    simpa using hh
  · left; rfl

theorem reachable_holds {cfg : Cfg} {s : NStr} (h : Reachable cfg s) :
    ∃ t, s.Holds t ∧ (cfg.alloc = true ∨ s.isInline = true) := by
  obtain ⟨i, s0, ops, h1, h2, h3⟩ := h
  obtain ⟨s0', h4, h5, h6⟩ := build_holds (cfg := cfg) h1
  rw [h2] at h4
  injection h4 with h4
  subst h4
  obtain ⟨s', t', h7, h8, h9⟩ := runState_holds h5 ops (init_inline h1 h6)
  rw [h3] at h7
  injection h7 with h7
  subst h7
  exact ⟨t', h8, h9⟩

theorem reachable_text {cfg : Cfg} {s : NStr} {t : List Char} (h : Reachable cfg s) (ht : s.asStr = some t) : s.Holds t := by
  obtain ⟨u, hu, _⟩ := reachable_holds h
  rw [hu.asStr] at ht
  injection ht with ht
  subst ht
  exact hu

theorem absRun_alloc (t : List Char) (heap : Bool) (ops : List Op) :
    (absRun true t heap ops).map (·.1) = texts t ops ∧ ∀ o ∈ absRun true t heap ops, o.2.2 = true := by
  induction ops generalizing t heap with
  | nil => exact ⟨rfl, by simp [absRun]⟩
  | cons op ops ih =>
    have h : (absStep true t heap op).1 = op.on t ∧ (absStep true t heap op).2.2 = true := by
      unfold absStep
      split
      · exact ⟨rfl, rfl⟩
      split <;> exact ⟨rfl, rfl⟩
    have := ih (absStep true t heap op).1 (absStep true t heap op).2.1
    simp only [absRun, List.map_cons, texts, List.mem_cons, forall_eq_or_imp]
    rw [this.1, h.1]
    exact ⟨rfl, h.2, h.1 ▸ this.2⟩

theorem absRun_heap (alloc : Bool) (t : List Char) (ops : List Op) : ∀ o ∈ absRun alloc t true ops, o.2.1 = true := by
  induction ops generalizing t with
  | nil => simp [absRun]
  | cons op ops ih =>
    simp only [absRun, absStep, ↓reduceIte, List.mem_cons, forall_eq_or_imp, true_and]
    exact ih _

/-- Operations never shorten the text. -/
theorem Op.on_len (op : Op) (t : List Char) : utf8Len t ≤ utf8Len (op.on t) := by
  cases op with
  | push c => simp [Op.on]
  | pushStr u => simp [Op.on]
  | pushFront c => simp [Op.on]
  | edit f h => simp [Op.on, h]

theorem absRun_canonical (alloc : Bool) (t : List Char) (ops : List Op) :
    ∀ o ∈ absRun alloc t (decide (62 < utf8Len t)) ops, o.2.1 = decide (62 < utf8Len o.1) := by
  induction ops generalizing t with
  | nil => simp [absRun]
  | cons op ops ih =>
    have hl := Op.on_len op t
    have h : (absStep alloc t (decide (62 < utf8Len t)) op).2.1
        = decide (62 < utf8Len (absStep alloc t (decide (62 < utf8Len t)) op).1) := by
      unfold absStep
      split
      · rename_i h
        simp only [decide_eq_true_eq] at h
        simp; omega
      · rename_i h
        simp only [decide_eq_true_eq] at h
        split
        · simp; omega
        split
        · simp; omega
        · simp; omega
    simp only [absRun, List.mem_cons, forall_eq_or_imp]
    refine ⟨h, ?_⟩
    rw [h]
    exact ih _

/-! ## Ordering -/

theorem cmpBytes_self_append (p x y : List UInt8) : NStr.cmpBytes (p ++ x) (p ++ y) = NStr.cmpBytes x y := by
  induction p with
  | nil => rfl
  | cons a p ih =>
    have : ¬ a < a := by simp
    simp [NStr.cmpBytes, ih]

theorem u8_ofNat_lt {a b : Nat} (ha : a < 256) (hb : b < 256) : (UInt8.ofNat a < UInt8.ofNat b) ↔ a < b := by
  rw [UInt8.lt_iff_toNat_lt]
  simp [Nat.mod_eq_of_lt ha, Nat.mod_eq_of_lt hb]

theorem cmpBytes_ofNat_cons (a b : Nat) (x y : List UInt8) (ha : a < 256) (hb : b < 256) :
    NStr.cmpBytes (UInt8.ofNat a :: x) (UInt8.ofNat b :: y) = if a < b then .lt else if b < a then .gt else NStr.cmpBytes x y := by
  simp only [NStr.cmpBytes, u8_ofNat_lt ha hb, u8_ofNat_lt hb ha]

theorem cmpBytes_swap (x y : List UInt8) : NStr.cmpBytes y x = (NStr.cmpBytes x y).swap := by
  induction x generalizing y with
  | nil => cases y <;> rfl
  | cons a x ih =>
    cases y with
    | nil => rfl
    | cons b y =>
      simp only [NStr.cmpBytes, ih y, UInt8.lt_iff_toNat_lt]
      repeat' split
      all_goals first | rfl | omega

theorem cmpBytes_char_lt (c d : Char) (h : c.val.toNat < d.val.toNat) (x y : List UInt8) :
    NStr.cmpBytes (String.utf8EncodeChar c ++ x) (String.utf8EncodeChar d ++ y) = .lt := by
  have h1 : c.val.toNat < 0x110000 := by rcases char_valid c with h | h <;> omega
  have h2 : d.val.toNat < 0x110000 := by rcases char_valid d with h | h <;> omega
  unfold String.utf8EncodeChar
  generalize c.val.toNat = v at *
  generalize d.val.toNat = w at *
  simp only
  have if_lt : ∀ (a b : Nat) (r : Ordering), a ≤ b → (a = b → r = .lt) →
      (if a < b then Ordering.lt else if b < a then .gt else r) = .lt := by
    intro a b r hab hr
    split
    · rfl
    · rw [if_neg (by omega)]
      exact hr (by omega)
  repeat' split
  all_goals
    first
    | (exfalso; omega)
    | skip
  all_goals
    simp (disch := omega) only [List.cons_append, List.nil_append, cmpBytes_ofNat_cons]
  all_goals
    repeat (refine if_lt _ _ _ (by omega) (fun _ => ?_))
  all_goals (exfalso; omega)

theorem cmpBytes_encode (t u : List Char) :
    NStr.cmpBytes (utf8Encode t) (utf8Encode u) = compare (t.map (·.val.toNat)) (u.map (·.val.toNat)) := by
  induction t generalizing u with
  | nil =>
    cases u with
    | nil => rfl
    | cons d u =>
      have hne : String.utf8EncodeChar d ≠ [] := by
        intro h0
        have h1 := utf8EncodeChar_length d
        have := utf8Size_pos d
        rw [h0] at h1
        simp at h1
        omega
      obtain ⟨b, bs, hb⟩ := List.exists_cons_of_ne_nil hne
      rw [utf8Encode_cons, hb]
      rfl
  | cons c t ih =>
    cases u with
    | nil =>
      have hne : String.utf8EncodeChar c ≠ [] := by
        intro h0
        have h1 := utf8EncodeChar_length c
        have := utf8Size_pos c
        rw [h0] at h1
        simp at h1
        omega
      obtain ⟨b, bs, hb⟩ := List.exists_cons_of_ne_nil hne
      rw [utf8Encode_cons, hb]
      rfl
    | cons d u =>
      rw [utf8Encode_cons, utf8Encode_cons, List.map_cons, List.map_cons]
      rw [List.compare_cons_cons]
      rcases Nat.lt_trichotomy c.val.toNat d.val.toNat with h | h | h
      · rw [cmpBytes_char_lt c d h, Nat.compare_eq_lt.mpr h]
        rfl
      · have hcd : c = d := Char.ext (UInt32.toNat_inj.mp h)
        subst hcd
        rw [cmpBytes_self_append, ih, Nat.compare_eq_eq.mpr rfl]
        rfl
      · rw [cmpBytes_swap, cmpBytes_char_lt d c h, Nat.compare_eq_gt.mpr h]
        rfl

end Nominals

namespace Nominals
open Nominals.Spec

theorem runState_snoc {cfg : Cfg} {s0 s s' : NStr} {ops : List Op} {op : Op} {ok : Bool}
    (h : runState cfg s0 ops = .ok s) (hc : op.call cfg s = .ok (s', ok)) : runState cfg s0 (ops ++ [op]) = .ok s' := by
  induction ops generalizing s0 with
  | nil =>
    cases h
    simp [runState, hc, Res.bind]
  | cons o ops ih =>
    simp only [List.cons_append, runState] at h ⊢
    cases hr : o.call cfg s0 with
    | ok p => rw [hr] at h; exact ih h
    | err e => exact e.elim
    | panic => rw [hr] at h; cases h
    | ub => rw [hr] at h; cases h
    | timeout => rw [hr] at h; cases h

end Nominals
