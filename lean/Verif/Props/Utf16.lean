import Verif.Props.LabelOrder
import Verif.Props.Repertoire
import Verif.Spec.Utf16

/-!
# Property C103: labels in UTF-16

Vocabulary: `Verif/Spec/Utf16.lean`.
-/

namespace Nominals

open Nominals.Spec

theorem utf16_cons (c : Char) (t : List Char) : utf16 (c :: t) = units c ++ utf16 t := rfl

theorem units_ne_nil (c : Char) : units c ≠ [] := by
  unfold units
  split <;> simp

theorem char_lt (c : Char) : c.toNat < 0xd800 ∨ 0xdfff < c.toNat ∧ c.toNat < 0x110000 := c.valid

/-- Comparison of lists decided by the first element. -/
theorem compare_heads {a b : Nat} {x y : List Nat} : compare (a :: x) (b :: y) = (compare a b).then (compare x y) := by
  simp [List.compare_eq_compareLex]

theorem compare_append_self (p x y : List Nat) : compare (p ++ x) (p ++ y) = compare x y := by
  induction p with
  | nil => rfl
  | cons a p ih =>
    simp only [List.cons_append]
    rw [compare_heads, Nat.compare_eq_eq.mpr rfl, ih]
    rfl

theorem eq_then (o : Ordering) : Ordering.eq.then o = o := by cases o <;> rfl

theorem then_of_ne {o p : Ordering} (h : o ≠ .eq) : o.then p = o := by
  cases o <;> first | rfl | exact absurd rfl h

/-- Two different characters are ordered alike by their code units, unless one has a surrogate pair and the other lies behind the
surrogates. -/
theorem units_order {c d : Char} (hne : c.toNat ≠ d.toNat)
    (h1 : ¬(0xe000 ≤ c.toNat ∧ c.toNat < 0x10000 ∧ 0x10000 ≤ d.toNat)) (h2 : ¬(0xe000 ≤ d.toNat ∧ d.toNat < 0x10000 ∧ 0x10000 ≤ c.toNat))
    (x y : List Nat) : compare (units c ++ x) (units d ++ y) = compare c.toNat d.toNat := by
  have hc := char_lt c
  have hd := char_lt d
  unfold units
  generalize c.toNat = c at *
  generalize d.toNat = d at *
  have fin : ∀ {a b : Nat} {x y : List Nat}, a ≠ b → (a < b ↔ c < d) → compare (a :: x) (b :: y) = compare c d := by
    intro a b x y hab hiff
    rw [compare_heads]
    by_cases h : a < b
    · rw [Nat.compare_eq_lt.mpr h, Nat.compare_eq_lt.mpr (hiff.1 h)]; rfl
    · have h' : ¬c < d := fun e => h (hiff.2 e)
      rw [Nat.compare_eq_gt.mpr (by omega), Nat.compare_eq_gt.mpr (by omega)]; rfl
  by_cases c1 : c < 0x10000 <;> by_cases d1 : d < 0x10000
  · rw [if_pos c1, if_pos d1]
    simp only [List.cons_append, List.nil_append]
    exact fin hne Iff.rfl
  · rw [if_pos c1, if_neg d1]
    simp only [List.cons_append, List.nil_append]
    exact fin (by omega) (by omega)
  · rw [if_neg c1, if_pos d1]
    simp only [List.cons_append, List.nil_append]
    exact fin (by omega) (by omega)
  · rw [if_neg c1, if_neg d1]
    simp only [List.cons_append, List.nil_append]
    by_cases hh : (c - 0x10000) / 0x400 = (d - 0x10000) / 0x400
    · rw [hh, compare_heads, Nat.compare_eq_eq.mpr rfl, eq_then]
      exact fin (by omega) (by omega)
    · exact fin (by omega) (by omega)

/-- A text in which no character lies between the surrogates and the surrogate pairs, or none needs a pair. -/
theorem utf16_order : ∀ (t u : List Char),
    (∀ c ∈ t ++ u, c.toNat < 0x10000) ∨ (∀ c ∈ t ++ u, ¬(0xe000 ≤ c.toNat ∧ c.toNat < 0x10000)) →
    compare (utf16 t) (utf16 u) = compare (t.map (·.val.toNat)) (u.map (·.val.toNat))
  | [], [], _ => rfl
  | [], d :: u, _ => by
    rw [utf16_cons]
    obtain ⟨a, x, h⟩ := List.exists_cons_of_ne_nil (units_ne_nil d)
    rw [h]
    rfl
  | c :: t, [], _ => by
    rw [utf16_cons]
    obtain ⟨a, x, h⟩ := List.exists_cons_of_ne_nil (units_ne_nil c)
    rw [h]
    rfl
  | c :: t, d :: u, hyp => by
    rw [utf16_cons, utf16_cons]
    simp only [List.map_cons]
    rw [compare_heads]
    by_cases h : c.toNat = d.toNat
    · have : c = d := Char.ext (UInt32.toNat_inj.1 h)
      subst this
      rw [compare_append_self, Nat.compare_eq_eq.mpr rfl]
      refine utf16_order t u (hyp.imp ?_ ?_) <;> exact fun h x hx => h x (by simp at hx ⊢; rcases hx with hx | hx <;> simp [hx])
    · rw [then_of_ne (o := compare c.val.toNat d.val.toNat) (by rw [ne_eq, Nat.compare_eq_eq]; exact h)]
      refine units_order h ?_ ?_ _ _
      · rcases hyp with hyp | hyp
        · have := hyp d (by simp); omega
        · have := hyp c (by simp); omega
      · rcases hyp with hyp | hyp
        · have := hyp c (by simp); omega
        · have := hyp d (by simp); omega

end Nominals

namespace Nominals.Props

open Nominals Nominals.Spec

/-- Every character of every label has one code unit. -/
theorem label_plane {cfg : Cfg} {T : IntTy} {n : Nat} (s : Named) (hn : T.Fits cfg n) {t : List Char} {i : Bool}
    (h : view (toNominal cfg T n s.system) = .ok (t, i)) : ∀ c ∈ t, c.toNat < 0xd800 := by
  have rep : ∀ c ∈ repertoire s, c.toNat < 0xd800 := by
    cases s with
    | chinese k o =>
      obtain ⟨u, a⟩ := o
      cases u <;> cases k <;> cases a <;> decide +kernel
    | _ => decide +kernel
  rcases C41_always_succeeds (cfg := cfg) (T := T) s hn with ⟨x, a1, a2⟩ | ⟨e, -, a2⟩
  · rw [h] at a2
    cases a2
    exact fun c hc => rep c (C66_repertoire s hn a1 c hc)
  · rw [h] at a2
    cases a2
    have hd : IsNumeral 10 n _ := loop_numeral (by omega)
    rw [numeral_toDigits (by omega) hd]
    intro c hc
    obtain ⟨d, hm, rfl⟩ := List.mem_map.1 hc
    have : ∀ d < 10, (Nat.digitChar d).toNat < 0xd800 := by decide
    exact this d (hd.digits d hm)

/-- C103. Every label `to_nominal` writes, fallback included, has one UTF-16 code unit per character and none of them is a surrogate: its length
in JavaScript or Java is the number of characters, cutting it anywhere there leaves whole characters, and it takes at most three bytes of
UTF-8 per code unit. -/
theorem C103_labels {cfg : Cfg} {T : IntTy} {n : Nat} (s : Named) (hn : T.Fits cfg n) {t : List Char} {i : Bool}
    (h : view (toNominal cfg T n s.system) = .ok (t, i)) :
    (utf16 t).length = t.length ∧ (∀ x ∈ utf16 t, ¬(0xd800 ≤ x ∧ x ≤ 0xdfff)) ∧ (∀ k, (utf16 t).take k = utf16 (t.take k)) ∧
      utf8Len t ≤ 3 * (utf16 t).length := by
  have hp := label_plane s hn h
  have one : ∀ t : List Char, (∀ c ∈ t, c.toNat < 0xd800) → utf16 t = t.map Char.toNat := by
    intro t ht
    induction t with
    | nil => rfl
    | cons c t ih =>
      have := ht c (by simp)
      rw [utf16_cons, ih fun d hd => ht d (List.mem_cons_of_mem _ hd), units, if_pos (by omega)]
      rfl
  rw [one t hp]
  refine ⟨List.length_map .., ?_, ?_, ?_⟩
  · intro x hx
    obtain ⟨c, hc, rfl⟩ := List.mem_map.1 hx
    have := hp c hc
    omega
  · intro k
    rw [one (t.take k) fun c hc => hp c (List.mem_of_mem_take hc), List.map_take]
  · rw [List.length_map]
    clear h one
    induction t with
    | nil => exact Nat.le_refl _
    | cons c t ih =>
      have h1 := ih fun d hd => hp d (List.mem_cons_of_mem _ hd)
      have h2 : c.utf8Size ≤ 3 := by
        have : c.val.toNat < 0xd800 := hp c (by simp)
        have hv : c.val ≤ 0xffff := UInt32.le_iff_toNat_le.2 (Nat.le_of_lt (Nat.lt_trans this (by decide)))
        simp only [Char.utf8Size]
        split
        · omega
        · split
          · omega
          · exact Nat.le_of_eq (if_pos hv)
      rw [utf8Len_cons, List.length_cons]
      omega

/-- The longest Chinese unit of the long scale, and a decimal fallback. -/
example : view (toNominal ⟨true, .w64, true⟩ .u128 (10 ^ 32) (Named.chinese .simplifiedInformal ⟨.ordinary, .long⟩).system) = .ok (['一', '京'], true) ∧
    utf16 ['一', '京'] = [0x4e00, 0x4eac] := by decide +kernel

/-- C103. Strings in general: the order of `NominalString` is the order of the UTF-16 code units, unless a character that needs a surrogate
pair and one from U+E000 to U+FFFF occur together. -/
theorem C103_order {x y : NStr} {t u : List Char} (hx : x.asStr = some t) (hy : y.asStr = some u)
    (h : (∀ c ∈ t ++ u, c.toNat < 0x10000) ∨ (∀ c ∈ t ++ u, ¬(0xe000 ≤ c.toNat ∧ c.toNat < 0x10000))) :
    x.cmp y = some (compare (utf16 t) (utf16 u)) := by
  rw [cmp_of_asStr hx hy, utf16_order t u h]

/-- Characters from U+E000 on are in order among themselves. -/
example : compare (utf16 [Char.ofNat 0xe000, 'b']) (utf16 [Char.ofNat 0xfffd]) = .lt ∧
    ∀ c ∈ [Char.ofNat 0xe000, 'b'] ++ [Char.ofNat 0xfffd], c.toNat < 0x10000 := by decide

/-- C103. Where they do occur together the orders differ: between such a pair of characters, and all texts that continue them. -/
theorem C103_order_tight {x y : NStr} {p t u : List Char} {c d : Char} (hc : 0xe000 ≤ c.toNat ∧ c.toNat < 0x10000) (hd : 0x10000 ≤ d.toNat)
    (hx : x.asStr = some (p ++ c :: t)) (hy : y.asStr = some (p ++ d :: u)) :
    x.cmp y = some .lt ∧ compare (utf16 (p ++ c :: t)) (utf16 (p ++ d :: u)) = .gt := by
  constructor
  · rw [cmp_of_asStr hx hy, codes_append]
    exact congrArg some (codes_cons_lt (show c.toNat < d.toNat by omega))
  · have : ∀ v, utf16 (p ++ v) = utf16 p ++ utf16 v := fun v => List.flatMap_append
    rw [this, this, compare_append_self, utf16_cons, utf16_cons]
    unfold units
    rw [if_pos hc.2, if_neg (by omega)]
    simp only [List.cons_append, List.nil_append]
    have hv := char_lt d
    rw [compare_heads, Nat.compare_eq_gt.mpr (by omega)]
    rfl

/-- U+FF21 (a wide A) and U+1D400 (a bold A). -/
example : (Char.ofNat 0xff21).toNat = 0xff21 ∧ (Char.ofNat 0x1d400).toNat = 0x1d400 ∧
    utf16 [Char.ofNat 0xff21] = [0xff21] ∧ utf16 [Char.ofNat 0x1d400] = [0xd835, 0xdc00] := by decide

/-- C103. Labels sort alike in Rust and where strings are compared by UTF-16 code units, even labels of different systems, integer types and
builds. -/
theorem C103_labels_order {cfg cfg' : Cfg} {T T' : IntTy} {n m : Nat} (s s' : Named) (hn : T.Fits cfg n) (hm : T'.Fits cfg' m)
    {x y : NStr} {t u : List Char} (hx : toNominal cfg T n s.system = .ok x) (hy : toNominal cfg' T' m s'.system = .ok y)
    (tx : x.asStr = some t) (ty : y.asStr = some u) : x.cmp y = some (compare (utf16 t) (utf16 u)) := by
  refine C103_order tx ty (.inl fun c hc => ?_)
  rcases List.mem_append.1 hc with hc | hc
  · have := label_plane s hn (view_of_ok hx tx) c hc
    omega
  · have := label_plane s' hm (view_of_ok hy ty) c hc
    omega

/-- The Hebrew and the Chinese seven. -/
example : ((toNominal ⟨true, .w64, true⟩ .u8 7 Named.hebrew.system).bind fun x =>
    (toNominal ⟨false, .w32, true⟩ .u32 7 (Named.chinese .simplifiedInformal ⟨.ordinary, .long⟩).system).map fun y => (x.asStr, y.asStr, x.cmp y)) =
      .ok (some ['\u05f3', '\u05d6', '\u05f4'], some ['七'], some .lt) ∧ compare (utf16 ['\u05f3', '\u05d6', '\u05f4']) (utf16 ['七']) = .lt := by decide +kernel

end Nominals.Props
