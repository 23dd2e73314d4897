import Verif.Spec.NoAlloc
import Verif.Props.ChainTypes

/-!
# Property C86: user-defined systems without `alloc`
-/

namespace Nominals.Props

open Nominals.Spec

theorem squeezed_deliver {n : Nat} (t : List Char) : squeezed n (deliver true n t) = deliver false n t := by
  unfold deliver
  by_cases h : utf8Len t ≤ 62
  · simp [squeezed, h]
  · simp [squeezed, h]

theorem writes_squeezed {bits : Nat} {hz zb : Bool} {al : List Char} {n : Nat} {r : Res Error (List Char × Bool)}
    (h : Writes true bits hz zb al n r) : Writes false bits hz zb al n (squeezed n r) := by
  cases h with
  | symbol c h1 h2 => rw [squeezed_deliver]; exact .symbol c h1 h2
  | numeral ds h1 h2 h3 h4 => rw [squeezed_deliver]; exact .numeral ds h1 h2 h3 h4
  | lone c h1 h2 h3 => rw [squeezed_deliver]; exact .lone c h1 h2 h3
  | full _ _ _ _ h => cases h
  | column h1 h2 h3 h4 => rw [squeezed_deliver]; exact .column h1 h2 h3 h4
  | shifted m h1 h2 h3 h4 h5 => rw [squeezed_deliver]; exact .shifted m h1 h2 h3 h4 h5
  | noZero h1 h2 h3 h4 => exact .noZero h1 h2 h3 h4
  | empty h1 h2 => exact .empty h1 h2

theorem writes_expanded {bits : Nat} {hz zb : Bool} {al : List Char} {n : Nat} {r : Res Error (List Char × Bool)}
    (h : Writes false bits hz zb al n r) :
    (∃ r', Writes true bits hz zb al n r' ∧ r = squeezed n r') ∨ r = .err (.outOfMemory n) ∧ hz = true ∧ al.length = 1 ∧ n ≠ 0 := by
  cases h with
  | symbol c h1 h2 => exact .inl ⟨_, .symbol c h1 h2, (squeezed_deliver _).symm⟩
  | numeral ds h1 h2 h3 h4 => exact .inl ⟨_, .numeral ds h1 h2 h3 h4, (squeezed_deliver _).symm⟩
  | lone c h1 h2 h3 => exact .inl ⟨_, .lone c h1 h2 h3, (squeezed_deliver _).symm⟩
  | full c h1 h2 h3 _ => exact .inr ⟨rfl, h1, by rw [h2]; rfl, h3⟩
  | column h1 h2 h3 h4 => exact .inl ⟨_, .column h1 h2 h3 h4, (squeezed_deliver _).symm⟩
  | shifted m h1 h2 h3 h4 h5 => exact .inl ⟨_, .shifted m h1 h2 h3 h4 h5, (squeezed_deliver _).symm⟩
  | noZero h1 h2 h3 h4 => exact .inl ⟨_, .noZero h1 h2 h3 h4, rfl⟩
  | empty h1 h2 => exact .inl ⟨_, .empty h1 h2, rfl⟩

/-- The cases of `Writes` other than a lone zero digit for a number other than 0 need no memory that could be missing. -/
theorem writes_lone {bits : Nat} {al : List Char} {n : Nat} {zb : Bool} {r : Res Error (List Char × Bool)} (hl : al.length = 1) (h0 : n ≠ 0)
    (hb : 256 ≤ 2 ^ bits) : ¬ Writes true bits true zb al n r := by
  intro h
  cases h with
  | symbol c h1 h2 => omega
  | numeral ds h1 h2 h3 h4 => omega
  | lone c h1 h2 h3 => exact h0 h3
  | full _ _ _ _ h => cases h
  | column _ h _ _ => cases h
  | shifted _ _ h _ _ _ => cases h
  | noZero _ h _ _ => cases h
  | empty h _ => rw [h] at hl; cases hl

/-- C86, digit collections with all their fallbacks. An outcome with `alloc` is the outcome without, with `OutOfMemory(n)` in place of a text of
more than 62 bytes. There is no other outcome without `alloc` except `OutOfMemory(n)` where formatting never ends with `alloc`. -/
theorem C86_digits {p : PtrWidth} {chk : Bool} {T : IntTy} {d : DigitSys} {al : Nat → List Char} {n : Nat} (hd : Lawful ⟨true, p, chk⟩ d al)
    (hn : T.Fits ⟨true, p, chk⟩ n) (r : Res Error (List Char × Bool)) :
    (Ends ⟨true, p, chk⟩ T d n r → Ends ⟨false, p, chk⟩ T d n (squeezed n r)) ∧
    (Ends ⟨false, p, chk⟩ T d n r →
      (∃ r', Ends ⟨true, p, chk⟩ T d n r' ∧ r = squeezed n r') ∨ r = .err (.outOfMemory n) ∧ ∀ r', ¬ Ends ⟨true, p, chk⟩ T d n r') := by
  have hbits : T.bits ⟨true, p, chk⟩ = T.bits ⟨false, p, chk⟩ := by cases T <;> rfl
  have hd' : Lawful ⟨false, p, chk⟩ d al := ⟨hd.digits, hd.usize⟩
  have hn' : T.Fits ⟨false, p, chk⟩ n := by unfold IntTy.Fits at hn ⊢; rw [← hbits]; exact hn
  have ho : ∀ k, HandsOver ⟨true, p, chk⟩ T (d.level k) n ↔ HandsOver ⟨false, p, chk⟩ T (d.level k) n :=
    fun k => ⟨handsOver_types hn', handsOver_types hn⟩
  refine ⟨fun h => ?_, fun h => ?_⟩
  · rw [C73_outcome hd hn] at h
    rw [C73_outcome hd' hn']
    obtain ⟨k, hk, h⟩ := h
    refine ⟨k, fun i hi => ⟨(ho i).1 (hk i hi).1, (hk i hi).2⟩, ?_⟩
    rcases h with ⟨h1, h2, rfl⟩ | ⟨h1, h2⟩
    · exact .inl ⟨(ho k).1 h1, h2, rfl⟩
    · exact .inr ⟨fun h => h1 ((ho k).2 h), by rw [← hbits]; exact writes_squeezed h2⟩
  · rw [C73_outcome hd' hn'] at h
    obtain ⟨k, hk, h⟩ := h
    have hk' : ∀ i, i < k → HandsOver ⟨true, p, chk⟩ T (d.level i) n ∧ al (i + 1) ≠ [] := fun i hi => ⟨(ho i).2 (hk i hi).1, (hk i hi).2⟩
    rcases h with ⟨h1, h2, rfl⟩ | ⟨h1, h2⟩
    · exact .inl ⟨.err (.outOfBounds n), (C73_outcome hd hn).2 ⟨k, hk', .inl ⟨(ho k).2 h1, h2, rfl⟩⟩, rfl⟩
    · have h1' : ¬ HandsOver ⟨true, p, chk⟩ T (d.level k) n := fun h => h1 ((ho k).1 h)
      rw [← hbits] at h2
      rcases writes_expanded h2 with ⟨r', h3, h4⟩ | ⟨h3, hz, hl, h0⟩
      · exact .inl ⟨r', (C73_outcome hd hn).2 ⟨k, hk', .inr ⟨h1', h3⟩⟩, h4⟩
      · refine .inr ⟨h3, fun r' h => ?_⟩
        rw [C73_outcome hd hn] at h
        obtain ⟨j, hj, h⟩ := h
        have hjk : j = k := by
          rcases Nat.lt_trichotomy j k with hlt | he | hlt
          · rcases h with ⟨-, h, -⟩ | ⟨h, -⟩
            · exact absurd h (hk' j hlt).2
            · exact absurd (hk' j hlt).1 h
          · exact he
          · exact absurd (hj k hlt).1 h1'
        subst hjk
        rcases h with ⟨h, -⟩ | ⟨-, h⟩
        · exact h1' h
        · rw [hz] at h
          exact writes_lone hl h0 (bits_ge _ _) h

/-- Both parts: 2^16 written with a four-byte zero and one of four bytes takes 68 bytes; a lone zero digit fills the buffer. -/
example :
    view (digitTryFormat ⟨true, .w64, true⟩ .u32 99 2 (.digitSetNew ['𝟘', '𝟙']) 65536) =
      .ok ('𝟙' :: List.replicate 16 '𝟘', false) ∧
    view (digitTryFormat ⟨false, .w64, true⟩ .u32 99 2 (.digitSetNew ['𝟘', '𝟙']) 65536) = .err (.outOfMemory 65536) ∧
    view (digitTryFormat ⟨false, .w64, true⟩ .u32 99 2 (.digitSetNew ['0']) 7) = .err (.outOfMemory 7) ∧
    digitTryFormat ⟨true, .w64, true⟩ .u32 99 2 (.digitSetNew ['0']) 7 = .timeout := by decide +kernel

/-- C86, additive sets. For every number but 0 a text of more than 62 bytes becomes `OutOfMemory(n)`; but for 0 a symbol of more than 62
bytes makes a build without `alloc` panic. Errors are the same. -/
theorem C86_additive {ε : Type} {p : PtrWidth} {chk : Bool} {T : IntTy} {table : List (List Char × Nat)} {a : AdditiveSet} {n : Nat}
    (ha : AdditiveSet.new (ε := ε) table = .ok a) (hn : T.Fits ⟨true, p, chk⟩ n) :
    view (a.tryFormat ⟨false, p, chk⟩ T n) =
      if n = 0 then burst (view (a.tryFormat ⟨true, p, chk⟩ T n)) else squeezed n (view (a.tryFormat ⟨true, p, chk⟩ T n)) := by
  split
  · next h0 =>
    subst h0
    by_cases h : ∃ q ∈ table, q.2 = 0
    · obtain ⟨z, hz⟩ := (C23_zero (cfg := ⟨true, p, chk⟩) (T := T) ha).2.2 h
      rw [(C23_zero (cfg := ⟨true, p, chk⟩) (T := T) ha).1 z hz, (C23_zero (cfg := ⟨false, p, chk⟩) (T := T) ha).1 z hz]
      by_cases hl : utf8Len z ≤ 62 <;> simp [burst, hl]
    · have h' : ∀ q ∈ table, q.2 ≠ 0 := fun q hq h0 => h ⟨q, hq, h0⟩
      rw [(C23_zero (cfg := ⟨true, p, chk⟩) (T := T) ha).2.1 h', (C23_zero (cfg := ⟨false, p, chk⟩) (T := T) ha).2.1 h']
      rfl
  · next h0 =>
    have hbits : T.bits ⟨true, p, chk⟩ = T.bits ⟨false, p, chk⟩ := by cases T <;> rfl
    have hn' : T.Fits ⟨false, p, chk⟩ n := by unfold IntTy.Fits at hn ⊢; rw [← hbits]; exact hn
    rw [(additive_del hn h0).view, (additive_del hn' h0).view]
    exact (squeezed_deliver _).symm

/-- 63 copies of a sign are too many, 62 are not; a zero sign of 63 bytes is a panic. -/
example : ∃ a, AdditiveSet.new (ε := Empty) [(['|'], 1), (List.replicate 63 '0', 0)] = .ok a ∧
    view (a.tryFormat ⟨true, .w64, true⟩ .u8 63) = .ok (List.replicate 63 '|', false) ∧
    view (a.tryFormat ⟨false, .w64, true⟩ .u8 63) = .err (.outOfMemory 63) ∧
    view (a.tryFormat ⟨false, .w64, true⟩ .u8 62) = .ok (List.replicate 62 '|', true) ∧
    view (a.tryFormat ⟨false, .w64, true⟩ .u8 0) = .panic := by
  refine ⟨_, rfl, ?_⟩
  decide +kernel

/-- C86, enumerated sets. Here a symbol of more than 62 bytes is never an error but a panic in a build without `alloc`; errors are the
same. -/
theorem C86_enumerated {p : PtrWidth} {chk : Bool} {T : IntTy} {n : Nat} (e : EnumSet) (hl : e.symbols.length < 2 ^ p.bits) :
    view (e.tryFormat ⟨false, p, chk⟩ T n) = burst (view (e.tryFormat ⟨true, p, chk⟩ T n)) := by
  rw [C45_enumerated e hl, C45_enumerated e hl]
  split
  · rfl
  · split
    · next t _ => by_cases hl : utf8Len t ≤ 62 <;> simp [burst, hl]
    · rfl

example : view ((EnumSet.mk true [['x'], List.replicate 63 'y']).tryFormat ⟨true, .w64, true⟩ .u8 1) = .ok (List.replicate 63 'y', false) ∧
    view ((EnumSet.mk true [['x'], List.replicate 63 'y']).tryFormat ⟨false, .w64, true⟩ .u8 1) = .panic ∧
    view ((EnumSet.mk true [['x'], List.replicate 63 'y']).tryFormat ⟨false, .w64, true⟩ .u8 2) = .err (.outOfBounds 2) := by decide +kernel

end Nominals.Props
