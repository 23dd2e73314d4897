import Verif.Spec.Decorated
import Verif.Props.Outline
import Verif.Props.Built
import Verif.Proofs.TextWidth

/-!
# Property C95: decorating a system

Vocabulary: `Verif/Spec/Decorated.lean`.
-/

namespace Nominals.Props

open Nominals.Spec

theorem piece_grows (p : Piece) (t : List Char) : utf8Len t ≤ utf8Len (p.on t) := by
  cases p <;> simp [Piece.on]

theorem pieces_grow : ∀ (ps : List Piece) (t : List Char), utf8Len t ≤ utf8Len (ps.foldl (fun t p => p.on t) t)
  | [], _ => Nat.le_refl _
  | p :: ps, t => Nat.le_trans (piece_grows p t) (pieces_grow ps _)

theorem piece_del {cfg : Cfg} {x : NStr} {t : List Char} (h : x.Is t) (ha : cfg.alloc = true ∨ utf8Len t ≤ 62) (p : Piece) :
    Del cfg.alloc OutOfMemoryError.mk (p.call cfg x) (p.on t) := by
  cases p with
  | push c => exact h.push ha c
  | pushStr u => exact h.pushStr ha u
  | pushFront c => exact h.pushFront ha c

theorem addAll_del {cfg : Cfg} {n : Nat} : ∀ (ps : List Piece) {x : NStr} {t : List Char}, x.Is t → (cfg.alloc = true ∨ utf8Len t ≤ 62) →
    Del cfg.alloc (Error.outOfMemory n) (addAll cfg n ps x) (ps.foldl (fun t p => p.on t) t)
  | [], x, t, h, ha => .ok _ _ h ha
  | p :: ps, x, t, h, ha => by
    simp only [addAll, List.foldl_cons]
    exact (piece_del h ha p).withNominal.bind (pieces_grow ps _) fun s hs hsa => addAll_del ps hs hsa

theorem piece_heap {cfg : Cfg} {t : List Char} (p : Piece) : p.call cfg (.heap t) = .ok (.heap (p.on t)) := by
  cases p <;> rfl

theorem addAll_heap {cfg : Cfg} {n : Nat} : ∀ (ps : List Piece) (t : List Char),
    addAll cfg n ps (.heap t) = .ok (.heap (ps.foldl (fun t p => p.on t) t))
  | [], _ => rfl
  | p :: ps, t => by
    simp only [addAll, List.foldl_cons, piece_heap]
    exact addAll_heap ps _

/-- C95. Any system may be decorated, and whatever is added to its texts, in whatever order and however it depends on the number, the
outcome is as if the decorated text had been written in one go: inline up to 62 bytes, on the heap beyond (or if the text was there already),
and without `alloc` the error `OutOfMemory` about the number asked for exactly if the whole text has more than 62 bytes. Errors and panics of
the inner system come out unchanged. (`hr`: the inner system builds its strings with the public API.) -/
theorem C95_decorated {cfg : Cfg} {T : IntTy} {n : Nat} (s : NominalSystem) (hr : ∀ x, s.tryFormat cfg T n = .ok x → Reachable cfg x)
    (pieces : Nat → List Piece) :
    view (tryToNominal cfg T n (decorated pieces s)) = (view (tryToNominal cfg T n s)).bind fun (t, inline) =>
      if inline then deliver cfg.alloc n ((pieces n).foldl (fun t p => p.on t) t)
      else .ok ((pieces n).foldl (fun t p => p.on t) t, false) := by
  unfold tryToNominal decorated
  simp only []
  cases hx : s.tryFormat cfg T n with
  | ok x =>
    obtain ⟨t, ht, -⟩ := reachable_holds (hr x hx)
    rw [Res.bind_ok]
    cases x with
    | inline b =>
      have hl : utf8Len t ≤ 62 := ht.len_le rfl
      have hd := addAll_del (cfg := cfg) (n := n) (pieces n) (x := .inline b) (t := t) ⟨ht, by simp [NStr.isInline, hl]⟩ (.inr hl)
      rw [hd.view]
      simp only [view, Res.bind, ht.asStr, NStr.isInline, if_true]
    | heap u =>
      have : u = t := ht
      subst this
      rw [addAll_heap]
      rfl
  | _ => rfl

/-- Roman numerals in parentheses: "(xiv)". Without `alloc` the numeral of twenty million, 60 bytes, just fits with both parentheses; the next
one does not, though it would fit without. A number the inner system cannot write stays an error. -/
example : view (tryToNominal ⟨false, .w32, true⟩ .u32 14 (decorated (fun _ => around ['('] [')']) Named.romanLower.system)) =
      .ok (['(', 'x', 'i', 'v', ')'], true) ∧
    view (tryToNominal ⟨false, .w32, true⟩ .u32 20000000 (decorated (fun _ => around ['('] [')']) Named.romanLower.system)) =
      .ok (['('] ++ (List.replicate 20 ['m', '\u0305']).flatten ++ [')'], true) ∧
    view (tryToNominal ⟨false, .w32, true⟩ .u32 20000001 (decorated (fun _ => around ['('] [')']) Named.romanLower.system)) =
      .err (.outOfMemory 20000001) ∧
    view (tryToNominal ⟨false, .w32, true⟩ .u32 20000001 Named.romanLower.system) =
      .ok ((List.replicate 20 ['m', '\u0305']).flatten ++ ['i'], true) ∧
    view (tryToNominal ⟨true, .w32, true⟩ .u32 20000001 (decorated (fun _ => around ['('] [')']) Named.romanLower.system)) =
      .ok (['('] ++ (List.replicate 20 ['m', '\u0305']).flatten ++ ['i', ')'], false) ∧
    view (tryToNominal ⟨false, .w32, true⟩ .u32 0 (decorated (fun _ => around ['('] [')']) Named.georgian.system)) = .err .noZeroSymbol := by
  decide +kernel

/-- C95. Decorating twice is decorating once with all the additions. -/
theorem C95_nested (s : NominalSystem) (pieces pieces' : Nat → List Piece) (cfg : Cfg) (T : IntTy) (n : Nat) :
    tryToNominal cfg T n (decorated pieces' (decorated pieces s)) = tryToNominal cfg T n (decorated (fun n => pieces n ++ pieces' n) s) := by
  have key : ∀ (ps ps' : List Piece) (x : NStr), (addAll cfg n ps x).bind (addAll cfg n ps') = addAll cfg n (ps ++ ps') x := by
    intro ps
    induction ps with
    | nil => intro ps' x; rfl
    | cons p ps ih =>
      intro ps' x
      simp only [addAll, List.cons_append, Res.bind_assoc]
      congr 1
      funext y
      exact ih ps' y
  simp only [tryToNominal, decorated, Res.bind_assoc, key]

/-- Brackets, then a full stop: `(xiv).`. -/
example : view (tryToNominal ⟨false, .w32, true⟩ .u32 14
    (decorated (fun _ => [.push '.']) (decorated (fun _ => around ['('] [')']) Named.romanLower.system))) = .ok (['(', 'x', 'i', 'v', ')', '.'], true) := by
  rw [C95_nested]
  decide +kernel

theorem fronts_on (l : List Char) : ∀ t : List Char, (l.map Piece.pushFront).foldl (fun t p => p.on t) t = l.reverse ++ t := by
  induction l with
  | nil => intro t; rfl
  | cons c l ih =>
    intro t
    rw [List.map_cons, List.foldl_cons, ih]
    simp [Piece.on]

theorem around_on (pre suf t : List Char) : (around pre suf).foldl (fun t p => p.on t) t = pre ++ t ++ suf := by
  rw [around, List.foldl_cons, fronts_on]
  simp [Piece.on]

theorem fallback_of_err {cfg : Cfg} {T : IntTy} {n : Nat} {s : NominalSystem} (hn : T.Fits cfg n) {pieces : Nat → List Piece} {e : Error}
    (he : view (tryToNominal cfg T n (decorated pieces s)) = .err e) (ha : about e = n) :
    view (toNominal cfg T n (decorated pieces s)) = .ok (Nat.toDigits 10 n, true) := by
  have key : (decorated pieces s).tryFormat cfg T n = .err e := by
    unfold tryToNominal view at he
    cases hr : (decorated pieces s).tryFormat cfg T n with
    | ok st => rw [hr] at he; simp only [Res.bind] at he; split at he <;> cases he
    | err e' => rw [hr] at he; cases he; rfl
    | _ => rw [hr] at he; cases he
  have := (C41_any_system (cfg := cfg) (T := T) (n := n) (decorated pieces s) rfl).2 e key (by rw [ha]; exact hn)
  rw [ha] at this
  exact this

/-- C95. `to_nominal` of a decorated system of the crate: the decorated text if the system writes the number and the build can hold the
text, and otherwise the bare decimal numeral, without the decoration. -/
theorem C95_named {cfg : Cfg} {T : IntTy} {n : Nat} (s : Named) (hn : T.Fits cfg n) (pieces : Nat → List Piece) :
    view (toNominal cfg T n (decorated pieces s.system)) =
      match answer s n with
      | .text t =>
        if utf8Len ((pieces n).foldl (fun t p => p.on t) t) ≤ 62 then .ok ((pieces n).foldl (fun t p => p.on t) t, true)
        else if cfg.alloc then .ok ((pieces n).foldl (fun t p => p.on t) t, false)
        else .ok (Nat.toDigits 10 n, true)
      | _ => .ok (Nat.toDigits 10 n, true) := by
  have hd := C95_decorated (cfg := cfg) (T := T) (n := n) s.system (C80_named s).1 pieces
  rw [C51_catalogue s hn] at hd
  have hok := (C41_any_system (cfg := cfg) (T := T) (n := n) (decorated pieces s.system) rfl).1
  cases ha : answer s n with
  | text t =>
    have grow := pieces_grow (pieces n) t
    rw [ha] at hd
    simp only [present] at hd ⊢
    have hd' : view (tryToNominal cfg T n (decorated pieces s.system)) =
        deliver cfg.alloc n ((pieces n).foldl (fun t p => p.on t) t) := by
      rw [hd]
      unfold deliver
      by_cases h1 : utf8Len t ≤ 62
      · simp only [if_pos h1, Res.bind, if_true]
      · have h3 : ¬ utf8Len ((pieces n).foldl (fun t p => p.on t) t) ≤ 62 := by omega
        by_cases h2 : cfg.alloc = true
        · simp [h1, h2, h3, Res.bind]
        · simp [h1, h2, h3, Res.bind]
    generalize (pieces n).foldl (fun t p => p.on t) t = u at grow hd'
    unfold deliver at hd'
    by_cases h1 : utf8Len u ≤ 62
    · rw [if_pos h1] at hd' ⊢
      exact hok _ hd'
    · rw [if_neg h1] at hd' ⊢
      by_cases h2 : cfg.alloc = true
      · rw [if_pos h2] at hd' ⊢
        exact hok _ hd'
      · rw [if_neg h2] at hd' ⊢
        exact fallback_of_err hn hd' rfl
  | noZero =>
    have h0 : n = 0 := answer_noZero ha
    rw [ha] at hd
    exact fallback_of_err hn hd h0.symm
  | outOfBounds =>
    rw [ha] at hd
    exact fallback_of_err hn hd rfl

/-- Ordinals in English depend on the number: "1st", "2nd". The fallback carries no parentheses. -/
example : view (toNominal ⟨false, .w32, true⟩ .u8 2
      (decorated (fun n => [.pushStr (if n = 1 then ['s', 't'] else if n = 2 then ['n', 'd'] else ['t', 'h'])]) Named.decimal.system)) =
      .ok (['2', 'n', 'd'], true) ∧
    view (toNominal ⟨true, .w32, true⟩ .u8 51 (decorated (fun _ => around ['('] [')']) Named.circledNumber.system)) = .ok (['5', '1'], true) ∧
    view (toNominal ⟨true, .w32, true⟩ .u8 50 (decorated (fun _ => around ['('] [')']) Named.circledNumber.system)) = .ok (['(', '㊿', ')'], true) := by
  decide +kernel

/-- The two ways a decorated label comes out. -/
theorem decorated_cases {cfg : Cfg} {T : IntTy} {n : Nat} (s : Named) (hn : T.Fits cfg n) {pre suf t : List Char} {i : Bool}
    (h : view (toNominal cfg T n (decorated (fun _ => around pre suf) s.system)) = .ok (t, i)) :
    (∃ u, answer s n = .text u ∧ t = pre ++ u ++ suf) ∨
    t = Nat.toDigits 10 n ∧ ((∀ u, answer s n ≠ .text u) ∨ cfg.alloc = false ∧ ∃ u, answer s n = .text u ∧ 62 < utf8Len (pre ++ u ++ suf)) := by
  rw [C95_named s hn] at h
  cases ha : answer s n with
  | text u =>
    rw [ha] at h
    simp only [around_on] at h
    split at h
    · cases h; exact .inl ⟨u, rfl, rfl⟩
    · split at h
      · cases h; exact .inl ⟨u, rfl, rfl⟩
      · cases h
        refine .inr ⟨rfl, .inr ⟨?_, u, rfl, by omega⟩⟩
        simpa using ‹¬cfg.alloc = true›
  | _ => rw [ha] at h; cases h; exact .inr ⟨rfl, .inl (by simp)⟩

theorem owns_text {s : Named} (hs : ownsAsciiDigits s = true) {n : Nat} (hn : n < 2 ^ 128) : ∃ u, answer s n = .text u ∧ utf8Len u ≤ 39 := by
  have h10 := (toDigits_width (b := 10) (by omega) (k := 39) (n := n)).1 (by omega) (Nat.lt_of_lt_of_le hn (by decide))
  have h16 := (toDigits_width (b := 16) (by omega) (k := 39) (n := n)).1 (by omega) (Nat.lt_of_lt_of_le hn (by decide))
  have ascii : ∀ t : List Char, (∀ c ∈ t, c.utf8Size = 1) → utf8Len t = t.length := by
    intro t
    induction t with
    | nil => intro; rfl
    | cons c t ih =>
      intro h
      rw [utf8Len_cons, h c (by simp), ih fun c hc => h c (by simp [hc]), List.length_cons]
      omega
  cases s with
  | decimal =>
    refine ⟨_, rfl, ?_⟩
    rw [ascii _ fun c hc => ?_]
    · exact h10
    · obtain ⟨d, hd, rfl⟩ := toDigits_mem (by omega) hc
      have : ∀ d, d < 10 → (Nat.digitChar d).utf8Size = 1 := by decide
      exact this d hd
  | hexLower =>
    refine ⟨_, rfl, ?_⟩
    rw [ascii _ fun c hc => (hex_ascii c hc).1]
    exact h16
  | hexUpper =>
    refine ⟨_, rfl, ?_⟩
    rw [ascii _ fun c hc => ?_, List.length_map]
    · exact h16
    · obtain ⟨d, hd, rfl⟩ := List.mem_map.mp hc
      exact (hex_ascii d hd).2
  | _ => cases hs

/-- A decorated label is never the bare decimal numeral of another number for which the label could not be written. -/
theorem no_mixup {cfg cfg' : Cfg} {T T' : IntTy} {n m : Nat} (s : Named) (hn : T.Fits cfg n) (hm : T'.Fits cfg' m) {pre suf u : List Char}
    (hx : (s ≠ .decimal ∧ s ≠ .hexUpper ∧ s ≠ .hexLower) ∨ (∃ c ∈ pre ++ suf, c.isDigit = false) ∨ cfg.alloc = true ∨
      utf8Len pre + utf8Len suf ≤ 23)
    (hu : answer s m = .text u) (he : pre ++ u ++ suf = Nat.toDigits 10 n)
    (hf : (∀ u, answer s n ≠ .text u) ∨ cfg.alloc = false ∧ ∃ u, answer s n = .text u ∧ 62 < utf8Len (pre ++ u ++ suf)) : False := by
  have hd : ∀ c ∈ pre ++ u ++ suf, c.isDigit = true := by rw [he]; exact decimal_isDigit
  cases hs : ownsAsciiDigits s with
  | false =>
    cases u with
    | nil => exact answer_ne_nil s (Nominals.fits_lt hm) hu
    | cons c u =>
      have h1 := hd c (by simp)
      have h2 := repertoire_no_digit s hs c (answer_mem s (Nominals.fits_lt hm) hu c (by simp))
      rw [h1] at h2
      cases h2
  | true =>
    obtain ⟨v, hv, hl⟩ := owns_text hs (Nominals.fits_lt hn)
    rcases hf with hf | ⟨hf, w, hw, hw'⟩
    · exact hf v hv
    · rw [hv] at hw
      cases hw
      rcases hx with ⟨h1, h2, h3⟩ | ⟨c, hc, hc'⟩ | hx | hx
      · cases s <;> first | contradiction | (cases hs; done)
      · rw [hd c (by simp at hc ⊢; rcases hc with hc | hc <;> simp [hc])] at hc'
        cases hc'
      · rw [hf] at hx; cases hx
      · simp at hw'
        omega

/-- C95. Decorated labels still tell the numbers apart, whatever the prefix and the suffix, across integer types and builds. The one exception:
`Decimal`, `HexUpper` or `HexLower` in a build without `alloc`, when prefix and suffix consist of ASCII digits only and have 24 or more of
them together. -/
theorem C95_injective {cfg cfg' : Cfg} {T T' : IntTy} {n m : Nat} (s : Named) (hn : T.Fits cfg n) (hm : T'.Fits cfg' m) {pre suf : List Char}
    (hx : (s ≠ .decimal ∧ s ≠ .hexUpper ∧ s ≠ .hexLower) ∨ (∃ c ∈ pre ++ suf, c.isDigit = false) ∨ (cfg.alloc = true ∧ cfg'.alloc = true) ∨
      utf8Len pre + utf8Len suf ≤ 23) {t : List Char} {i j : Bool}
    (h1 : view (toNominal cfg T n (decorated (fun _ => around pre suf) s.system)) = .ok (t, i))
    (h2 : view (toNominal cfg' T' m (decorated (fun _ => around pre suf) s.system)) = .ok (t, j)) : n = m := by
  rcases decorated_cases s hn h1 with ⟨u, a1, a2⟩ | ⟨a1, a2⟩ <;> rcases decorated_cases s hm h2 with ⟨v, b1, b2⟩ | ⟨b1, b2⟩
  · have : u = v := by
      rw [a2] at b2
      exact List.append_cancel_left (List.append_cancel_right b2)
    subst this
    exact answer_injective s (Nominals.fits_lt hn) (Nominals.fits_lt hm) a1 b1
  · exact (no_mixup s hm hn (hx.imp_right fun h => h.imp_right fun h => h.imp_left And.right) a1 (a2.symm.trans b1) b2).elim
  · exact (no_mixup s hn hm (hx.imp_right fun h => h.imp_right fun h => h.imp_left And.left) b1 (b2.symm.trans a1) a2).elim
  · exact toDigits_map_injective (b := 10) (f := id) (by omega) (by decide) (by simp [← a1, ← b1])

/-- The exception is real: in a build without `alloc`, with a prefix of 24 ones, the label of 10¹⁴ is the bare numeral of the number with these
39 digits, whose own label would have 63 bytes. -/
example : view (toNominal ⟨false, .w32, true⟩ .u128 100000000000000 (decorated (fun _ => around (List.replicate 24 '1') []) Named.decimal.system)) =
    view (toNominal ⟨false, .w32, true⟩ .u128 111111111111111111111111100000000000000
      (decorated (fun _ => around (List.replicate 24 '1') []) Named.decimal.system)) := by
  have h1 := C95_named (cfg := ⟨false, .w32, true⟩) (T := .u128) (n := 100000000000000) .decimal (by decide)
    (fun _ => around (List.replicate 24 '1') [])
  have h2 := C95_named (cfg := ⟨false, .w32, true⟩) (T := .u128) (n := 111111111111111111111111100000000000000) .decimal (by decide)
    (fun _ => around (List.replicate 24 '1') [])
  rw [h1, h2]
  decide +kernel

end Nominals.Props
