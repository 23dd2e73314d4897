import Verif.Model.Error

/-!
# src/additive.rs — additive sets
-/

namespace Nominals

/-- src/additive.rs:4-7 `AdditiveSet<N>`: symbols with their values (`u128`), and the zero symbol. -/
structure AdditiveSet where
  symbols : List (List Char × Nat)
  zero : Option (List Char)

/-- src/additive.rs:19-23, the `while` loop asserting `symbols[i].1 > symbols[i + 1].1`. -/
def strictlyDescending : List (List Char × Nat) → Bool
  | [] => true
  | [_] => true
  | a :: b :: rest => decide (a.2 > b.2) && strictlyDescending (b :: rest)

/-- src/additive.rs:18-31 `AdditiveSet::new`: panics unless the values are strictly descending; the last
symbol is the zero symbol if its value is 0. -/
def AdditiveSet.new {ε : Type} (symbols : List (List Char × Nat)) : Res ε AdditiveSet :=
  if strictlyDescending symbols then
    .ok { symbols, zero := match symbols.getLast? with
                           | some (zero, 0) => some zero
                           | _ => none }
  else .panic

/-- src/additive.rs:58-61, the inner `while`. Returns the remaining value and the string. -/
def additiveWhile (cfg : Cfg) (T : IntTy) (nominal : Nat) (symbol : List Char) (value : Nat) :
    (fuel : Nat) → (remaining : Nat) → (formatted : NStr) → Res Error (Nat × NStr)
  | 0, _, _ => .timeout
  | fuel + 1, remaining, formatted =>
    if remaining ≥ value then
      (subT cfg T remaining value).bind fun remaining =>
      ((formatted.pushStr cfg symbol).withNominal nominal).bind fun formatted =>
      additiveWhile cfg T nominal symbol value fuel remaining formatted
    else .ok (remaining, formatted)

/-- src/additive.rs:50-64, the `for` loop over the symbols. -/
def additiveFor (cfg : Cfg) (T : IntTy) (nominal : Nat) :
    List (List Char × Nat) → (remaining : Nat) → (formatted : NStr) → Res Error NStr
  | [], _, formatted => .ok formatted
  | (symbol, value) :: rest, remaining, formatted =>
    if value = 0 then .ok formatted
    else match T.tryFrom cfg value with
      | none => additiveFor cfg T nominal rest remaining formatted
      | some valueAsT =>
        (additiveWhile cfg T nominal symbol valueAsT (remaining + 1) remaining formatted).bind fun (remaining, formatted) =>
        additiveFor cfg T nominal rest remaining formatted

/-- src/additive.rs:38-65 `try_format_nominal`. -/
def AdditiveSet.tryFormat (a : AdditiveSet) (cfg : Cfg) (T : IntTy) (nominal : Nat) : Res Error NStr :=
  if nominal = 0 then
    match a.zero with
    | some zero => NStr.ofStr cfg zero
    | none => .err .noZeroSymbol
  else additiveFor cfg T nominal a.symbols nominal NStr.new

/-- The shape of every named additive system, e.g. src/additive.rs:87-117:
`AdditiveSet::new([...]).try_format_nominal(nominal)`. -/
def additiveTryFormat (symbols : List (List Char × Nat)) (cfg : Cfg) (T : IntTy) (nominal : Nat) : Res Error NStr :=
  (AdditiveSet.new symbols).bind fun a => a.tryFormat cfg T nominal

end Nominals
