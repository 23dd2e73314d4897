import Verif.Model.NominalString

/-!
# Specification of `NominalString`: an ordinary text plus an "is on the heap" flag

An abstract machine over texts. `Init` are the constructors, `Op` the mutating operations of the public API, and
`absRun` says what a history of operations does. The last section runs the byte-level model of the code along the
same history.
-/

namespace Nominals.Spec

/-- Public constructors of `NominalString`. -/
inductive Init where
  | new
  | newReverse
  | fromChar (c : Char)
  | fromStr (t : List Char)
  | fromString (t : List Char)

/-- The text a constructor is given. -/
def Init.text : Init → List Char
  | .new => []
  | .newReverse => []
  | .fromChar c => [c]
  | .fromStr t => t
  | .fromString t => t

/-- Which constructor calls are available: `From<String>` needs `alloc`; without `alloc`, `From<&str>` accepts at most
62 bytes (it panics otherwise, see `C06_from_str`). -/
def Init.Allowed (alloc : Bool) : Init → Prop
  | .fromStr t => alloc = true ∨ utf8Len t ≤ 62
  | .fromString _ => alloc = true
  | _ => True

/-- Whether the constructed string is on the heap. -/
def Init.onHeap : Init → Bool
  | .fromStr t => decide (62 < utf8Len t)
  | .fromString _ => true
  | _ => false

/-- Mutating operations. `edit f` is any in-place edit of the text through `&mut str`; the borrow rules allow exactly
edits that keep the text valid UTF-8 of the same byte length. -/
inductive Op where
  | push (c : Char)
  | pushStr (u : List Char)
  | pushFront (c : Char)
  | edit (f : List Char → List Char) (sameLen : ∀ t, utf8Len (f t) = utf8Len t)

/-- Effect on an ordinary text. -/
def Op.on : Op → List Char → List Char
  | .push c, t => t ++ [c]
  | .pushStr u, t => t ++ u
  | .pushFront c, t => c :: t
  | .edit f _, t => f t

/-- One operation: new text, new heap flag, and whether it returned `Ok`. -/
def absStep (alloc : Bool) (t : List Char) (heap : Bool) (op : Op) : List Char × Bool × Bool :=
  if heap then (op.on t, true, true)
  else if utf8Len (op.on t) ≤ 62 then (op.on t, false, true)
  else if alloc then (op.on t, true, true)
  else (t, false, false)

/-- A history: after every operation, the text, whether the string is on the heap, and whether the operation
succeeded. -/
def absRun (alloc : Bool) : List Char → Bool → List Op → List (List Char × Bool × Bool)
  | _, _, [] => []
  | t, heap, op :: ops =>
    let r := absStep alloc t heap op
    r :: absRun alloc r.1 r.2.1 ops

/-! ## The same history on the model of the code -/

/-- Constructor calls of the model. -/
def Init.build (cfg : Cfg) : Init → Res Empty NStr
  | .new => .ok NStr.new
  | .newReverse => .ok NStr.newReverse
  | .fromChar c => NStr.ofChar cfg c
  | .fromStr t => NStr.ofStr cfg t
  | .fromString t => .ok (NStr.ofString t)

/-- What a `Result`-returning mutator did: the string after the call and whether it returned `Ok`. -/
def callOutcome : Res (OutOfMemoryError × NStr) NStr → Res Empty (NStr × Bool)
  | .ok s' => .ok (s', true)
  | .err (_, s') => .ok (s', false)
  | .panic => .panic
  | .ub => .ub
  | .timeout => .timeout

/-- An edit of the text, as an edit of its bytes. -/
def editBytes (f : List Char → List Char) (bs : List UInt8) : List UInt8 :=
  match utf8Decode bs with
  | some t => utf8Encode (f t)
  | none => bs

/-- One operation of the model. -/
def Op.call (cfg : Cfg) (s : NStr) : Op → Res Empty (NStr × Bool)
  | .push c => callOutcome (s.tryPush cfg c)
  | .pushStr u => callOutcome (s.tryPushStr cfg u)
  | .pushFront c => callOutcome (s.tryPushFront cfg c)
  | .edit f _ =>
    match s.mutate (editBytes f) with
    | some s' => .ok (s', true)
    | none => .ub

/-- What a user can observe after each operation: the text (through `Deref`), whether it is on the heap
(`!is_inline()`) and whether the operation returned `Ok`. -/
def run (cfg : Cfg) : NStr → List Op → Res Empty (List (List Char × Bool × Bool))
  | _, [] => .ok []
  | s, op :: ops =>
    (op.call cfg s).bind fun (s', ok) =>
    match s'.asStr with
    | none => .ub
    | some t => (run cfg s' ops).bind fun rest => .ok ((t, !s'.isInline, ok) :: rest)

end Nominals.Spec

namespace Nominals.Spec

/-- The string after a history (failed operations included). -/
def runState (cfg : Cfg) : NStr → List Op → Res Empty NStr
  | s, [] => .ok s
  | s, op :: ops => (op.call cfg s).bind fun (s', _) => runState cfg s' ops

/-- `s` can be obtained through the public API. -/
def Reachable (cfg : Cfg) (s : NStr) : Prop :=
  ∃ (i : Init) (s0 : NStr) (ops : List Op), i.Allowed cfg.alloc ∧ i.build cfg = .ok s0 ∧ runState cfg s0 ops = .ok s

/-- The successive texts of an ordinary string under the same operations. -/
def texts : List Char → List Op → List (List Char)
  | _, [] => []
  | t, op :: ops => op.on t :: texts (op.on t) ops

end Nominals.Spec
