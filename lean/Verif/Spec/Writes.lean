import Verif.Spec.Strings
import Verif.Model.Writes
import Verif.Model.Chinese

/-!
# Specification: which cells of the buffer a push writes
-/

namespace Nominals.Spec

/-- A push, at either end. -/
inductive Push where
  | back (c : Char)
  | str (u : List Char)
  | front (c : Char)

/-- The push as an operation of the API. -/
def Push.op : Push → Op
  | .back c => .push c
  | .str u => .pushStr u
  | .front c => .pushFront c

/-- The bytes it adds. -/
def Push.size : Push → Nat
  | .back c => c.utf8Size
  | .str u => utf8Len u
  | .front c => c.utf8Size

/-- Whether it adds them at the end of the text. -/
def Push.atEnd : Push → Bool
  | .front _ => false
  | _ => true

/-- Number of cells a push writes in an inline string with `len` bytes of text: only those of the new bytes if it works at the free end of the
buffer (the end of a forward string, the front of a reverse string), all of the text and the new bytes otherwise, and none if there is not
enough room. -/
def cost (reverse : Bool) (len : Nat) (p : Push) : Nat :=
  if 62 < len + p.size then 0
  else if p.atEnd = reverse then len + p.size
  else p.size

/-- Which cells these are: next to the text if it works at the free end; otherwise the text is moved to make room for the new bytes, which
are written after that. -/
def cells (reverse : Bool) (len : Nat) (p : Push) : List Nat :=
  if 62 < len + p.size then []
  else match p.atEnd, reverse with
    | true, false => List.range' len p.size
    | false, true => List.range' (62 - len - p.size) p.size
    | true, true => List.range' (62 - len - p.size) len ++ List.range' (62 - p.size) p.size
    | false, false => List.range' p.size len ++ List.range' 0 p.size

/-- The total for several pushes one after the other that all fit. -/
def totalCost (reverse : Bool) : (len : Nat) → List Push → Nat
  | _, [] => 0
  | len, p :: ps => cost reverse len p + totalCost reverse (len + p.size) ps

/-- Total size of several pushes. -/
def totalSize (ps : List Push) : Nat := (ps.map Push.size).sum

/-- One push of the model. -/
def Push.call (cfg : Cfg) (s : NStr) : Push → Res (OutOfMemoryError × NStr) NStr
  | .back c => s.tryPush cfg c
  | .str u => s.tryPushStr cfg u
  | .front c => s.tryPushFront cfg c

/-- One push of the logged model. -/
def Push.logged (cfg : Cfg) (s : NStr) : Push → Writes (OutOfMemoryError × NStr) NStr
  | .back c => s.tryPushW cfg c
  | .str u => s.tryPushStrW cfg u
  | .front c => s.tryPushFrontW cfg c

/-- Several pushes one after the other, whether or not they succeed. -/
def pushAll (cfg : Cfg) : NStr → List Push → Writes Empty NStr
  | s, [] => ([], .ok s)
  | s, p :: ps =>
    let r := p.logged cfg s
    Writes.bind (r.1, callOutcome r.2) fun (s', _) => pushAll cfg s' ps

/-- How often a byte may be written by the four Chinese scales. -/
def chineseCopies : ChineseScale → Nat
  | .short => 2
  | .myriad => 10
  | .mid => 6
  | .long => 5

end Nominals.Spec
