import Verif.Model.Parser
import Verif.Spec.Tree
import Verif.Spec.Text

/-
Specifications for the parser state: consumed tokens, tiling, positions in old and new text, programs
made of parser operations.
-/
namespace Oaks.Spec
open Oaks

/-- Token spans follow each other from `a` to `b`. -/
inductive TokTiles : Nat → List Tok → Nat → Prop where
  | nil (a : Nat) : TokTiles a [] a
  | cons {a b : Nat} {t : Tok} {ts : List Tok} : t.start = a → t.start ≤ t.stop → TokTiles t.stop ts b →
      TokTiles a (t :: ts) b

/-- The leaves collected in the sink, in order. -/
def sinkLeaves (s : PState) : List (Nat × Nat) := leavesOfList (s.sink.map Entry.tree)

/-- Where the text inserted by the changes lies in the new text (start, end), when the text from old
position `o` on begins at new position `n`. -/
def insertedAt (o n : Nat) : List Change → List (Nat × Nat)
  | [] => []
  | e :: es => (n + (e.start - o), n + (e.start - o) + blen e.text) ::
      insertedAt e.stop (n + (e.start - o) + blen e.text) es

/-- Bytes `[a, a+m)` of a text. -/
def bytesAt (t : Str) (a m : Nat) : List UInt8 := ((bytes t).drop a).take m

/-- The operations a grammar can perform on the parser state between a checkpoint and a decision. -/
inductive POp where
  | bump | eat (kind : Nat) | expect (kind : Nat) | advance | skipTrivia | advanceUntil (kind : Nat)
  | record (code : Nat) | finish (cp : Nat × Nat) (kind : Nat) | restore (cp : Nat × Nat)
  | push (e : Entry) | reuse (kind : Nat)

/-- Performing one operation. -/
def POp.run (ign : Nat → Bool) (s : PState) : POp → Run PState
  | .bump => s.bump ign
  | .eat k => do return (← s.eat ign k).2
  | .expect k => do return (← s.expect ign k).2
  | .advance => s.advance ign
  | .skipTrivia => s.skipTrivia ign
  | .advanceUntil k => s.advanceUntil ign k
  | .record c => .ok (s.record c)
  | .finish cp k => do return (← s.finishAt cp k).2
  | .restore cp => .ok (s.restore cp)
  | .push e => .ok (s.pushChild e)
  | .reuse k => do return (← s.tryReuse k).2

/-- A sequence of operations. -/
def POp.runAll (ign : Nat → Bool) (s : PState) : List POp → Run PState
  | [] => .ok s
  | op :: ops => do POp.runAll ign (← op.run ign s) ops

/-- The operation does not reach below the first `base` children: checkpoints it uses were taken when
the sink held at least that many. -/
def POp.above (base : Nat) : POp → Prop
  | .finish cp _ => base ≤ cp.2
  | .restore cp => base ≤ cp.2
  | _ => True

/-- Operations that build the tree from the token stream, without going back and without dropping
tokens. -/
def POp.building : POp → Prop
  | .bump | .eat _ | .expect _ | .skipTrivia | .record _ | .finish _ _ => True
  | _ => False

/-- The same, and reuse of old nodes. -/
def POp.buildingOrReuse : POp → Prop
  | .reuse _ => True
  | op => op.building

end Oaks.Spec
