import Verif.Base.Run

/-
Model of `projects/oak-core/src/parser/session.rs` (`ParseSession`) and of the parts of
`parse_with_lexer` (`parser/mod.rs:77-120`) that touch it.

Arenas are identified by the order of their creation; a root pointer is represented by the arena it
points into. What the lexer and the grammar do is irrelevant here: a parse either returns a root
allocated in the session's active arena, or fails.
-/
namespace Oaks

/-- `ParseSession` (session.rs:31-40) without the lexer cache. `next` numbers the arenas. -/
structure Session where
  active : Nat
  old : Option Nat
  lastRoot : Option Nat
  next : Nat
deriving DecidableEq, Repr

/-- `ParseSession::new` (session.rs:53-55). -/
def Session.new : Session := ⟨0, none, none, 1⟩

/-- `prepare_generation` (session.rs:84-92): the previous `arena_old` is dropped. -/
def Session.prepare (s : Session) : Session :=
  { s with active := s.next, old := some s.active, next := s.next + 1 }

/-- `commit_generation` (session.rs:94-97). -/
def Session.commit (s : Session) (root : Nat) : Session := { s with lastRoot := some root }

/-- `old_tree` (session.rs:69-78). -/
def Session.oldTree (s : Session) : Option Nat :=
  match s.lastRoot with
  | none => none
  | some r => if s.old.isSome then some r else none

/-- `parse_with_lexer` (parser/mod.rs:77-120): prepare, offer the old tree, run, commit on success.
Answers the tree offered for reuse and the session afterwards. -/
def Session.parse (s : Session) (succeeds : Bool) : Option Nat × Session :=
  let s1 := s.prepare
  let offered := s1.oldTree
  (offered, if succeeds then s1.commit s1.active else s1)

/-- The arenas the session owns: the fields `arena_active` and `arena_old` (session.rs:33-35). -/
def Session.owns (s : Session) (a : Nat) : Prop := s.active = a ∨ s.old = some a

/-- A history of parses by a client, each as in `Session.parse` (session.rs:84-98). -/
def Session.parses (s : Session) : List Bool → Session
  | [] => s
  | b :: bs => (s.parse b).2.parses bs

end Oaks
