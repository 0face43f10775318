import Verif.Model.Vfs

/-
What a file system with stable identities is, stated on histories of calls.
-/
namespace Oaks.Spec
open Oaks

/-- The content of `uri` after the history `ops`, oldest call first: what was written last, unless
it was removed since. -/
def lastContent (uri : Str) (ops : List VfsWrite) : Option Str :=
  ops.foldl (fun acc op => match op with
    | .write u c => if u = uri then some c else acc
    | .remove u => if u = uri then none else acc) none

/-- `op`, coming after the history `before`, creates a file: it writes to a URI without content. -/
def creates (before : List VfsWrite) : VfsWrite → Bool
  | .write u _ => (lastContent u before).isNone
  | .remove _ => false

/-- How many calls of the history `ops`, coming after the history `before`, create a file. -/
def creationsAfter (before : List VfsWrite) : List VfsWrite → Nat
  | [] => 0
  | op :: ops => (if creates before op then 1 else 0) + creationsAfter (before ++ [op]) ops

/-- How many calls of the history create a file. -/
def creations (ops : List VfsWrite) : Nat := creationsAfter [] ops

/-- The writing calls in the order in which they did their work. -/
def worked (tr : List VfsEvent) : List VfsWrite :=
  tr.filterMap fun | .workWrite _ op => some op | _ => none

/-- Every reading call answered as if it ran alone on the file system left by the writing calls that
did their work before it: `Answers m tr` starts from `m`. -/
def Answers : MemFs → List VfsEvent → Prop
  | _, [] => True
  | m, .workWrite _ op :: tr => Answers (m.apply op) tr
  | m, .workRead _ q a :: tr => a = m.answer q ∧ Answers m tr
  | m, _ :: tr => Answers m tr

/-- The thread that an event belongs to. -/
def thread : VfsEvent → Nat
  | .callWrite t _ | .workWrite t _ | .retWrite t _ | .callRead t _ | .workRead t _ _ | .retRead t _ _ => t

/-- The events of one thread are calls, each doing its work exactly once between its call and its
return, and returning the answer it got from its work. -/
inductive CallByCall : List VfsEvent → Prop where
  | nil : CallByCall []
  | write {t op es} : CallByCall es → CallByCall (.callWrite t op :: .workWrite t op :: .retWrite t op :: es)
  | read {t q a es} : CallByCall es → CallByCall (.callRead t q :: .workRead t q a :: .retRead t q a :: es)
  | calledWrite {t op} : CallByCall [.callWrite t op]
  | workedWrite {t op} : CallByCall [.callWrite t op, .workWrite t op]
  | calledRead {t q} : CallByCall [.callRead t q]
  | workedRead {t q a} : CallByCall [.callRead t q, .workRead t q a]

end Oaks.Spec
