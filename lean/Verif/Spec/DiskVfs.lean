import Verif.Model.DiskVfs
import Verif.Spec.Lsp

/-
What a URI stands for on a disk, and what a disk has to look like.
-/
namespace Oaks.Dsk.Spec
open Oaks Oaks.Dsk Oaks.Spec

/-- The names of a path text: the pieces between slashes, without the empty ones and `.`. -/
inductive Segs : Str → List Str → Prop
  | nil : Segs [] []
  | slash {s ns} : Segs s ns → Segs ('/' :: s) ns
  | dot {s ns} : s = [] ∨ s.head? = some '/' → Segs s ns → Segs ('.' :: s) ns
  | name {n s ns} : IsName n → s = [] ∨ s.head? = some '/' → Segs s ns → Segs (n ++ s) (n :: ns)

/-- A path text that leads downwards only: `..` is not among its names. -/
def Down (s : Str) (ns : List Str) : Prop := Segs s ns ∧ ['.', '.'] ∉ ns

/-- The URI names the place: an absolute one from the root of the disk, a relative one from the
root path, which itself starts from the working directory unless it is absolute. -/
inductive Names (v : DiskVfs) : Str → Place → Prop
  | abs {u ns} : u.head? = some '/' → Down u ns → Names v u ns
  | rooted {u ns rs} : u.head? ≠ some '/' → v.root.head? = some '/' → Down u ns → Down v.root rs → Names v u (rs ++ ns)
  | relative {u ns rs} : u.head? ≠ some '/' → v.root.head? ≠ some '/' → Down u ns → Down v.root rs →
      Names v u (v.cwd ++ rs ++ ns)

/-- The text ends in a name, not in a slash or a dot. -/
def EndsInName (u : Str) : Prop := ∃ w n, u = w ++ n ∧ IsName n ∧ (w = [] ∨ w.getLast? = some '/')

/-- The URI names a place where a file may be. -/
def FileName (v : DiskVfs) (u : Str) (p : Place) : Prop := Names v u p ∧ EndsInName u

/-- A disk as operating systems keep it: one entry at each place, the places below directories, with
proper names; and the process is in a directory. -/
structure Good (v : DiskVfs) (d : Disk) : Prop where
  once : (d.map Prod.fst).Nodup
  below : ∀ e ∈ d, e.1 ≠ [] ∧ look d e.1.dropLast = some .dir
  named : ∀ e ∈ d, ∀ n ∈ e.1, IsName n ∧ n ≠ ['.', '.']
  cwd : look d v.cwd = some .dir

/-- There is a file at the place. -/
def IsFile (d : Disk) (p : Place) : Prop := ∃ e, look d p = some e ∧ e ≠ .dir

/-- A file can be put at the place: no directory is there and no file on the way. -/
def Open (d : Disk) (p : Place) : Prop :=
  look d p ≠ some .dir ∧ ∀ q, q <+: p → q ≠ p → ¬ IsFile d q

/-- A call that changes files. -/
inductive Op where
  | write (uri content : Str)
  | remove (uri : Str)

def runOp (v : DiskVfs) (d : Disk) : Op → Disk
  | .write u c => v.writeFile d u c
  | .remove u => v.removeFile d u

/-- What a call means: a partial map from places to texts. -/
inductive Does (v : DiskVfs) : Op → Place → Option Str → Prop
  | write {u c p} : FileName v u p → Does v (.write u c) p (some c)
  | remove {u p} : FileName v u p → Does v (.remove u) p none

/-- The places the calls are about, with what the last one left at each. -/
inductive Left (v : DiskVfs) (init : Place → Option Str) : List Op → (Place → Option Str) → List Place → Prop
  | nil : Left v init [] init []
  | snoc {ops f ps op p c} : Left v init ops f ps → Does v op p c →
      Left v init (ops ++ [op]) (fun q => if q = p then c else f q) (p :: ps)

/-- No place lies below another one. -/
def Apart (ps : List Place) : Prop := ∀ p ∈ ps, ∀ q ∈ ps, p <+: q → p = q

/-- The text of the file at a place. -/
def textAt (d : Disk) (p : Place) : Option Str :=
  match look d p with
  | some (.text s) => some s
  | _ => none

end Oaks.Dsk.Spec
