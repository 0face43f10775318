import Verif.Model.Chunks
import Verif.Spec.Formatter

/-
Which parts of a source are worth finding.
-/
namespace Oaks.Spec
open Oaks

/-- An element to be indexed: a node with one of the roles that stands on more than twenty bytes. -/
def worth (roleOf : Nat → Option Str) : Green × Nat → Option (Nat × Nat × Str)
  | (.leaf _ _ _, _) => none
  | (.node k n cs, o) =>
    if 20 < bytesBelow (.node k n cs) then (roleOf k).map fun r => (o, o + bytesBelow (.node k n cs), r) else none

end Oaks.Spec
