import Verif.Spec.Tree
import Verif.Spec.Source
import Verif.Model.Index

/-
What references, document symbols and the workspace index should be.
-/
namespace Oaks.Spec
open Oaks

/-- The span of the first leaf with a name kind in a row of elements starting at `o`. -/
def firstName (isName : Nat → Bool) : Nat → List Green → Option (Nat × Nat)
  | _, [] => none
  | o, .leaf k n _ :: cs => if isName k then some (o, o + n) else firstName isName (o + n) cs
  | o, .node k n cs' :: cs => firstName isName (o + bytesBelow (.node k n cs')) cs

/-- The name of a definition: the text of its first direct name leaf, or its kind in angle brackets. -/
def nameOf (R : Roles) (text : Str) : Green × Nat → Str
  | (.node k _ cs, o) =>
    match firstName R.isName o cs with
    | some (a, b) => (strGet text a b).getD []
    | none => ['<'] ++ R.debug k ++ ['>']
  | (.leaf _ _ _, _) => []

mutual
/-- The elements of a tree in preorder with their offsets, each with all elements around it, innermost first. -/
def enclosed (around : List (Green × Nat)) (o : Nat) : Green → List (List (Green × Nat) × Green × Nat)
  | .node k n cs => (around, .node k n cs, o) :: enclosedList ((.node k n cs, o) :: around) o cs
  | .leaf k n m => [(around, .leaf k n m, o)]
def enclosedList (around : List (Green × Nat)) (o : Nat) : List Green → List (List (Green × Nat) × Green × Nat)
  | [] => []
  | g :: gs => enclosed around o g ++ enclosedList around (o + bytesBelow g) gs
end

/-- Is the element a definition? -/
def isDefinition (R : Roles) : Green → Bool
  | .node k _ _ => R.isDef k
  | .leaf _ _ _ => false

/-- The symbol of an element, if it is a definition: its name, its span, and the name of the nearest
definition around it. -/
def symbolOf (R : Roles) (text uri : Str) (x : List (Green × Nat) × Green × Nat) : Option SymInfo :=
  if isDefinition R x.2.1 then
    some ⟨nameOf R text x.2, uri, x.2.2, x.2.2 + bytesBelow x.2.1,
      (x.1.find? fun y => isDefinition R y.1).map (nameOf R text)⟩
  else none

/-- A history of updates: file and its new symbols. -/
abbrev SymHistory := List (Str × List SymInfo)

/-- The table after a history. -/
def tableAfter (h : SymHistory) : SymTable := h.foldl (fun t u => t.update u.1 u.2) SymTable.new

/-- The latest list of a file in a history: that of the last update for it. -/
def latest (h : SymHistory) (uri : Str) : List SymInfo :=
  ((h.reverse.find? fun u => u.1 = uri).map (·.2)).getD []

/-- The fully qualified name: the container and the name, with `::` between. -/
def IsQualified (s : SymInfo) (fqn : Str) : Prop :=
  (s.container = none ∧ fqn = s.name) ∨ ∃ c, s.container = some c ∧ fqn = c ++ "::".toList ++ s.name

end Oaks.Spec
