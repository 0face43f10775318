import Verif.Model.Tree

/-
What syntax trees mean, written without the lookup, cursor and iterator code: trees built by the
public constructors, the leaves of a tree, positions as paths, preorder.
-/
namespace Oaks.Spec
open Oaks

/-- Trees that the public constructors can return: any leaf with a `u32` length, any node made by
`GreenNode::new` without overflow. -/
inductive Built : Green → Prop where
  | leaf (k n : Nat) (m : Option Nat) : n < 2 ^ 32 → Built (.leaf k n m)
  | node {k : Nat} {cs : List Green} {g : Green} : (∀ c ∈ cs, Built c) → Green.mkNode k cs = .ok g → Built g

mutual
/-- The leaves below an element, left to right, with kind and length. -/
def leavesOf : Green → List (Nat × Nat)
  | .node _ _ cs => leavesOfList cs
  | .leaf k n _ => [(k, n)]
def leavesOfList : List Green → List (Nat × Nat)
  | [] => []
  | g :: gs => leavesOf g ++ leavesOfList gs
end

/-- Number of bytes below an element: the lengths of its leaves added up. -/
def bytesBelow (g : Green) : Nat := ((leavesOf g).map (·.2)).sum
/-- The same for a row of siblings. -/
def bytesBelowList (gs : List Green) : Nat := ((leavesOfList gs).map (·.2)).sum

/-- Place a row of leaves one after another from `o` on. -/
def place (o : Nat) : List (Nat × Nat) → List (Nat × Nat × Nat)
  | [] => []
  | (k, n) :: ls => (k, o, o + n) :: place (o + n) ls

/-- The children of an element. -/
def childrenOf : Green → List Green
  | .node _ _ cs => cs
  | .leaf _ _ _ => []

/-- The element at a path, and the number of bytes before it. -/
def atPath : Green → List Nat → Option (Green × Nat)
  | g, [] => some (g, 0)
  | g, i :: p =>
    match (childrenOf g)[i]? with
    | none => none
    | some c =>
      match atPath c p with
      | none => none
      | some (e, o) => some (e, bytesBelowList ((childrenOf g).take i) + o)

mutual
/-- Preorder: an element, then its children left to right; each with the offset it starts at. -/
def preorder (o : Nat) : Green → List (Green × Nat)
  | .node k n cs => (.node k n cs, o) :: preorderList o cs
  | .leaf k n m => [(.leaf k n m, o)]
def preorderList (o : Nat) : List Green → List (Green × Nat)
  | [] => []
  | g :: gs => preorder o g ++ preorderList (o + bytesBelow g) gs
end

mutual
/-- Number of elements. -/
def sizeOf' : Green → Nat
  | .node _ _ cs => 1 + sizeList cs
  | .leaf _ _ _ => 1
def sizeList : List Green → Nat
  | [] => 0
  | g :: gs => sizeOf' g + sizeList gs
end

end Oaks.Spec

namespace Oaks.Spec
open Oaks

/-- Consecutive spans (start, end) that cover exactly `[a, b)` in order, without gap or overlap. -/
inductive TilesSpan : Nat → Nat → List (Nat × Nat) → Prop where
  | nil (a : Nat) : TilesSpan a a []
  | cons {a b e : Nat} {rest : List (Nat × Nat)} : a ≤ e → TilesSpan e b rest → TilesSpan a b ((a, e) :: rest)

/-- The metadata index carried by a leaf. -/
def metaOf : Green → Option Nat
  | .leaf _ _ m => m
  | .node _ _ _ => none

/-- All elements of a tree. -/
def elementsOf (g : Green) : List Green := (preorder 0 g).map (·.1)

end Oaks.Spec
