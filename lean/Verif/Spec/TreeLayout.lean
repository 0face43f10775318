import Verif.Model.TreeLayout
import Verif.Spec.Geometry

/-
What a drawing of a tree should be: every node once, no two nodes over one another, an edge for every
parent and child. The spec speaks of the list of nodes in reading order with their levels, which
determines the tree.
-/
namespace Oaks.Viz.Spec
open Oaks.Viz Oaks

/-- A node of a tree with its level (the root has level 0). -/
structure Item where
  level : Nat
  id : Str
  label : Str
  kind : Str
  size : Option Sz
  leaf : Bool

mutual
/-- The nodes of a tree whose root is on the level given, a node before its children. -/
def items : VTree → Nat → List Item
  | .mk id label kind size cs, level => ⟨level, id, label, kind, size, cs.isEmpty⟩ :: itemsAll cs (level + 1)
/-- The nodes of several trees. -/
def itemsAll : List VTree → Nat → List Item
  | [], _ => []
  | c :: cs, level => items c level ++ itemsAll cs level
end

mutual
/-- The pairs of parent and child. -/
def links : VTree → List (Str × Str)
  | .mk id _ _ _ cs => cs.map (fun c => (id, c.id)) ++ linksAll cs
/-- The pairs of parent and child in several trees. -/
def linksAll : List VTree → List (Str × Str)
  | [] => []
  | c :: cs => links c ++ linksAll cs
end

/-- The size of a node: its own or the default one. -/
def itemSize (w h : ℚ) (i : Item) : Sz :=
  match i.size with
  | some s => s
  | none => ⟨w, h⟩

/-- The two rectangles have no inner point in common. -/
def Apart (r s : Rct) : Prop :=
  r.origin.x + r.size.width ≤ s.origin.x ∨ s.origin.x + s.size.width ≤ r.origin.x ∨
  r.origin.y + r.size.height ≤ s.origin.y ∨ s.origin.y + s.size.height ≤ r.origin.y

instance (r s : Rct) : Decidable (Apart r s) := by unfold Apart; infer_instance

/-- A node of that kind is shown as that type. -/
def OfKind (k : Str) : NodeType → Prop
  | .function => k = "function".toList
  | .struct => k = "struct".toList
  | .module => k = "module".toList
  | .dflt => k ≠ "function".toList ∧ k ≠ "struct".toList ∧ k ≠ "module".toList
  | _ => False

/-- The layout has the nodes listed and no others, each with its own label, type and size, on the height of its level. -/
def Shows (g : TreeCfg) (its : List Item) (l : Lay) : Prop :=
  List.Forall₂ (fun i e => e.1 = i.id ∧ e.2.label = i.label ∧ OfKind i.kind e.2.type ∧
    e.2.rect.size = itemSize g.nodeWidth g.nodeHeight i ∧ e.2.rect.origin.y = i.level * g.levelDistance) its l.nodes

/-- No two nodes lie over one another. -/
def Clear (l : Lay) : Prop := (l.nodes.map fun e => e.2.rect).Pairwise Apart

/-- The width of a node: its own or the default one. -/
def ownWidth (g : TreeCfg) : Option Sz → ℚ
  | some s => s.width
  | none => g.nodeWidth

mutual
/-- The room a tree takes: at a leaf the width of the node, otherwise that of the trees below side by side. -/
def room (g : TreeCfg) : VTree → ℚ
  | .mk _ _ _ size [] => ownWidth g size
  | .mk _ _ _ _ (c :: cs) => room g c + roomRest g cs
/-- The room for further trees to the right, with the gaps. -/
def roomRest (g : TreeCfg) : List VTree → ℚ
  | [] => 0
  | c :: cs => g.siblingDistance + room g c + roomRest g cs
end

mutual
/-- No node is wider than the room of the trees below it. -/
def Roomy (g : TreeCfg) : VTree → Prop
  | .mk a b c size cs => ownWidth g size ≤ room g (.mk a b c size cs) ∧ RoomyAll g cs
/-- No node of several trees is wider than the room of the trees below it. -/
def RoomyAll (g : TreeCfg) : List VTree → Prop
  | [] => True
  | c :: cs => Roomy g c ∧ RoomyAll g cs
end

mutual
/-- The elements of a syntax tree in reading order: level, kind, and whether it is a leaf of the tree type. -/
def elements : Green → Nat → List (Nat × Nat × Bool)
  | .node k _ cs, level => (level, k, false) :: elementsAll cs (level + 1)
  | .leaf k _ _, level => [(level, k, true)]
/-- The elements of several syntax trees. -/
def elementsAll : List Green → Nat → List (Nat × Nat × Bool)
  | [], _ => []
  | c :: cs, level => elements c level ++ elementsAll cs level
end

end Oaks.Viz.Spec
