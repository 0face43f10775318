import Verif.Model.Hierarchy
import Verif.Spec.TreeLayout

/-
What a hierarchical drawing of a forest should be.
-/
namespace Oaks.Viz.Spec
open Oaks Oaks.Viz

/-- The nodes and edges are a forest: ids are distinct, edges join nodes, no node has two edges into it, and edges lead
from lower to higher rank. -/
structure Forest (rank : Str → Nat) (nodes : List LayoutNode) (edges : List LayoutEdge) : Prop where
  ids : (nodes.map (·.id)).Nodup
  known : ∀ e ∈ edges, (∃ n ∈ nodes, n.id = e.src) ∧ ∃ n ∈ nodes, n.id = e.dst
  parent : (edges.map (·.dst)).Nodup
  rank : ∀ e ∈ edges, rank e.src < rank e.dst

/-- The layout has every node once, with its size, and no others. -/
def Places (nodes : List LayoutNode) (l : Lay) : Prop :=
  (l.nodes.map fun e => (e.1, e.2.rect.size)).Perm (nodes.map fun n => (n.id, n.size))

/-- Every edge runs from the middle of its source to the middle of its target. -/
def Routed (edges : List LayoutEdge) (l : Lay) : Prop :=
  List.Forall₂ (fun e r => r.src = e.src ∧ r.dst = e.dst ∧ r.label = e.label ∧
    ∃ a b, (e.src, a) ∈ l.nodes ∧ (e.dst, b) ∈ l.nodes ∧
      r.points = [⟨a.rect.origin.x + a.rect.size.width / 2, a.rect.origin.y + a.rect.size.height / 2⟩,
        ⟨b.rect.origin.x + b.rect.size.width / 2, b.rect.origin.y + b.rect.size.height / 2⟩]) edges l.edges

/-- In the given direction the second rectangle lies wholly past the first. -/
def Past : Direction → Rct → Rct → Prop
  | .topDown, a, b => a.origin.y + a.size.height ≤ b.origin.y
  | .leftRight, a, b => a.origin.x + a.size.width ≤ b.origin.x
  | .bottomUp, a, b => b.origin.y + b.size.height ≤ a.origin.y
  | .rightLeft, a, b => b.origin.x + b.size.width ≤ a.origin.x

/-- Every child lies past its parent in the given direction. -/
def Follows (dir : Direction) (edges : List LayoutEdge) (l : Lay) : Prop :=
  ∀ e ∈ edges, ∃ a b, (e.src, a) ∈ l.nodes ∧ (e.dst, b) ∈ l.nodes ∧ Past dir a.rect b.rect

end Oaks.Viz.Spec
