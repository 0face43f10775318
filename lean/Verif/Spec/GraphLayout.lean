import Verif.Model.GraphLayout
import Verif.Spec.TreeLayout
import Verif.Spec.Graph
import Mathlib.Algebra.Order.Ring.Abs

/-
What a drawing of a graph should be.
-/
namespace Oaks.Viz.Spec
open Oaks Oaks.Viz

/-- The size asked for a node: its own or the one of the configuration. -/
def SizedBy (c : GraphCfg) (n : GNode) (s : Sz) : Prop :=
  match n.size with
  | some t => s = t
  | none => s = ⟨c.nodeWidth, c.nodeHeight⟩

/-- The drawing has these nodes in this order, each with its own label, type and size, and no others. -/
def DrawnAs (c : GraphCfg) (nodes : List GNode) (l : Lay) : Prop :=
  List.Forall₂ (fun n e => e.1 = n.id ∧ e.2.label = n.label ∧ OfKind n.kind e.2.type ∧ SizedBy c n e.2.rect.size) nodes l.nodes

/-- The drawing has every node of the graph exactly once, each with its own label, type and size, and no others. -/
def Drawn (c : GraphCfg) (nodes : List GNode) (l : Lay) : Prop := ∃ ns, ns.Perm nodes ∧ DrawnAs c ns l

/-- The middle of a rectangle. -/
def middle (r : Rct) : Pt := ⟨r.origin.x + r.size.width / 2, r.origin.y + r.size.height / 2⟩

/-- The lines of the drawing are the edges between nodes that exist, in their order, each from the middle of its source to the
middle of its target. -/
def Joined (g : VGraph) (l : Lay) : Prop :=
  List.Forall₂ (fun e r => r.src = e.src ∧ r.dst = e.dst ∧
      ∃ a b, (e.src, a) ∈ l.nodes ∧ (e.dst, b) ∈ l.nodes ∧ r.points = [middle a.rect, middle b.rect])
    (g.edges.filter fun e => decide (e.src ∈ g.nodes.map (·.id) ∧ e.dst ∈ g.nodes.map (·.id))) l.edges

/-- The ids of the nodes are distinct. -/
def Distinct (g : VGraph) : Prop := (g.nodes.map (·.id)).Nodup

/-- Every edge leads to a node. -/
def TargetsKnown (g : VGraph) : Prop := ∀ e ∈ g.edges, e.dst ∈ g.nodes.map (·.id)

/-- Every edge joins two nodes. -/
def EndsKnown (g : VGraph) : Prop := ∀ e ∈ g.edges, e.src ∈ g.nodes.map (·.id) ∧ e.dst ∈ g.nodes.map (·.id)

/-- No way along the edges leads back to where it began. -/
def NoCycle (g : VGraph) : Prop := ∀ v, ¬ Relation.TransGen (fun a b => ∃ e ∈ g.edges, e.src = a ∧ e.dst = b) v v

/-- The nodes are at most as large as the given room. -/
def FitIn (c : GraphCfg) (g : VGraph) (w h : ℚ) : Prop := ∀ n ∈ g.nodes, ∀ s, SizedBy c n s → s.width ≤ w ∧ s.height ≤ h

/-- The length of a vector is at least each of its coordinates. -/
def Lengthy (sqrt : ℚ → ℚ) : Prop := ∀ x y : ℚ, |x| ≤ sqrt (x * x + y * y) ∧ |y| ≤ sqrt (x * x + y * y)

/-- Within a distance in each coordinate. -/
def Near (p q : Pt) (d : ℚ) : Prop := |p.x - q.x| ≤ d ∧ |p.y - q.y| ≤ d

end Oaks.Viz.Spec
