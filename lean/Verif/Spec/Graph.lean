import Mathlib.Logic.Relation
import Verif.Model.Graph

/-
Edges, walks and cycles of a graph.
-/
namespace Oaks.Spec
open Oaks

/-- One may go from `u` to `v` along an edge. -/
def Arc (g : Graph) (u v : Str) : Prop := (u, v) ∈ g.edges ∨ (g.directed = false ∧ (v, u) ∈ g.edges)

/-- How many ways there are to leave `u` along an edge (a loop of an undirected graph counts twice). -/
def outEnds (g : Graph) (u : Str) : Nat :=
  g.edges.countP (fun e => e.1 = u) + if g.directed then 0 else g.edges.countP (fun e => e.2 = u)

/-- There is a walk from `u` to `v`. -/
def Walk (g : Graph) : Str → Str → Prop := Relation.ReflTransGen (Arc g)

/-- The node table has no repetition, and every edge joins two of its nodes. -/
structure Closed (g : Graph) : Prop where
  nodup : g.nodes.Nodup
  ends : ∀ e ∈ g.edges, e.1 ∈ g.nodes ∧ e.2 ∈ g.nodes

/-- `c` lists the nodes of a cycle, each once: an arc from each to the next, and from the last to the
first. -/
structure IsCycle (g : Graph) (c : List Str) : Prop where
  nodup : c.Nodup
  chain : ∀ l a b r, c = l ++ a :: b :: r → Arc g a b
  back : ∃ first last, c.head? = some first ∧ c.getLast? = some last ∧ Arc g last first

/-- Node `v` is in layer `i`. -/
def InLayer (layers : List (List Str)) (i : Nat) (v : Str) : Prop := ∃ l, layers[i]? = some l ∧ v ∈ l

/-- Every edge, taken in its direction, is part of no closed walk. -/
def Acyclic (g : Graph) : Prop := ∀ v, ¬ Relation.TransGen (fun a b => (a, b) ∈ g.edges) v v

end Oaks.Spec
