import Verif.Model.TreeLayout
import Verif.Base.Run

/-
Model of `HierarchicalLayout` of oak-visualize: `projects/oak-visualize/src/layout/mod.rs` (cited as layout/mod.rs).

Simplifications: as in `Model/TreeLayout.lean`; the recursion of `build_hierarchy_node` has fuel (`spin` stands for a
recursion that does not end, in Rust a stack overflow); the type of an edge, which the layout does not look at, is left out.
-/
namespace Oaks.Viz
open Oaks

/-- `LayoutNode` (layout/mod.rs:122-127). -/
structure LayoutNode where
  id : Str
  size : Sz
  label : Str
  type : NodeType

/-- `LayoutEdge` (layout/mod.rs:147-152). -/
structure LayoutEdge where
  src : Str
  dst : Str
  label : Option Str

/-- `LayoutConfig` (layout/mod.rs:9-16), the fields this layout reads. -/
structure LayoutConfig where
  horizontal : ℚ
  vertical : ℚ
  margin : ℚ

/-- `LayoutDirection` (layout/mod.rs:367-373). -/
inductive Direction where
  | topDown | bottomUp | leftRight | rightLeft
deriving DecidableEq

/-- `HierarchyNode` (layout/mod.rs:377-381). -/
inductive HNode where
  | mk (id : Str) (children : List HNode) (size : Sz)

/-- The loop over the edges (layout/mod.rs:389-392): `children_map` and `has_parent`. -/
def edgeMaps : List LayoutEdge → FMap Str (List Str) × List Str → FMap Str (List Str) × List Str
  | [], st => st
  | e :: es, (ch, hp) => edgeMaps es (ch.insert e.src ((ch e.src).getD [] ++ [e.dst]), e.dst :: hp)

mutual
/-- `build_hierarchy_node` (layout/mod.rs:404-409). -/
def buildNode (nodes : List LayoutNode) (ch : FMap Str (List Str)) : Nat → Str → Run HNode
  | 0, _ => .error .spin
  | fuel + 1, id =>
    match nodes.find? (fun n => n.id = id) with
    | none => .error .panic
    | some n => do
      let cs ← buildNodes nodes ch fuel ((ch id).getD [])
      return .mk id cs n.size
/-- The children of `build_hierarchy_node` (layout/mod.rs:406). -/
def buildNodes (nodes : List LayoutNode) (ch : FMap Str (List Str)) : Nat → List Str → Run (List HNode)
  | _, [] => .ok []
  | fuel, c :: cs => do
    let h ← buildNode nodes ch fuel c
    let hs ← buildNodes nodes ch fuel cs
    return h :: hs
end

/-- `build_hierarchy` (layout/mod.rs:384-402). -/
def buildHierarchy (fuel : Nat) (nodes : List LayoutNode) (edges : List LayoutEdge) : Run (List HNode) :=
  let (ch, hp) := edgeMaps edges (FMap.empty, [])
  buildNodes nodes ch fuel ((nodes.filter fun n => n.id ∉ hp).map (·.id))

/-- The field `size` of a `HierarchyNode` (layout/mod.rs:380). -/
def HNode.size : HNode → Sz
  | .mk _ _ s => s

mutual
/-- `layout_node_top_down` (layout/mod.rs:423-434); the state is (`y`, `positions`). -/
def topDownNode (cfg : LayoutConfig) : HNode → ℚ → ℚ × Entries Rct → ℚ × Entries Rct
  | .mk id cs size, x, (y, m) =>
    topDownNodes cfg cs (x + cfg.horizontal) (y + (size.height + cfg.vertical), putEntry id ⟨⟨x, y⟩, size⟩ m)
/-- The loop over the children (layout/mod.rs:430-433), from `child_x`. -/
def topDownNodes (cfg : LayoutConfig) : List HNode → ℚ → ℚ × Entries Rct → ℚ × Entries Rct
  | [], _, st => st
  | c :: cs, x, st => topDownNodes cfg cs (x + (c.size.width + cfg.horizontal)) (topDownNode cfg c x st)
end

/-- The loop over the roots (layout/mod.rs:415-418). -/
def topDownRoots (cfg : LayoutConfig) : List HNode → ℚ × Entries Rct → ℚ × Entries Rct
  | [], st => st
  | r :: rs, st =>
    let st' := topDownNode cfg r cfg.margin st
    topDownRoots cfg rs (st'.1 + cfg.vertical, st'.2)

/-- `layout_top_down` (layout/mod.rs:411-421). -/
def topDown (cfg : LayoutConfig) (hs : List HNode) : Entries Rct := (topDownRoots cfg hs (cfg.margin, [])).2

mutual
/-- `layout_node_left_right` (layout/mod.rs:448-459); the state is (`x`, `positions`). -/
def leftRightNode (cfg : LayoutConfig) : HNode → ℚ → ℚ × Entries Rct → ℚ × Entries Rct
  | .mk id cs size, y, (x, m) =>
    leftRightNodes cfg cs (y + cfg.vertical) (x + (size.width + cfg.horizontal), putEntry id ⟨⟨x, y⟩, size⟩ m)
/-- The loop over the children (layout/mod.rs:455-458), from `child_y`. -/
def leftRightNodes (cfg : LayoutConfig) : List HNode → ℚ → ℚ × Entries Rct → ℚ × Entries Rct
  | [], _, st => st
  | c :: cs, y, st => leftRightNodes cfg cs (y + (c.size.height + cfg.vertical)) (leftRightNode cfg c y st)
end

/-- The loop over the roots (layout/mod.rs:440-443). -/
def leftRightRoots (cfg : LayoutConfig) : List HNode → ℚ × Entries Rct → ℚ × Entries Rct
  | [], st => st
  | r :: rs, st =>
    let st' := leftRightNode cfg r cfg.margin st
    leftRightRoots cfg rs (st'.1 + cfg.horizontal, st'.2)

/-- `layout_left_right` (layout/mod.rs:436-446). -/
def leftRight (cfg : LayoutConfig) (hs : List HNode) : Entries Rct := (leftRightRoots cfg hs (cfg.margin, [])).2

/-- `layout_bottom_up` (layout/mod.rs:461-464). -/
def bottomUp (cfg : LayoutConfig) (hs : List HNode) : Entries Rct := topDown cfg hs

/-- `layout_right_left` (layout/mod.rs:466-469). -/
def rightLeft (cfg : LayoutConfig) (hs : List HNode) : Entries Rct := leftRight cfg hs

/-- `route_edge` (layout/mod.rs:471-477). -/
def routeEdge (a b : Rct) (src dst : Str) (label : Option Str) : LEdge := ⟨src, dst, [a.center, b.center], label⟩

/-- `HashMap::get` (layout/mod.rs:231). -/
def getEntry {V : Type} (k : Str) : Entries V → Option V
  | [] => none
  | (k', v) :: m => if k' = k then some v else getEntry k m

/-- The loop adding the nodes (layout/mod.rs:224-226); `add_node` (46-50) uses the id as label and the default type. -/
def addRects : Entries Rct → Lay → Lay
  | [], l => l
  | (id, r) :: rs, l => addRects rs (l.addNode id id r .dflt)

/-- The loop adding the edges (layout/mod.rs:229-234). -/
def addRouted : List LayoutEdge → Lay → Lay
  | [], l => l
  | e :: es, l =>
    match getEntry e.src l.nodes, getEntry e.dst l.nodes with
    | some a, some b => addRouted es (l.addEdge (routeEdge a.rect b.rect e.src e.dst e.label))
    | _, _ => addRouted es l

/-- `HierarchicalLayout::layout` (layout/mod.rs:205-237). -/
def hierarchicalLayout (fuel : Nat) (dir : Direction) (nodes : List LayoutNode) (edges : List LayoutEdge) (cfg : LayoutConfig) : Run Lay :=
  if nodes.isEmpty then .ok Lay.new
  else do
    let hs ← buildHierarchy fuel nodes edges
    let ps := match dir with
      | .topDown => topDown cfg hs
      | .leftRight => leftRight cfg hs
      | .bottomUp => bottomUp cfg hs
      | .rightLeft => rightLeft cfg hs
    return addRouted edges (addRects ps Lay.new)

end Oaks.Viz
