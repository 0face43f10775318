import Verif.Model.Geometry
import Verif.Model.Tree
import Verif.Base.FMap
import Verif.Base.Str

/-
Model of the tree visualisation of oak-visualize: `projects/oak-visualize/src/tree/mod.rs` (cited as tree/mod.rs)
and `projects/oak-visualize/src/layout/mod.rs` (cited as layout/mod.rs).

Simplifications: `f64` is an exact rational number; a `HashMap` that is iterated is the list of its entries,
one per key, in the order of first insertion (the order of a Rust `HashMap` is unspecified; the
properties proved do not depend on it); the attributes of a node, which no layout looks at, are left out.
The radial and balloon layouts (sine and cosine) and the force directed layout are not modelled.
-/
namespace Oaks.Viz

/-- `TreeNode` (tree/mod.rs:21-28). -/
inductive VTree where
  | mk (id label kind : Str) (size : Option Sz) (children : List VTree)

mutual
/-- `depth` (tree/mod.rs:59-61). -/
def VTree.depth : VTree → Nat
  | .mk _ _ _ _ cs => if cs.isEmpty then 1 else 1 + (depths cs).getD 0
/-- `iter().map(depth).max()` (tree/mod.rs:60). -/
def depths : List VTree → Option Nat
  | [] => none
  | c :: cs => some (max c.depth ((depths cs).getD 0))
end

mutual
/-- `node_count` (tree/mod.rs:63-65). -/
def VTree.nodeCount : VTree → Nat
  | .mk _ _ _ _ cs => 1 + nodeCounts cs
/-- `iter().map(node_count).sum()` (tree/mod.rs:64). -/
def nodeCounts : List VTree → Nat
  | [] => 0
  | c :: cs => c.nodeCount + nodeCounts cs
end

mutual
/-- `leaf_count` (tree/mod.rs:67-69). -/
def VTree.leafCount : VTree → Nat
  | .mk _ _ _ _ [] => 1
  | .mk _ _ _ _ (c :: cs) => c.leafCount + leafCounts cs
/-- `iter().map(leaf_count).sum()` (tree/mod.rs:68). -/
def leafCounts : List VTree → Nat
  | [] => 0
  | c :: cs => c.leafCount + leafCounts cs
end

/-- `next_node_id` (tree/mod.rs:15-17): the id for the counter value `n`. -/
def nodeId (n : Nat) : Str := "node_".toList ++ (toString n).toList

mutual
/-- `TreeNode::from(&GreenTree)` (tree/mod.rs:79-92); the counter `NODE_ID_COUNTER` is threaded through, `name` is
`{:?}` of a kind. -/
def VTree.ofGreen (name : Nat → Str) : Green → Nat → VTree × Nat
  | .node k _ cs, n =>
    let (vs, m) := VTree.ofGreens name cs (n + 1)
    (.mk (nodeId n) (name k) "node".toList none vs, m)
  | .leaf k _ _, n => (.mk (nodeId n) (name k) "leaf".toList none [], n + 1)
/-- The loop over the children (tree/mod.rs:84-86). -/
def VTree.ofGreens (name : Nat → Str) : List Green → Nat → List VTree × Nat
  | [], n => ([], n)
  | c :: cs, n =>
    let (v, m) := VTree.ofGreen name c n
    let (vs, k) := VTree.ofGreens name cs m
    (v :: vs, k)
end

/-- `TreeLayoutConfig` (tree/mod.rs:426-432); `subtree_distance` is read by the balloon layout only. -/
structure TreeCfg where
  nodeWidth : ℚ
  nodeHeight : ℚ
  levelDistance : ℚ
  siblingDistance : ℚ

/-- `TreeLayoutConfig::default` (tree/mod.rs:434-438). -/
def TreeCfg.std : TreeCfg := ⟨100, 40, 80, 20⟩

/-- `get_node_size` (tree/mod.rs:301-303). -/
def TreeCfg.sizeOf (g : TreeCfg) (size : Option Sz) : Sz := size.getD ⟨g.nodeWidth, g.nodeHeight⟩

/-- An entry of `node_positions` (tree/mod.rs:177): position, size, label, node type. -/
structure Place where
  pos : Pt
  size : Sz
  label : Str
  kind : Str
deriving DecidableEq

/-- `node_positions` (tree/mod.rs:177), and the nodes of a layout (layout/mod.rs:37). -/
abbrev Entries (V : Type) := List (Str × V)

/-- `HashMap::insert` as used in tree/mod.rs:331, 405 and layout/mod.rs:48, 53: overwrites the entry of the key. -/
def putEntry {V : Type} (k : Str) (v : V) : Entries V → Entries V
  | [] => [(k, v)]
  | (k', v') :: m => if k' = k then (k, v) :: m else (k', v') :: putEntry k v m

mutual
/-- `calculate_level_widths` (tree/mod.rs:305-313). -/
def levelWidths (g : TreeCfg) : VTree → Nat → FMap Nat ℚ → FMap Nat ℚ
  | .mk _ _ _ size cs, level, w =>
    let current := (w level).getD 0
    levelWidthsAll g cs (level + 1) (w.insert level (current + (g.sizeOf size).width + g.siblingDistance))
/-- The loop over the children (tree/mod.rs:310-312). -/
def levelWidthsAll (g : TreeCfg) : List VTree → Nat → FMap Nat ℚ → FMap Nat ℚ
  | [], _, w => w
  | c :: cs, level, w => levelWidthsAll g cs level (levelWidths g c level w)
end

mutual
/-- `position_layered_node` (tree/mod.rs:315-337); the state is (`current_positions`, `node_positions`). -/
def positionLayered (g : TreeCfg) (widths : FMap Nat ℚ) :
    VTree → Nat → FMap Nat ℚ × Entries Place → FMap Nat ℚ × Entries Place
  | .mk id label kind size cs, level, st =>
    let sz := g.sizeOf size
    let levelWidth := (widths level).getD 0
    let currentX := (st.1 level).getD (-levelWidth / 2)
    let x := if level = 0 then 0 else currentX + sz.width / 2
    let y := (level : ℚ) * g.levelDistance
    positionLayeredAll g widths cs (level + 1)
      (st.1.insert level (currentX + sz.width + g.siblingDistance), putEntry id ⟨⟨x, y⟩, sz, label, kind⟩ st.2)
/-- The loop over the children (tree/mod.rs:334-336). -/
def positionLayeredAll (g : TreeCfg) (widths : FMap Nat ℚ) :
    List VTree → Nat → FMap Nat ℚ × Entries Place → FMap Nat ℚ × Entries Place
  | [], _, st => st
  | c :: cs, level, st => positionLayeredAll g widths cs level (positionLayered g widths c level st)
end

/-- `PositionedTreeNode` (tree/mod.rs:451-459). -/
inductive PTree where
  | mk (id label kind : Str) (pos : Pt) (size : Sz) (subtreeWidth : ℚ) (children : List PTree)

/-- The field `subtree_width` (tree/mod.rs:457). -/
def PTree.subtreeWidth : PTree → ℚ
  | .mk _ _ _ _ _ w _ => w

mutual
/-- `position_compact_node` (tree/mod.rs:362-379). -/
def positionCompact (g : TreeCfg) : VTree → ℚ → ℚ → PTree
  | .mk id label kind size cs, x, y =>
    let sz := g.sizeOf size
    let kids := positionCompactAll g cs x (y + g.levelDistance)
    let width := if kids.isEmpty then sz.width
      else (kids.map PTree.subtreeWidth).sum + ((kids.length - 1 : Nat) : ℚ) * g.siblingDistance
    let nodeX := if kids.isEmpty then x else x + width / 2 - sz.width / 2
    .mk id label kind ⟨nodeX, y⟩ sz width kids
/-- The loop over the children (tree/mod.rs:367-371), from `child_x`. -/
def positionCompactAll (g : TreeCfg) : List VTree → ℚ → ℚ → List PTree
  | [], _, _ => []
  | c :: cs, childX, y =>
    let p := positionCompact g c childX y
    p :: positionCompactAll g cs (childX + (p.subtreeWidth + g.siblingDistance)) y
end

mutual
/-- `extract_positions` (tree/mod.rs:404-410). -/
def extractPositions : PTree → Entries Place → Entries Place
  | .mk id label kind pos size _ cs, m => extractAll cs (putEntry id ⟨pos, size, label, kind⟩ m)
/-- The loop over the children (tree/mod.rs:407-409). -/
def extractAll : List PTree → Entries Place → Entries Place
  | [], m => m
  | c :: cs, m => extractAll cs (extractPositions c m)
end

/-- `NodeType` (layout/mod.rs:172-180). -/
inductive NodeType where
  | dflt | function | struct | enum | variable | constant | module
deriving DecidableEq

/-- The `match` on the node type (tree/mod.rs:190-195, 252-257). -/
def nodeType (kind : Str) : NodeType :=
  if kind = "function".toList then .function
  else if kind = "struct".toList then .struct
  else if kind = "module".toList then .module
  else .dflt

/-- `PositionedNode` (layout/mod.rs:26-31); the id is the key. -/
structure LNode where
  label : Str
  rect : Rct
  type : NodeType
deriving DecidableEq

/-- `Edge` (layout/mod.rs:92-97). -/
structure LEdge where
  src : Str
  dst : Str
  points : List Pt
  label : Option Str
deriving DecidableEq

/-- `Layout` (layout/mod.rs:35-39). -/
structure Lay where
  bounds : Rct
  nodes : Entries LNode
  edges : List LEdge

/-- `Rect::default` (geometry/mod.rs:204-208, with 36-40 and 91-95). -/
def Rct.dflt : Rct := ⟨⟨0, 0⟩, ⟨100, 50⟩⟩

/-- `Layout::new` (layout/mod.rs:42-44). -/
def Lay.new : Lay := ⟨Rct.dflt, [], []⟩

/-- The corners while `update_bounds` runs (layout/mod.rs:67-78); `none` stands for the infinities at the start. -/
def boundsLoop : Option (ℚ × ℚ × ℚ × ℚ) → List Rct → Option (ℚ × ℚ × ℚ × ℚ)
  | b, [] => b
  | none, r :: rs => boundsLoop (some (r.minX, r.minY, r.maxX, r.maxY)) rs
  | some (a, b, c, d), r :: rs => boundsLoop (some (min a r.minX, min b r.minY, max c r.maxX, max d r.maxY)) rs

/-- `update_bounds` (layout/mod.rs:61-81). -/
def Lay.updateBounds (l : Lay) : Lay :=
  match boundsLoop none (l.nodes.map fun e => e.2.rect) with
  | none => { l with bounds := Rct.dflt }
  | some (a, b, c, d) => { l with bounds := Rct.fromXywh a b (c - a) (d - b) }

/-- `add_node_with_metadata` (layout/mod.rs:52-55). -/
def Lay.addNode (l : Lay) (id label : Str) (rect : Rct) (type : NodeType) : Lay :=
  { l with nodes := putEntry id ⟨label, rect, type⟩ l.nodes }.updateBounds

/-- `add_edge` (layout/mod.rs:57-59). -/
def Lay.addEdge (l : Lay) (e : LEdge) : Lay := { l with edges := l.edges ++ [e] }

/-- The loop over `node_positions` (tree/mod.rs:188-197, 250-259). -/
def Lay.addPlaces : Entries Place → Lay → Lay
  | [], l => l
  | (id, p) :: ps, l => Lay.addPlaces ps (l.addNode id p.label ⟨p.pos, p.size⟩ (nodeType p.kind))

/-- `Edge::new` (layout/mod.rs:100-102). -/
def LEdge.new (src dst : Str) : LEdge := ⟨src, dst, [], none⟩

/-- The field `id` (tree/mod.rs:22). -/
def VTree.id : VTree → Str
  | .mk id _ _ _ _ => id

mutual
/-- `add_tree_edges` (tree/mod.rs:413-421). -/
def addTreeEdges : VTree → Lay → Lay
  | .mk id _ _ _ cs, l => addTreeEdgesAll id cs l
/-- The loop over the children (tree/mod.rs:414-420). -/
def addTreeEdgesAll (id : Str) : List VTree → Lay → Lay
  | [], l => l
  | c :: cs, l => addTreeEdgesAll id cs (addTreeEdges c (l.addEdge (LEdge.new id c.id)))
end

/-- `layered_layout` (tree/mod.rs:175-203). -/
def layeredLayout (g : TreeCfg) (t : VTree) : Lay :=
  let widths := levelWidths g t 0 FMap.empty
  let st := positionLayered g widths t 0 (FMap.empty, [])
  addTreeEdges t (Lay.addPlaces st.2 Lay.new)

/-- `compact_layout` (tree/mod.rs:240-264). -/
def compactLayout (g : TreeCfg) (t : VTree) : Lay :=
  addTreeEdges t (Lay.addPlaces (extractPositions (positionCompact g t 0 0) []) Lay.new)

end Oaks.Viz
