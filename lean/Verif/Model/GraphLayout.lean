import Verif.Model.Hierarchy
import Verif.Model.Graph

/-
Model of the graph layouts of `projects/oak-visualize/src/graph/mod.rs` (cited as graph/mod.rs).

Simplifications: `f64` is an exact rational number; sine, cosine, square root and π are parameters (arbitrary functions);
the table of nodes is the list of its entries in the order in which it happens to be iterated, the key of a node being its
`id`; attributes, and the weights of nodes, which no layout looks at, are left out.
-/
namespace Oaks.Viz

/-- `GraphNode` (graph/mod.rs:11-19). -/
structure GNode where
  id : Str
  label : Str
  kind : Str
  size : Option Sz

/-- `GraphEdge` (graph/mod.rs:47-57). -/
structure GEdge where
  src : Str
  dst : Str
  label : Option Str
  weight : ℚ

/-- `Graph` (graph/mod.rs:91-96). -/
structure VGraph where
  nodes : List GNode
  edges : List GEdge
  directed : Bool

/-- `GraphLayoutConfig` (graph/mod.rs:560-573). -/
structure GraphCfg where
  nodeWidth : ℚ
  nodeHeight : ℚ
  spacing : ℚ
  layerDistance : ℚ
  radius : ℚ
  iterations : Nat
  spring : ℚ
  repulsion : ℚ
  damping : ℚ
  maxVelocity : ℚ
  idealLength : ℚ

/-- `GraphLayoutConfig::default` (graph/mod.rs:575-579). -/
def GraphCfg.std : GraphCfg := ⟨80, 40, 20, 100, 200, 100, 1 / 10, 1000, 9 / 10, 10, 100⟩

/-- The size of a node (graph/mod.rs:351, 389, 431, 471). -/
def GraphCfg.sizeOf (c : GraphCfg) (n : GNode) : Sz := n.size.getD ⟨c.nodeWidth, c.nodeHeight⟩

/-- The node type and `add_node_with_metadata` (graph/mod.rs:353-359, 391-397, 433-439, 473-479). -/
def addGNode (l : Lay) (n : GNode) (r : Rct) : Lay := l.addNode n.id n.label r (nodeType n.kind)

/-- The loop adding the edges, the same in all layouts (graph/mod.rs:364-369, 401-406, 444-449, 483-488): the label of the
edge is not passed on. -/
def addStraight : List GEdge → Lay → Lay
  | [], l => l
  | e :: es, l =>
    match getEntry e.src l.nodes, getEntry e.dst l.nodes with
    | some a, some b => addStraight es (l.addEdge { LEdge.new e.src e.dst with points := [a.rect.center, b.rect.center] })
    | _, _ => addStraight es l

/-! ### Grid -/

/-- `(n as f64).sqrt().ceil() as usize` (graph/mod.rs:463). -/
def ceilSqrt (n : Nat) : Nat := if n.sqrt * n.sqrt = n then n.sqrt else n.sqrt + 1

/-- The cell of the `i`-th node (graph/mod.rs:467-472). -/
def gridRect (c : GraphCfg) (cols i : Nat) (n : GNode) : Rct :=
  ⟨⟨((i % cols : Nat) : ℚ) * (c.nodeWidth + c.spacing), ((i / cols : Nat) : ℚ) * (c.nodeHeight + c.spacing)⟩, c.sizeOf n⟩

/-- The loop over the nodes (graph/mod.rs:466-480). -/
def gridLoop (c : GraphCfg) (cols : Nat) : Nat → List GNode → Lay → Lay
  | _, [], l => l
  | i, n :: ns, l => gridLoop c cols (i + 1) ns (addGNode l n (gridRect c cols i n))

/-- `grid_layout` (graph/mod.rs:455-491). -/
def gridLayout (c : GraphCfg) (g : VGraph) : Lay :=
  if g.nodes.isEmpty then Lay.new
  else addStraight g.edges (gridLoop c (ceilSqrt g.nodes.length) 0 g.nodes Lay.new)

/-! ### Layers -/

/-- The graph as `topological_layers` (Model/Graph) sees it (graph/mod.rs:507). -/
def VGraph.plain (g : VGraph) : Graph := ⟨g.nodes.map (·.id), g.edges.map fun e => (e.src, e.dst), g.directed⟩

/-- The place of the `j`-th node of a layer of `k` nodes, on height `y` (graph/mod.rs:424-432). -/
def layerRect (c : GraphCfg) (k j : Nat) (y : ℚ) (n : GNode) : Rct :=
  ⟨⟨-((k : ℚ) * (c.nodeWidth + c.spacing)) / 2 + (j : ℚ) * (c.nodeWidth + c.spacing), y⟩, c.sizeOf n⟩

/-- The loop over a layer (graph/mod.rs:428-440); `graph.nodes[node_id]` panics without such a node. -/
def layerNodes (c : GraphCfg) (g : VGraph) (k : Nat) (y : ℚ) : Nat → List Str → Lay → Run Lay
  | _, [], l => .ok l
  | j, id :: ids, l =>
    match g.nodes.find? fun n => decide (n.id = id) with
    | none => .error .panic
    | some n => layerNodes c g k y (j + 1) ids (addGNode l n (layerRect c k j y n))

/-- The loop over the layers (graph/mod.rs:423-441). -/
def layersLoop (c : GraphCfg) (g : VGraph) : Nat → List (List Str) → Lay → Run Lay
  | _, [], l => .ok l
  | i, layer :: layers, l => do
    let l ← layerNodes c g layer.length ((i : ℚ) * c.layerDistance) 0 layer l
    layersLoop c g (i + 1) layers l

/-- `hierarchical_layout` (graph/mod.rs:412-452). -/
def layersLayout (c : GraphCfg) (ord : Nat → List (Str × Nat) → List (Str × Nat)) (fuel : Nat) (g : VGraph) : Run Lay :=
  if g.nodes.isEmpty then .ok Lay.new
  else do
    let layers ← topologicalLayers g.plain ord fuel
    let l ← layersLoop c g 0 layers Lay.new
    return addStraight g.edges l

/-! ### Circle -/

/-- A node of that size around a point (graph/mod.rs:352, 390). -/
def around (p : Pt) (s : Sz) : Rct := ⟨⟨p.x - s.width / 2, p.y - s.height / 2⟩, s⟩

section
variable (cos sin sqrt : ℚ → ℚ) (pi : ℚ)

/-- The loop over the nodes (graph/mod.rs:386-398). -/
def circleLoop (c : GraphCfg) (step : ℚ) : Nat → List GNode → Lay → Lay
  | _, [], l => l
  | i, n :: ns, l =>
    let angle := (i : ℚ) * step
    circleLoop c step (i + 1) ns (addGNode l n (around ⟨c.radius * cos angle, c.radius * sin angle⟩ (c.sizeOf n)))

/-- `circular_layout` (graph/mod.rs:375-409). -/
def circularLayout (c : GraphCfg) (g : VGraph) : Lay :=
  if g.nodes.isEmpty then Lay.new
  else addStraight g.edges (circleLoop cos sin c (2 * pi / g.nodes.length) 0 g.nodes Lay.new)

/-! ### Forces -/

/-- `distance_to` (geometry/mod.rs:21-25). -/
def distanceTo (p q : Pt) : ℚ := sqrt ((p.x - q.x) * (p.x - q.x) + (p.y - q.y) * (p.y - q.y))

/-- Adding to the force on a node (graph/mod.rs:306-307, 324-325); `unwrap` panics without one. -/
def push (fs : FMap Str Pt) (id : Str) (dx dy : ℚ) : Run (FMap Str Pt) :=
  match fs id with
  | none => .error .panic
  | some f => .ok (fs.insert id ⟨f.x + dx, f.y + dy⟩)

/-- A force on one node and its opposite on the other (graph/mod.rs:306-307, 324-325). -/
def pushPair (fs : FMap Str Pt) (a b : Str) (f : Pt) : Run (FMap Str Pt) := do
  let fs ← push fs a f.x f.y
  push fs b (-f.x) (-f.y)

/-- The body of the loop over pairs (graph/mod.rs:296-308). -/
def repel (c : GraphCfg) (pos : FMap Str Pt) (a b : Str) (fs : FMap Str Pt) : Run (FMap Str Pt) :=
  match pos a, pos b with
  | some p, some q =>
    let d := max (distanceTo sqrt p q) 1
    let m := c.repulsion / (d * d)
    pushPair fs a b ⟨(p.x - q.x) / d * m, (p.y - q.y) / d * m⟩
  | _, _ => .ok fs

/-- The inner loop (graph/mod.rs:295-309). -/
def repelFrom (c : GraphCfg) (pos : FMap Str Pt) (a : Str) : List Str → FMap Str Pt → Run (FMap Str Pt)
  | [], fs => .ok fs
  | b :: bs, fs => do
    let fs ← repel sqrt c pos a b fs
    repelFrom c pos a bs fs

/-- The loop over all pairs (graph/mod.rs:293-310). -/
def repelAll (c : GraphCfg) (pos : FMap Str Pt) : List Str → FMap Str Pt → Run (FMap Str Pt)
  | [], fs => .ok fs
  | a :: as, fs => do
    let fs ← repelFrom sqrt c pos a as fs
    repelAll c pos as fs

/-- The loop over the edges (graph/mod.rs:313-328). -/
def attractAll (c : GraphCfg) (pos : FMap Str Pt) : List GEdge → FMap Str Pt → Run (FMap Str Pt)
  | [], fs => .ok fs
  | e :: es, fs => do
    let fs ← match pos e.src, pos e.dst with
      | some p, some q =>
        let d := distanceTo sqrt p q
        let m := c.spring * (d - c.idealLength) * e.weight
        if d > 0 then pushPair fs e.src e.dst ⟨(q.x - p.x) / d * m, (q.y - p.y) / d * m⟩ else .ok fs
      | _, _ => .ok fs
    attractAll c pos es fs

/-- The new velocity of a node (graph/mod.rs:333-341). -/
def newVelocity (c : GraphCfg) (v f : Pt) : Pt :=
  let v : Pt := ⟨v.x * c.damping + f.x, v.y * c.damping + f.y⟩
  let speed := sqrt (v.x * v.x + v.y * v.y)
  if speed > c.maxVelocity then ⟨v.x * (c.maxVelocity / speed), v.y * (c.maxVelocity / speed)⟩ else v

/-- Positions and velocities (graph/mod.rs:272-273). -/
structure Motion where
  pos : FMap Str Pt
  vel : FMap Str Pt

/-- The loop moving the nodes (graph/mod.rs:331-345). -/
def moveAll (c : GraphCfg) (fs : FMap Str Pt) : List Str → Motion → Motion
  | [], m => m
  | id :: ids, m =>
    match fs id, m.vel id, m.pos id with
    | some f, some v, some p =>
      let v := newVelocity sqrt c v f
      moveAll c fs ids ⟨m.pos.insert id ⟨p.x + v.x, p.y + v.y⟩, m.vel.insert id v⟩
    | _, _, _ => moveAll c fs ids m

/-- The forces of one round (graph/mod.rs:285-328). -/
def forces (c : GraphCfg) (g : VGraph) (pos : FMap Str Pt) : Run (FMap Str Pt) := do
  let ids := g.nodes.map (·.id)
  let fs : FMap Str Pt := ids.foldl (fun m id => m.insert id ⟨0, 0⟩) FMap.empty
  let fs ← repelAll sqrt c pos ids fs
  attractAll sqrt c pos g.edges fs

/-- The rounds of the simulation (graph/mod.rs:284-346). -/
def simulate (c : GraphCfg) (g : VGraph) : Nat → Motion → Run Motion
  | 0, m => .ok m
  | n + 1, m => do
    let fs ← forces sqrt c g m.pos
    simulate c g n (moveAll sqrt c fs (g.nodes.map (·.id)) m)

/-- The positions at the start (graph/mod.rs:276-281). -/
def startLoop (step : ℚ) : Nat → List Str → Motion → Motion
  | _, [], m => m
  | i, id :: ids, m =>
    startLoop step (i + 1) ids ⟨m.pos.insert id ⟨100 * cos ((i : ℚ) * step), 100 * sin ((i : ℚ) * step)⟩, m.vel.insert id ⟨0, 0⟩⟩

/-- The loop making nodes of the positions (graph/mod.rs:349-361). -/
def forceNodes (c : GraphCfg) (pos : FMap Str Pt) : List GNode → Lay → Lay
  | [], l => l
  | n :: ns, l =>
    match pos n.id with
    | some p => forceNodes c pos ns (addGNode l n (around p (c.sizeOf n)))
    | none => forceNodes c pos ns l

/-- `force_directed_layout` (graph/mod.rs:265-372); the angle `2π * i / n` is `i * (2π / n)` here. -/
def forceLayout (c : GraphCfg) (g : VGraph) : Run Lay :=
  if g.nodes.isEmpty then .ok Lay.new
  else do
    let m := startLoop cos sin (2 * pi / g.nodes.length) 0 (g.nodes.map (·.id)) ⟨FMap.empty, FMap.empty⟩
    let m ← simulate sqrt c g c.iterations m
    return addStraight g.edges (forceNodes c m.pos g.nodes Lay.new)

/-- `organic_layout` (graph/mod.rs:494-504). -/
def organicLayout (c : GraphCfg) (g : VGraph) : Run Lay :=
  forceLayout cos sin sqrt pi { c with spring := c.spring * (1 / 2), repulsion := c.repulsion * (3 / 2), damping := 95 / 100 } g

end

/-- `GraphLayoutAlgorithm` (graph/mod.rs:583-589). -/
inductive GraphAlg where
  | force | circular | layers | grid | organic

/-- `layout_graph` (graph/mod.rs:254-262). -/
def layoutGraph (cos sin sqrt : ℚ → ℚ) (pi : ℚ) (ord : Nat → List (Str × Nat) → List (Str × Nat)) (fuel : Nat)
    (alg : GraphAlg) (c : GraphCfg) (g : VGraph) : Run Lay :=
  match alg with
  | .force => forceLayout cos sin sqrt pi c g
  | .circular => .ok (circularLayout cos sin pi c g)
  | .layers => layersLayout c ord fuel g
  | .grid => .ok (gridLayout c g)
  | .organic => organicLayout cos sin sqrt pi c g

end Oaks.Viz
