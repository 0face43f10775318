import Verif.Base.Run
import Verif.Base.Str

/-
Model of the graph queries of `projects/oak-visualize/src/graph/mod.rs`.

`nodes` lists the keys of the node table in the order in which the table happens to be iterated; all
theorems quantify over it. Labels, sizes, weights and attributes are left out. A `HashSet` is the list of
its members without repetition. The order in which the `in_degree` table of `topological_layers` is
iterated is given by an oracle.
-/
namespace Oaks

/-- `Graph` (graph/mod.rs:92-96): keys, edges as (from, to), and whether it is directed. -/
structure Graph where
  nodes : List Str
  edges : List (Str × Str)
  directed : Bool
deriving DecidableEq

/-- Body of the loop of `get_neighbors` (graph/mod.rs:115-120). -/
def neighborsOf (g : Graph) (id : Str) (e : Str × Str) : List Str :=
  (if e.1 = id then [e.2] else []) ++ (if g.directed = false ∧ e.2 = id then [e.1] else [])

/-- `get_neighbors` (graph/mod.rs:111-124). -/
def getNeighbors (g : Graph) (id : Str) : List Str := g.edges.flatMap (neighborsOf g id)

/-- `get_degree` (graph/mod.rs:126-128). -/
def getDegree (g : Graph) (id : Str) : Nat := (getNeighbors g id).length

/-- The `while` loop of `is_connected` (graph/mod.rs:139-151); the stack's top is the head. -/
def connLoop (g : Graph) : Nat → List Str → List Str → Run (List Str)
  | _, visited, [] => .ok visited
  | 0, _, _ :: _ => .error .spin
  | fuel + 1, visited, node :: stack =>
    if node ∈ visited then connLoop g fuel visited stack
    else
      let visited := node :: visited
      connLoop g fuel visited (((getNeighbors g node).filter (· ∉ visited)).reverse ++ stack)

/-- `is_connected` (graph/mod.rs:130-154). -/
def isConnected (g : Graph) (fuel : Nat) : Run Bool :=
  match g.nodes with
  | [] => .ok true
  | start :: _ => do
    let visited ← connLoop g fuel [] [start]
    return visited.length = g.nodes.length

/-- The four variables passed through `dfs_cycles` (graph/mod.rs:171). -/
structure DfsState where
  visited : List Str
  recStack : List Str
  path : List Str
  cycles : List (List Str)

/-- `path[path.iter().position(|n| n == neighbor)..]`, when found (graph/mod.rs:182-184). -/
def cycleFrom (path : List Str) (n : Str) : Option (List Str) :=
  match path.dropWhile (· ≠ n) with
  | [] => none
  | c => some c

/-- `dfs_cycles` (graph/mod.rs:171-190). -/
def dfsCycles (g : Graph) : Nat → Str → DfsState → Run DfsState
  | 0, _, _ => .error .spin
  | fuel + 1, node, st => do
    let st : DfsState := ⟨st.visited.insert node, st.recStack.insert node, st.path ++ [node], st.cycles⟩
    let st ← (getNeighbors g node).foldlM (init := st) fun st n =>
      if n ∉ st.visited then dfsCycles g fuel n st
      else if n ∈ st.recStack then
        match cycleFrom st.path n with
        | some c => pure { st with cycles := st.cycles ++ [c] }
        | none => pure st
      else pure st
    return ⟨st.visited, st.recStack.filter (· ≠ node), st.path.dropLast, st.cycles⟩

/-- `find_cycles` (graph/mod.rs:156-169). -/
def findCycles (g : Graph) (fuel : Nat) : Run (List (List Str)) := do
  let st ← g.nodes.foldlM (init := (⟨[], [], [], []⟩ : DfsState)) fun st n =>
    if n ∉ st.visited then dfsCycles g fuel n st else pure st
  return st.cycles

/-! ### Layers -/

/-- `*in_degree.get_mut(&edge.to).unwrap() += 1` (graph/mod.rs:518). -/
def bump (deg : List (Str × Nat)) (v : Str) : Run (List (Str × Nat)) :=
  if deg.any (·.1 = v) then .ok (deg.map fun p => if p.1 = v then (p.1, p.2 + 1) else p) else .error .panic

/-- `if let Some(degree) = in_degree.get_mut(&edge.to) { *degree = degree.saturating_sub(1) }`
(graph/mod.rs:545-547). -/
def lower (deg : List (Str × Nat)) (v : Str) : List (Str × Nat) :=
  deg.map fun p => if p.1 = v then (p.1, p.2 - 1) else p

/-- Body of the loop over the current layer (graph/mod.rs:540-549). -/
def takeNode (g : Graph) (deg : List (Str × Nat)) (u : Str) : List (Str × Nat) :=
  g.edges.foldl (init := deg.filter (·.1 ≠ u)) fun deg e => if e.1 = u then lower deg e.2 else deg

/-- `iter().min_by_key(..)`: the first entry of least degree (graph/mod.rs:530). -/
def minEntry : List (Str × Nat) → Option (Str × Nat)
  | [] => none
  | p :: ps =>
    match minEntry ps with
    | none => some p
    | some q => if p.2 ≤ q.2 then some p else some q

/-- `current_layer` (graph/mod.rs:523-536) for a table iterated in the given order. -/
def currentLayer (deg : List (Str × Nat)) : List Str :=
  let zero := (deg.filter (·.2 = 0)).map (·.1)
  if zero = [] then
    match minEntry deg with
    | some p => [p.1]
    | none => []
  else zero

/-- The `while` loop (graph/mod.rs:522-553). `ord n` is the order in which the table is iterated in
round `n`. -/
def layerLoop (g : Graph) (ord : Nat → List (Str × Nat) → List (Str × Nat)) : Nat → Nat → List (Str × Nat) → Run (List (List Str))
  | _, _, [] => .ok []
  | 0, _, _ :: _ => .error .spin
  | fuel + 1, n, p :: ps => do
    let deg := p :: ps
    let layer := currentLayer (ord n deg)
    let rest ← layerLoop g ord fuel (n + 1) (layer.foldl (takeNode g) deg)
    return layer :: rest

/-- `topological_layers` (graph/mod.rs:507-556). -/
def topologicalLayers (g : Graph) (ord : Nat → List (Str × Nat) → List (Str × Nat)) (fuel : Nat) : Run (List (List Str)) := do
  let deg ← g.edges.foldlM (init := g.nodes.map fun n => (n, 0)) fun deg e => bump deg e.2
  layerLoop g ord fuel 0 deg

end Oaks
