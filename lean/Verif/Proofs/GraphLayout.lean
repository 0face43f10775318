import Verif.Spec.GraphLayout
import Verif.Proofs.Hierarchy
import Verif.Proofs.GraphLayers
import Mathlib.Tactic.Linarith
import Mathlib.Tactic.Ring
import Mathlib.Tactic.FieldSimp
import Mathlib.Algebra.Order.Ring.Abs

/-
Proofs about the graph layouts.
-/
namespace Oaks.Viz
open Oaks Oaks.Viz.Spec

/-- The node of a layout for a node of the graph. -/
def gnodeOf (p : GNode × Rct) : Str × LNode := (p.1.id, ⟨p.1.label, p.2, nodeType p.1.kind⟩)

/-- Adding nodes at given rectangles. -/
def addAll : List (GNode × Rct) → Lay → Lay
  | [], l => l
  | (n, r) :: ps, l => addAll ps (addGNode l n r)

theorem addAll_append : ∀ (a b : List (GNode × Rct)) (l : Lay), addAll (a ++ b) l = addAll b (addAll a l)
  | [], _, _ => rfl
  | (n, r) :: a, b, l => by
    rw [List.cons_append, addAll, addAll, addAll_append a b]

theorem addAll_spec : ∀ (ps : List (GNode × Rct)) (l : Lay), (l.nodes.map Prod.fst ++ ps.map (·.1.id)).Nodup →
    (addAll ps l).nodes = l.nodes ++ ps.map gnodeOf ∧ (addAll ps l).edges = l.edges
  | [], l, _ => by simp [addAll]
  | (n, r) :: ps, l, h => by
    rw [addAll]
    have hnew : (addGNode l n r).nodes = l.nodes ++ [gnodeOf (n, r)] := by
      unfold addGNode Lay.addNode
      rw [updateBounds_nodes]
      refine putEntry_new _ _ _ ?_
      intro hm
      exact (List.nodup_append.1 h).2.2 _ hm _ (by simp) rfl
    have hed : (addGNode l n r).edges = l.edges := by
      unfold addGNode Lay.addNode
      rw [updateBounds_edges]
    obtain ⟨h1, h2⟩ := addAll_spec ps (addGNode l n r) (by
      rw [hnew]
      simpa [gnodeOf] using h)
    rw [h1, h2, hnew, hed]
    simp

theorem nodeType_ofKind (k : Str) : OfKind k (nodeType k) := by
  unfold nodeType
  split
  · assumption
  · split
    · assumption
    · split
      · assumption
      · exact ⟨by assumption, by assumption, by assumption⟩

theorem sizeOf_sized (c : GraphCfg) (n : GNode) : SizedBy c n (c.sizeOf n) := by
  unfold SizedBy GraphCfg.sizeOf
  cases n.size <;> rfl

theorem sized_eq (c : GraphCfg) (n : GNode) (s : Sz) (h : SizedBy c n s) : s = c.sizeOf n := by
  unfold SizedBy at h
  unfold GraphCfg.sizeOf
  cases hs : n.size <;> rw [hs] at h <;> exact h

theorem getEntry_none {V : Type} (k : Str) : ∀ m : Entries V, k ∉ m.map Prod.fst → getEntry k m = none
  | [], _ => rfl
  | (k', v') :: m, h => by
    rw [getEntry]
    rw [List.map_cons, List.mem_cons, not_or] at h
    rw [if_neg (fun e => h.1 e.symm)]
    exact getEntry_none k m h.2

theorem addStraight_nodes : ∀ (es : List GEdge) (l : Lay), (addStraight es l).nodes = l.nodes
  | [], _ => rfl
  | e :: es, l => by
    rw [addStraight]
    split
    · rw [addStraight_nodes es]; rfl
    · exact addStraight_nodes es l

/-- One edge is drawn as it should be. -/
def JoinedOne (ns : Entries LNode) (e : GEdge) (r : LEdge) : Prop :=
  r.src = e.src ∧ r.dst = e.dst ∧ ∃ a b, (e.src, a) ∈ ns ∧ (e.dst, b) ∈ ns ∧ r.points = [middle a.rect, middle b.rect]

theorem addStraight_edges : ∀ (es : List GEdge) (l : Lay), ∃ rs, (addStraight es l).edges = l.edges ++ rs ∧
    List.Forall₂ (JoinedOne l.nodes)
      (es.filter fun e => decide (e.src ∈ l.nodes.map Prod.fst ∧ e.dst ∈ l.nodes.map Prod.fst)) rs ∧ ∀ r ∈ rs, r.label = none
  | [], l => ⟨[], by simp [addStraight], .nil, by simp⟩
  | e :: es, l => by
    rw [addStraight]
    by_cases hs : e.src ∈ l.nodes.map Prod.fst ∧ e.dst ∈ l.nodes.map Prod.fst
    · obtain ⟨a, a1, a2⟩ := getEntry_mem e.src l.nodes hs.1
      obtain ⟨b, b1, b2⟩ := getEntry_mem e.dst l.nodes hs.2
      rw [a1, b1]
      simp only []
      obtain ⟨rs, h1, h2, h3⟩ := addStraight_edges es
        (l.addEdge { LEdge.new e.src e.dst with points := [a.rect.center, b.rect.center] })
      refine ⟨{ LEdge.new e.src e.dst with points := [a.rect.center, b.rect.center] } :: rs, ?_, ?_, ?_⟩
      · rw [h1]; unfold Lay.addEdge; simp
      · rw [List.filter_cons_of_pos (by exact decide_eq_true hs)]
        exact .cons ⟨rfl, rfl, a, b, a2, b2, rfl⟩ h2
      · intro r hr
        rcases List.mem_cons.1 hr with rfl | hr
        · rfl
        · exact h3 r hr
    · obtain ⟨rs, h1, h2, h3⟩ := addStraight_edges es l
      refine ⟨rs, ?_, by rw [List.filter_cons_of_neg (by simpa using hs)]; exact h2, h3⟩
      rw [← h1]
      by_cases h : e.src ∈ l.nodes.map Prod.fst
      · rw [getEntry_none e.dst l.nodes (fun h' => hs ⟨h, h'⟩)]
        cases getEntry e.src l.nodes <;> rfl
      · rw [getEntry_none e.src l.nodes h]

/-- What the drawing is when nodes are placed one after another and then joined. -/
theorem drawing_good (c : GraphCfg) (g : VGraph) (ps : List (GNode × Rct)) (hd : Distinct g) (hp : (ps.map (·.1)).Perm g.nodes)
    (hs : ∀ p ∈ ps, p.2.size = c.sizeOf p.1) :
    (addStraight g.edges (addAll ps Lay.new)).nodes = ps.map gnodeOf ∧
    DrawnAs c (ps.map (·.1)) (addStraight g.edges (addAll ps Lay.new)) ∧ Joined g (addStraight g.edges (addAll ps Lay.new)) := by
  have hn : (ps.map (·.1.id)).Nodup := by
    have := (hp.map GNode.id).nodup_iff.2 hd
    rw [List.map_map] at this
    exact this
  obtain ⟨h1, h2⟩ := addAll_spec ps Lay.new (by simpa [Lay.new] using hn)
  have hnodes : (addStraight g.edges (addAll ps Lay.new)).nodes = ps.map gnodeOf := by
    rw [addStraight_nodes, h1]; simp [Lay.new]
  refine ⟨hnodes, ?_, ?_⟩
  · unfold DrawnAs
    rw [hnodes, List.forall₂_map_left_iff, List.forall₂_map_right_iff, List.forall₂_same]
    intro p hp'
    refine ⟨rfl, rfl, nodeType_ofKind _, ?_⟩
    show SizedBy c p.1 p.2.size
    rw [hs p hp']
    exact sizeOf_sized c p.1
  · obtain ⟨rs, e1, e2, _⟩ := addStraight_edges g.edges (addAll ps Lay.new)
    unfold Joined
    rw [e1, h2, hnodes]
    have hl : (addAll ps Lay.new).nodes = ps.map gnodeOf := by rw [h1]; simp [Lay.new]
    rw [hl] at e2
    have hk : ∀ k, k ∈ (ps.map gnodeOf).map Prod.fst ↔ k ∈ g.nodes.map (·.id) := by
      intro k
      have : (ps.map gnodeOf).map Prod.fst = (ps.map (·.1)).map (·.id) := by simp [gnodeOf]
      rw [this]
      exact (hp.map (·.id)).mem_iff
    have hf : (g.edges.filter fun e => decide (e.src ∈ (ps.map gnodeOf).map Prod.fst ∧ e.dst ∈ (ps.map gnodeOf).map Prod.fst)) =
        g.edges.filter fun e => decide (e.src ∈ g.nodes.map (·.id) ∧ e.dst ∈ g.nodes.map (·.id)) := by
      congr 1
      funext e
      simp only [hk]
    rw [hf] at e2
    exact e2

/-! ### Grid -/

/-- The nodes with their cells. -/
def gridPlaces (c : GraphCfg) (cols i : Nat) : List GNode → List (GNode × Rct)
  | [] => []
  | n :: ns => (n, gridRect c cols i n) :: gridPlaces c cols (i + 1) ns

theorem gridLoop_eq (c : GraphCfg) (cols : Nat) : ∀ (ns : List GNode) (i : Nat) (l : Lay),
    gridLoop c cols i ns l = addAll (gridPlaces c cols i ns) l
  | [], _, _ => rfl
  | n :: ns, i, l => by rw [gridLoop, gridPlaces, addAll, gridLoop_eq c cols ns]

theorem gridPlaces_fst (c : GraphCfg) (cols : Nat) : ∀ (ns : List GNode) (i : Nat), (gridPlaces c cols i ns).map (·.1) = ns
  | [], _ => rfl
  | n :: ns, i => by rw [gridPlaces, List.map_cons, gridPlaces_fst c cols ns]

theorem gridPlaces_get (c : GraphCfg) (cols : Nat) : ∀ (ns : List GNode) (i k : Nat),
    (gridPlaces c cols i ns)[k]? = ns[k]?.map fun n => (n, gridRect c cols (i + k) n)
  | [], _, _ => by simp [gridPlaces]
  | n :: ns, i, 0 => by simp [gridPlaces]
  | n :: ns, i, k + 1 => by
    rw [gridPlaces, List.getElem?_cons_succ, gridPlaces_get c cols ns, List.getElem?_cons_succ]
    congr 3
    funext m
    rw [show i + 1 + k = i + (k + 1) by omega]

theorem gridPlaces_mem (c : GraphCfg) (cols : Nat) (ns : List GNode) (i : Nat) (p : GNode × Rct) (h : p ∈ gridPlaces c cols i ns) :
    ∃ k, ns[k]? = some p.1 ∧ p.2 = gridRect c cols (i + k) p.1 := by
  obtain ⟨k, hk⟩ := List.mem_iff_getElem?.1 h
  rw [gridPlaces_get] at hk
  obtain ⟨n, h1, rfl⟩ := Option.map_eq_some_iff.1 hk
  exact ⟨k, h1, rfl⟩

theorem ceilSqrt_spec (n : Nat) : n ≤ ceilSqrt n * ceilSqrt n ∧ ∀ j, n ≤ j * j → ceilSqrt n ≤ j := by
  unfold ceilSqrt
  have h1 := Nat.sqrt_le n
  have h2 := Nat.lt_succ_sqrt n
  split
  · rename_i h
    refine ⟨h.ge, fun j hj => ?_⟩
    exact Nat.mul_self_le_mul_self_iff.1 (h.le.trans hj)
  · rename_i h
    refine ⟨h2.le, fun j hj => ?_⟩
    by_contra hlt
    have hj' : j ≤ n.sqrt := by omega
    have := Nat.mul_self_le_mul_self hj'
    omega

theorem cell_apart {cols a b : Nat} (hab : a < b) : a % cols < b % cols ∨ b % cols < a % cols ∨ a / cols < b / cols := by
  by_contra h
  push Not at h
  have h1 : a % cols = b % cols := by omega
  have h2 : a / cols ≤ b / cols := Nat.div_le_div_right hab.le
  have h3 : a / cols = b / cols := by omega
  have ha := Nat.div_add_mod a cols
  have hb := Nat.div_add_mod b cols
  rw [h1, h3] at ha
  omega

theorem scaled_le {a b : Nat} {s w : ℚ} (h : a < b) (hs : 0 ≤ s) (hw : w ≤ s) : (a : ℚ) * s + w ≤ (b : ℚ) * s := by
  have : (a : ℚ) + 1 ≤ b := by exact_mod_cast h
  nlinarith

/-! ### Circle -/

/-- The nodes with their places on the circle. -/
def circlePlaces (cos sin : ℚ → ℚ) (c : GraphCfg) (step : ℚ) (i : Nat) : List GNode → List (GNode × Rct)
  | [] => []
  | n :: ns => (n, around ⟨c.radius * cos ((i : ℚ) * step), c.radius * sin ((i : ℚ) * step)⟩ (c.sizeOf n)) ::
      circlePlaces cos sin c step (i + 1) ns

theorem circleLoop_eq (cos sin : ℚ → ℚ) (c : GraphCfg) (step : ℚ) : ∀ (ns : List GNode) (i : Nat) (l : Lay),
    circleLoop cos sin c step i ns l = addAll (circlePlaces cos sin c step i ns) l
  | [], _, _ => rfl
  | n :: ns, i, l => by rw [circleLoop, circlePlaces, addAll, circleLoop_eq cos sin c step ns]

theorem circlePlaces_fst (cos sin : ℚ → ℚ) (c : GraphCfg) (step : ℚ) : ∀ (ns : List GNode) (i : Nat),
    (circlePlaces cos sin c step i ns).map (·.1) = ns
  | [], _ => rfl
  | n :: ns, i => by rw [circlePlaces, List.map_cons, circlePlaces_fst cos sin c step ns]

theorem circlePlaces_get (cos sin : ℚ → ℚ) (c : GraphCfg) (step : ℚ) : ∀ (ns : List GNode) (i k : Nat),
    (circlePlaces cos sin c step i ns)[k]? = ns[k]?.map fun n =>
      (n, around ⟨c.radius * cos (((i + k : Nat) : ℚ) * step), c.radius * sin (((i + k : Nat) : ℚ) * step)⟩ (c.sizeOf n))
  | [], _, _ => by simp [circlePlaces]
  | n :: ns, i, 0 => by simp [circlePlaces]
  | n :: ns, i, k + 1 => by
    rw [circlePlaces, List.getElem?_cons_succ, circlePlaces_get cos sin c step ns, List.getElem?_cons_succ]
    rw [show i + 1 + k = i + (k + 1) by omega]

theorem circlePlaces_mem (cos sin : ℚ → ℚ) (c : GraphCfg) (step : ℚ) (ns : List GNode) (i : Nat) (p : GNode × Rct)
    (h : p ∈ circlePlaces cos sin c step i ns) :
    ∃ k, ns[k]? = some p.1 ∧
      p.2 = around ⟨c.radius * cos (((i + k : Nat) : ℚ) * step), c.radius * sin (((i + k : Nat) : ℚ) * step)⟩ (c.sizeOf p.1) := by
  obtain ⟨k, hk⟩ := List.mem_iff_getElem?.1 h
  rw [circlePlaces_get] at hk
  obtain ⟨n, h1, rfl⟩ := Option.map_eq_some_iff.1 hk
  exact ⟨k, h1, rfl⟩

/-! ### Layers -/

/-- The places of the nodes of one layer, given as nodes. -/
def layerPlaces (c : GraphCfg) (k : Nat) (y : ℚ) (j : Nat) : List GNode → List (GNode × Rct)
  | [] => []
  | n :: ns => (n, layerRect c k j y n) :: layerPlaces c k y (j + 1) ns

/-- The places of all layers. -/
def layersPlaces (c : GraphCfg) (i : Nat) : List (List GNode) → List (GNode × Rct)
  | [] => []
  | layer :: layers => layerPlaces c layer.length ((i : ℚ) * c.layerDistance) 0 layer ++ layersPlaces c (i + 1) layers

theorem layerPlaces_fst (c : GraphCfg) (k : Nat) (y : ℚ) : ∀ (ns : List GNode) (j : Nat), (layerPlaces c k y j ns).map (·.1) = ns
  | [], _ => rfl
  | n :: ns, j => by rw [layerPlaces, List.map_cons, layerPlaces_fst c k y ns]

theorem layersPlaces_fst (c : GraphCfg) : ∀ (ls : List (List GNode)) (i : Nat), (layersPlaces c i ls).map (·.1) = ls.flatten
  | [], _ => rfl
  | l :: ls, i => by rw [layersPlaces, List.map_append, layerPlaces_fst, layersPlaces_fst c ls, List.flatten_cons]

theorem find_gnode (ns : List GNode) (h : (ns.map (·.id)).Nodup) (n : GNode) (hn : n ∈ ns) :
    ns.find? (fun m => decide (m.id = n.id)) = some n := by
  have : ∃ m, ns.find? (fun m => decide (m.id = n.id)) = some m := by
    rw [← Option.isSome_iff_exists, List.find?_isSome]
    exact ⟨n, hn, by simp⟩
  obtain ⟨m, hm⟩ := this
  have h1 := List.mem_of_find?_eq_some hm
  have h2 : m.id = n.id := by simpa using List.find?_some hm
  rw [hm, List.inj_on_of_nodup_map h h1 hn h2]

theorem layerNodes_eq (c : GraphCfg) (g : VGraph) (hd : Distinct g) (k : Nat) (y : ℚ) : ∀ (ns : List GNode) (j : Nat) (l : Lay),
    (∀ n ∈ ns, n ∈ g.nodes) → layerNodes c g k y j (ns.map (·.id)) l = .ok (addAll (layerPlaces c k y j ns) l)
  | [], _, _, _ => rfl
  | n :: ns, j, l, h => by
    rw [List.map_cons, layerNodes, find_gnode g.nodes hd n (h n List.mem_cons_self)]
    simp only []
    rw [layerNodes_eq c g hd k y ns (j + 1) _ (fun m hm => h m (List.mem_cons_of_mem _ hm)), layerPlaces, addAll]

theorem layersLoop_eq (c : GraphCfg) (g : VGraph) (hd : Distinct g) : ∀ (ls : List (List GNode)) (i : Nat) (l : Lay),
    (∀ ns ∈ ls, ∀ n ∈ ns, n ∈ g.nodes) →
    layersLoop c g i (ls.map fun ns => ns.map (·.id)) l = .ok (addAll (layersPlaces c i ls) l)
  | [], _, _, _ => rfl
  | ns :: ls, i, l, h => by
    rw [List.map_cons, layersLoop, List.length_map,
      layerNodes_eq c g hd ns.length _ ns 0 l (h ns List.mem_cons_self)]
    show layersLoop c g (i + 1) _ _ = _
    rw [layersLoop_eq c g hd ls (i + 1) _ (fun m hm => h m (List.mem_cons_of_mem _ hm)), layersPlaces, addAll_append]

/-- Ids of nodes are the ids of nodes. -/
theorem pull_ids (ns : List GNode) : ∀ ids : List Str, (∀ i ∈ ids, i ∈ ns.map (·.id)) →
    ∃ ms : List GNode, ms.map (·.id) = ids ∧ ∀ m ∈ ms, m ∈ ns
  | [], _ => ⟨[], rfl, by simp⟩
  | i :: ids, h => by
    obtain ⟨n, h1, h2⟩ := List.mem_map.1 (h i List.mem_cons_self)
    obtain ⟨ms, h3, h4⟩ := pull_ids ns ids (fun j hj => h j (List.mem_cons_of_mem _ hj))
    refine ⟨n :: ms, by rw [List.map_cons, h2, h3], ?_⟩
    intro m hm
    rcases List.mem_cons.1 hm with rfl | hm
    · exact h1
    · exact h4 m hm

theorem pull_layers (ns : List GNode) : ∀ ls : List (List Str), (∀ ids ∈ ls, ∀ i ∈ ids, i ∈ ns.map (·.id)) →
    ∃ ms : List (List GNode), ms.map (fun l => l.map (·.id)) = ls ∧ ∀ l ∈ ms, ∀ m ∈ l, m ∈ ns
  | [], _ => ⟨[], rfl, by simp⟩
  | ids :: ls, h => by
    obtain ⟨l, h1, h2⟩ := pull_ids ns ids (h ids List.mem_cons_self)
    obtain ⟨ms, h3, h4⟩ := pull_layers ns ls (fun j hj => h j (List.mem_cons_of_mem _ hj))
    refine ⟨l :: ms, by rw [List.map_cons, h1, h3], ?_⟩
    intro m hm
    rcases List.mem_cons.1 hm with rfl | hm
    · exact h2
    · exact h4 m hm

theorem perm_of_ids {ms ns : List GNode} (hn : (ns.map (·.id)).Nodup) (hm : ∀ m ∈ ms, m ∈ ns)
    (hp : (ms.map (·.id)).Perm (ns.map (·.id))) : ms.Perm ns := by
  have h1 : (ms.map (·.id)).Nodup := hp.nodup_iff.2 hn
  have h2 : ms.Nodup := List.Nodup.of_map _ h1
  refine (List.perm_ext_iff_of_nodup h2 (List.Nodup.of_map _ hn)).2 fun n => ⟨hm n, fun h => ?_⟩
  obtain ⟨m, h3, h4⟩ := List.mem_map.1 (hp.mem_iff.2 (List.mem_map_of_mem (f := (·.id)) h))
  rw [List.inj_on_of_nodup_map hn (hm m h3) h h4] at h3
  exact h3

theorem layerPlaces_mem (c : GraphCfg) (k : Nat) (y : ℚ) : ∀ (ns : List GNode) (j : Nat) (p : GNode × Rct),
    p ∈ layerPlaces c k y j ns → p.1 ∈ ns ∧ ∃ i, j ≤ i ∧ p.2 = layerRect c k i y p.1
  | n :: ns, j, p, h => by
    rw [layerPlaces] at h
    rcases List.mem_cons.1 h with rfl | h
    · exact ⟨List.mem_cons_self, j, le_refl _, rfl⟩
    · obtain ⟨h1, i, h2, h3⟩ := layerPlaces_mem c k y ns (j + 1) p h
      exact ⟨List.mem_cons_of_mem _ h1, i, by omega, h3⟩

theorem layersPlaces_mem (c : GraphCfg) : ∀ (ls : List (List GNode)) (i : Nat) (p : GNode × Rct), p ∈ layersPlaces c i ls →
    ∃ k ns, ls[k]? = some ns ∧ p.1 ∈ ns ∧ ∃ a j, p.2 = layerRect c a j (((i + k : Nat) : ℚ) * c.layerDistance) p.1
  | l :: ls, i, p, h => by
    rw [layersPlaces] at h
    rcases List.mem_append.1 h with h | h
    · obtain ⟨h1, j, _, h3⟩ := layerPlaces_mem c _ _ l 0 p h
      exact ⟨0, l, rfl, h1, l.length, j, h3⟩
    · obtain ⟨k, ns, h1, h2, a, j, h3⟩ := layersPlaces_mem c ls (i + 1) p h
      refine ⟨k + 1, ns, h1, h2, a, j, ?_⟩
      rw [h3, show i + 1 + k = i + (k + 1) by omega]

theorem layerPlaces_apart (c : GraphCfg) (k : Nat) (y : ℚ) (hs : 0 ≤ c.nodeWidth + c.spacing) : ∀ (ns : List GNode) (j : Nat),
    (∀ n ∈ ns, (c.sizeOf n).width ≤ c.nodeWidth + c.spacing) →
    (layerPlaces c k y j ns).Pairwise fun p q => Apart p.2 q.2
  | [], _, _ => .nil
  | n :: ns, j, h => by
    rw [layerPlaces]
    refine .cons ?_ (layerPlaces_apart c k y hs ns (j + 1) fun m hm => h m (List.mem_cons_of_mem _ hm))
    intro q hq
    obtain ⟨_, i, hi, hr⟩ := layerPlaces_mem c k y ns (j + 1) q hq
    left
    rw [hr]
    have := scaled_le (a := j) (b := i) (by omega) hs (h n List.mem_cons_self)
    show -((k : ℚ) * (c.nodeWidth + c.spacing)) / 2 + (j : ℚ) * (c.nodeWidth + c.spacing) + (c.sizeOf n).width ≤
      -((k : ℚ) * (c.nodeWidth + c.spacing)) / 2 + (i : ℚ) * (c.nodeWidth + c.spacing)
    linarith

theorem layersPlaces_apart (c : GraphCfg) (hs : 0 ≤ c.nodeWidth + c.spacing) (hl : 0 ≤ c.layerDistance) :
    ∀ (ls : List (List GNode)) (i : Nat),
    (∀ ns ∈ ls, ∀ n ∈ ns, (c.sizeOf n).width ≤ c.nodeWidth + c.spacing ∧ (c.sizeOf n).height ≤ c.layerDistance) →
    (layersPlaces c i ls).Pairwise fun p q => Apart p.2 q.2
  | [], _, _ => .nil
  | ns :: ls, i, h => by
    rw [layersPlaces, List.pairwise_append]
    refine ⟨layerPlaces_apart c _ _ hs ns 0 fun n hn => (h ns List.mem_cons_self n hn).1,
      layersPlaces_apart c hs hl ls (i + 1) fun m hm => h m (List.mem_cons_of_mem _ hm), ?_⟩
    intro p hp q hq
    obtain ⟨h1, j, _, hr⟩ := layerPlaces_mem c _ _ ns 0 p hp
    obtain ⟨k, ms, h2, h3, a, j', hr'⟩ := layersPlaces_mem c ls (i + 1) q hq
    right; right; left
    rw [hr, hr']
    have := scaled_le (a := i) (b := i + 1 + k) (by omega) hl (h ns List.mem_cons_self p.1 h1).2
    exact this

/-! ### Forces -/

/-- The map has entries for these keys. -/
def Has (m : FMap Str Pt) (ids : List Str) : Prop := ∀ i ∈ ids, (m i).isSome

/-- And for no others. -/
def Only (m : FMap Str Pt) (ids : List Str) : Prop := ∀ i, (m i).isSome ↔ i ∈ ids

theorem insert_only (m : FMap Str Pt) (ids : List Str) (h : Only m ids) (i : Str) (hi : i ∈ ids) (p : Pt) : Only (m.insert i p) ids := by
  intro j
  rw [FMap.insert_get]
  split
  · rename_i e; subst e; simp [hi]
  · exact h j

theorem push_ok (m : FMap Str Pt) (ids : List Str) (h : Only m ids) (i : Str) (hi : i ∈ ids) (dx dy : ℚ) :
    ∃ p, m i = some p ∧ push m i dx dy = .ok (m.insert i ⟨p.x + dx, p.y + dy⟩) := by
  obtain ⟨p, hp⟩ := Option.isSome_iff_exists.1 ((h i).2 hi)
  exact ⟨p, hp, by unfold push; rw [hp]⟩

theorem pushPair_ok (m : FMap Str Pt) (ids : List Str) (h : Only m ids) (a b : Str) (ha : a ∈ ids) (hb : b ∈ ids) (f : Pt) :
    ∃ m', pushPair m a b f = .ok m' ∧ Only m' ids := by
  obtain ⟨p, h1, h2⟩ := push_ok m ids h a ha f.x f.y
  have h3 := insert_only m ids h a ha ⟨p.x + f.x, p.y + f.y⟩
  obtain ⟨q, h4, h5⟩ := push_ok _ ids h3 b hb (-f.x) (-f.y)
  refine ⟨_, ?_, insert_only _ ids h3 b hb ⟨q.x + -f.x, q.y + -f.y⟩⟩
  unfold pushPair
  rw [h2]
  exact h5

theorem repelFrom_ok (sqrt : ℚ → ℚ) (c : GraphCfg) (pos : FMap Str Pt) (ids : List Str) (a : Str) (ha : a ∈ ids) :
    ∀ (bs : List Str) (m : FMap Str Pt), (∀ b ∈ bs, b ∈ ids) → Only m ids → ∃ m', repelFrom sqrt c pos a bs m = .ok m' ∧ Only m' ids
  | [], m, _, h => ⟨m, rfl, h⟩
  | b :: bs, m, hb, h => by
    have : ∃ m', repel sqrt c pos a b m = .ok m' ∧ Only m' ids := by
      unfold repel
      split
      · exact pushPair_ok m ids h a b ha (hb b List.mem_cons_self) _
      · exact ⟨m, rfl, h⟩
    obtain ⟨m', h1, h2⟩ := this
    obtain ⟨m'', h3, h4⟩ := repelFrom_ok sqrt c pos ids a ha bs m' (fun x hx => hb x (List.mem_cons_of_mem _ hx)) h2
    exact ⟨m'', by rw [repelFrom, h1]; exact h3, h4⟩

theorem repelAll_ok (sqrt : ℚ → ℚ) (c : GraphCfg) (pos : FMap Str Pt) (ids : List Str) :
    ∀ (as : List Str) (m : FMap Str Pt), (∀ b ∈ as, b ∈ ids) → Only m ids → ∃ m', repelAll sqrt c pos as m = .ok m' ∧ Only m' ids
  | [], m, _, h => ⟨m, rfl, h⟩
  | a :: as, m, hb, h => by
    obtain ⟨m', h1, h2⟩ := repelFrom_ok sqrt c pos ids a (hb a List.mem_cons_self) as m (fun x hx => hb x (List.mem_cons_of_mem _ hx)) h
    obtain ⟨m'', h3, h4⟩ := repelAll_ok sqrt c pos ids as m' (fun x hx => hb x (List.mem_cons_of_mem _ hx)) h2
    exact ⟨m'', by rw [repelAll, h1]; exact h3, h4⟩

theorem attractAll_ok (sqrt : ℚ → ℚ) (c : GraphCfg) (pos : FMap Str Pt) (ids : List Str) (hpos : Only pos ids) :
    ∀ (es : List GEdge) (m : FMap Str Pt), Only m ids → ∃ m', attractAll sqrt c pos es m = .ok m' ∧ Only m' ids
  | [], m, h => ⟨m, rfl, h⟩
  | e :: es, m, h => by
    rw [attractAll]
    cases hp : pos e.src with
    | none => exact attractAll_ok sqrt c pos ids hpos es m h
    | some p =>
      cases hq : pos e.dst with
      | none => exact attractAll_ok sqrt c pos ids hpos es m h
      | some q =>
        simp only []
        split
        · obtain ⟨m', h1, h2⟩ := pushPair_ok m ids h e.src e.dst ((hpos _).1 (by rw [hp]; rfl)) ((hpos _).1 (by rw [hq]; rfl))
            ⟨(q.x - p.x) / distanceTo sqrt p q * (c.spring * (distanceTo sqrt p q - c.idealLength) * e.weight),
              (q.y - p.y) / distanceTo sqrt p q * (c.spring * (distanceTo sqrt p q - c.idealLength) * e.weight)⟩
          rw [h1]
          exact attractAll_ok sqrt c pos ids hpos es m' h2
        · exact attractAll_ok sqrt c pos ids hpos es m h

theorem zeros_only : ∀ (ids : List Str) (m : FMap Str Pt) (js : List Str), Only m js →
    Only (ids.foldl (fun m id => m.insert id ⟨0, 0⟩) m) (js ++ ids)
  | [], m, js, h => by simpa using h
  | i :: ids, m, js, h => by
    rw [List.foldl_cons]
    have := zeros_only ids (m.insert i ⟨0, 0⟩) (js ++ [i]) (by
      intro j
      rw [FMap.insert_get]
      split
      · rename_i e; subst e; simp
      · rename_i e
        rw [h j]; simp [e])
    simpa using this

theorem forces_ok (sqrt : ℚ → ℚ) (c : GraphCfg) (g : VGraph) (pos : FMap Str Pt) (hpos : Only pos (g.nodes.map (·.id))) :
    ∃ m, forces sqrt c g pos = .ok m ∧ Only m (g.nodes.map (·.id)) := by
  have h0 := zeros_only (g.nodes.map (·.id)) FMap.empty [] (by intro j; simp)
  rw [List.nil_append] at h0
  obtain ⟨m, h1, h2⟩ := repelAll_ok sqrt c pos (g.nodes.map (·.id)) (g.nodes.map (·.id)) _ (fun _ h => h) h0
  obtain ⟨m', h3, h4⟩ := attractAll_ok sqrt c pos (g.nodes.map (·.id)) hpos g.edges m h2
  refine ⟨m', ?_, h4⟩
  unfold forces
  show (repelAll sqrt c pos _ _ >>= _) = _
  rw [h1]
  exact h3

/-- Positions and velocities are there for exactly these nodes. -/
def MotionOf (m : Motion) (ids : List Str) : Prop := Only m.pos ids ∧ Only m.vel ids

theorem moveAll_of (sqrt : ℚ → ℚ) (c : GraphCfg) (fs : FMap Str Pt) (ids : List Str) :
    ∀ (as : List Str) (m : Motion), MotionOf m ids → MotionOf (moveAll sqrt c fs as m) ids
  | [], _, h => h
  | a :: as, m, h => by
    rw [moveAll]
    split
    · rename_i f v p hf hv hp
      have ha : a ∈ ids := (h.1 a).1 (by rw [hp]; rfl)
      exact moveAll_of sqrt c fs ids as _ ⟨insert_only _ ids h.1 a ha _, insert_only _ ids h.2 a ha _⟩
    · exact moveAll_of sqrt c fs ids as m h

theorem simulate_ok (sqrt : ℚ → ℚ) (c : GraphCfg) (g : VGraph) : ∀ (n : Nat) (m : Motion), MotionOf m (g.nodes.map (·.id)) →
    ∃ m', simulate sqrt c g n m = .ok m' ∧ MotionOf m' (g.nodes.map (·.id))
  | 0, m, h => ⟨m, rfl, h⟩
  | n + 1, m, h => by
    obtain ⟨fs, h1, _⟩ := forces_ok sqrt c g m.pos h.1
    obtain ⟨m', h2, h3⟩ := simulate_ok sqrt c g n _ (moveAll_of sqrt c fs _ (g.nodes.map (·.id)) m h)
    exact ⟨m', by rw [simulate, h1]; exact h2, h3⟩

theorem startLoop_of (cos sin : ℚ → ℚ) (step : ℚ) : ∀ (ids : List Str) (i : Nat) (m : Motion) (js : List Str), MotionOf m js →
    MotionOf (startLoop cos sin step i ids m) (js ++ ids)
  | [], _, m, js, h => by simpa [startLoop] using h
  | a :: ids, i, m, js, h => by
    rw [startLoop]
    have key : ∀ (m : FMap Str Pt) (p : Pt), Only m js → Only (m.insert a p) (js ++ [a]) := by
      intro m p h j
      rw [FMap.insert_get]
      split
      · rename_i e; subst e; simp
      · rename_i e
        rw [h j]; simp [e]
    have := startLoop_of cos sin step ids (i + 1)
      ⟨m.pos.insert a ⟨100 * cos ((i : ℚ) * step), 100 * sin ((i : ℚ) * step)⟩, m.vel.insert a ⟨0, 0⟩⟩ (js ++ [a])
      ⟨key _ _ h.1, key _ _ h.2⟩
    simpa using this

/-- The nodes around their positions. -/
def forcePlaces (c : GraphCfg) (pos : FMap Str Pt) (ns : List GNode) : List (GNode × Rct) :=
  ns.filterMap fun n => (pos n.id).map fun p => (n, around p (c.sizeOf n))

theorem forceNodes_eq (c : GraphCfg) (pos : FMap Str Pt) : ∀ (ns : List GNode) (l : Lay),
    forceNodes c pos ns l = addAll (forcePlaces c pos ns) l
  | [], _ => rfl
  | n :: ns, l => by
    rw [forceNodes]
    unfold forcePlaces
    rw [List.filterMap_cons]
    cases h : pos n.id with
    | none => exact forceNodes_eq c pos ns l
    | some p =>
      simp only [Option.map_some]
      rw [addAll]
      exact forceNodes_eq c pos ns _

theorem forcePlaces_fst (c : GraphCfg) (pos : FMap Str Pt) : ∀ (ns : List GNode), (∀ n ∈ ns, (pos n.id).isSome) →
    (forcePlaces c pos ns).map (·.1) = ns
  | [], _ => rfl
  | n :: ns, h => by
    obtain ⟨p, hp⟩ := Option.isSome_iff_exists.1 (h n List.mem_cons_self)
    have := forcePlaces_fst c pos ns fun m hm => h m (List.mem_cons_of_mem _ hm)
    unfold forcePlaces at this ⊢
    rw [List.filterMap_cons, hp]
    simp only [Option.map_some, List.map_cons]
    rw [this]

theorem forcePlaces_mem (c : GraphCfg) (pos : FMap Str Pt) (ns : List GNode) (p : GNode × Rct) (h : p ∈ forcePlaces c pos ns) :
    p.1 ∈ ns ∧ ∃ q, pos p.1.id = some q ∧ p.2 = around q (c.sizeOf p.1) := by
  unfold forcePlaces at h
  obtain ⟨n, h1, h2⟩ := List.mem_filterMap.1 h
  obtain ⟨q, h3, rfl⟩ := Option.map_eq_some_iff.1 h2
  exact ⟨h1, q, h3, rfl⟩

theorem middle_around (p : Pt) (s : Sz) : middle (around p s) = p := by
  unfold middle around
  simp

/-! Each node moves once a round, by no more than the greatest velocity. -/

theorem newVelocity_le (sqrt : ℚ → ℚ) (hs : Lengthy sqrt) (c : GraphCfg) (hm : 0 ≤ c.maxVelocity) (v f : Pt) :
    |(newVelocity sqrt c v f).x| ≤ c.maxVelocity ∧ |(newVelocity sqrt c v f).y| ≤ c.maxVelocity := by
  unfold newVelocity
  simp only []
  obtain ⟨h1, h2⟩ := hs (v.x * c.damping + f.x) (v.y * c.damping + f.y)
  split
  · rename_i h
    have hpos := lt_of_le_of_lt hm h
    have key : ∀ x : ℚ, |x| ≤ sqrt ((v.x * c.damping + f.x) * (v.x * c.damping + f.x) + (v.y * c.damping + f.y) * (v.y * c.damping + f.y)) →
        |x * (c.maxVelocity /
          sqrt ((v.x * c.damping + f.x) * (v.x * c.damping + f.x) + (v.y * c.damping + f.y) * (v.y * c.damping + f.y)))| ≤ c.maxVelocity := by
      intro x hx
      rw [abs_mul, abs_of_nonneg (div_nonneg hm hpos.le), ← mul_div_assoc, div_le_iff₀ hpos, mul_comm]
      exact mul_le_mul_of_nonneg_left hx hm
    exact ⟨key _ h1, key _ h2⟩
  · rename_i h
    push Not at h
    exact ⟨h1.trans h, h2.trans h⟩

theorem near_trans {p q r : Pt} {d e : ℚ} (h : Near p q d) (h' : Near q r e) : Near p r (d + e) :=
  ⟨(abs_sub_le _ q.x _).trans (add_le_add h.1 h'.1), (abs_sub_le _ q.y _).trans (add_le_add h.2 h'.2)⟩

theorem moveAll_other (sqrt : ℚ → ℚ) (c : GraphCfg) (fs : FMap Str Pt) (a : Str) : ∀ (as : List Str) (m : Motion), a ∉ as →
    (moveAll sqrt c fs as m).pos a = m.pos a ∧ (moveAll sqrt c fs as m).vel a = m.vel a
  | [], _, _ => ⟨rfl, rfl⟩
  | b :: as, m, h => by
    rw [List.mem_cons, not_or] at h
    rw [moveAll]
    split
    · obtain ⟨h1, h2⟩ := moveAll_other sqrt c fs a as _ h.2
      rw [h1, h2]
      simp only [FMap.insert_get, if_neg h.1]
      exact ⟨trivial, trivial⟩
    · exact moveAll_other sqrt c fs a as m h.2

theorem moveAll_one (sqrt : ℚ → ℚ) (c : GraphCfg) (fs : FMap Str Pt) (a : Str) (f v p : Pt) (hf : fs a = some f) :
    ∀ (as : List Str) (m : Motion), as.Nodup → a ∈ as → m.vel a = some v → m.pos a = some p →
    (moveAll sqrt c fs as m).vel a = some (newVelocity sqrt c v f) ∧
    (moveAll sqrt c fs as m).pos a = some ⟨p.x + (newVelocity sqrt c v f).x, p.y + (newVelocity sqrt c v f).y⟩
  | b :: as, m, hn, ha, hv, hp => by
    rw [List.nodup_cons] at hn
    by_cases e : a = b
    · subst e
      rw [moveAll, hf, hv, hp]
      simp only []
      obtain ⟨h1, h2⟩ := moveAll_other sqrt c fs a as _ hn.1
      rw [h1, h2]
      simp
    · have ha' : a ∈ as := (List.mem_cons.1 ha).resolve_left e
      rw [moveAll]
      split
      · exact moveAll_one sqrt c fs a f v p hf as _ hn.2 ha' (by simp only [FMap.insert_get, if_neg e]; exact hv)
          (by simp only [FMap.insert_get, if_neg e]; exact hp)
      · exact moveAll_one sqrt c fs a f v p hf as m hn.2 ha' hv hp

theorem simulate_near (sqrt : ℚ → ℚ) (hs : Lengthy sqrt) (c : GraphCfg) (hm : 0 ≤ c.maxVelocity) (g : VGraph) (hd : Distinct g) :
    ∀ (n : Nat) (m : Motion), MotionOf m (g.nodes.map (·.id)) → ∀ m', simulate sqrt c g n m = .ok m' → ∀ i p q, m.pos i = some p →
    m'.pos i = some q → Near q p ((n : ℚ) * c.maxVelocity)
  | 0, m, _, m', h, i, p, q, hp, hq => by
    rw [simulate] at h
    cases h
    rw [hp] at hq
    cases hq
    simp [Near]
  | n + 1, m, hof, m', h, i, p, q, hp, hq => by
    obtain ⟨fs, h1, h2⟩ := forces_ok sqrt c g m.pos hof.1
    rw [simulate, h1] at h
    have hi : i ∈ g.nodes.map (·.id) := (hof.1 i).1 (by rw [hp]; rfl)
    obtain ⟨f, hf⟩ := Option.isSome_iff_exists.1 ((h2 i).2 hi)
    obtain ⟨v, hv⟩ := Option.isSome_iff_exists.1 ((hof.2 i).2 hi)
    obtain ⟨_, h4⟩ := moveAll_one sqrt c fs i f v p hf (g.nodes.map GNode.id) m hd hi hv hp
    have ih := simulate_near sqrt hs c hm g hd n (moveAll sqrt c fs (g.nodes.map GNode.id) m)
      (moveAll_of sqrt c fs (g.nodes.map GNode.id) (g.nodes.map GNode.id) m hof) m' h i _ q h4 hq
    obtain ⟨k1, k2⟩ := newVelocity_le sqrt hs c hm v f
    have h5 : Near ⟨p.x + (newVelocity sqrt c v f).x, p.y + (newVelocity sqrt c v f).y⟩ p c.maxVelocity := by
      refine ⟨?_, ?_⟩
      · show |p.x + _ - p.x| ≤ _
        rw [add_sub_cancel_left]; exact k1
      · show |p.y + _ - p.y| ≤ _
        rw [add_sub_cancel_left]; exact k2
    have := near_trans ih h5
    rw [show (((n + 1 : Nat) : ℚ)) * c.maxVelocity = (n : ℚ) * c.maxVelocity + c.maxVelocity by push_cast; ring]
    exact this

theorem startLoop_get (cos sin : ℚ → ℚ) (step : ℚ) : ∀ (ids : List Str) (i : Nat) (m : Motion), ids.Nodup → ∀ k a, ids[k]? = some a →
    (startLoop cos sin step i ids m).pos a =
      some ⟨100 * cos (((i + k : Nat) : ℚ) * step), 100 * sin (((i + k : Nat) : ℚ) * step)⟩ ∧
    (startLoop cos sin step i ids m).vel a = some ⟨0, 0⟩
  | [], _, _, _, _, _, h => by simp at h
  | b :: ids, i, m, hn, 0, a, h => by
    rw [List.nodup_cons] at hn
    have e : b = a := by simpa using h
    subst e
    rw [startLoop]
    have other : ∀ (ids : List Str) (i : Nat) (m : Motion), b ∉ ids →
        (startLoop cos sin step i ids m).pos b = m.pos b ∧ (startLoop cos sin step i ids m).vel b = m.vel b := by
      intro ids
      induction ids with
      | nil => intro i m _; exact ⟨rfl, rfl⟩
      | cons x ids ih =>
        intro i m h
        rw [List.mem_cons, not_or] at h
        rw [startLoop]
        obtain ⟨h1, h2⟩ := ih (i + 1) _ h.2
        rw [h1, h2]
        simp only [FMap.insert_get, if_neg h.1]
        exact ⟨trivial, trivial⟩
    obtain ⟨h1, h2⟩ := other ids (i + 1) _ hn.1
    rw [h1, h2]
    simp
  | b :: ids, i, m, hn, k + 1, a, h => by
    rw [List.nodup_cons] at hn
    rw [startLoop]
    rw [show i + (k + 1) = i + 1 + k by omega]
    exact startLoop_get cos sin step ids (i + 1) _ hn.2 k a (by simpa using h)

/-! Two nodes without an edge. -/

theorem newVelocity_neg (sqrt : ℚ → ℚ) (c : GraphCfg) (v f : Pt) :
    newVelocity sqrt c ⟨-v.x, -v.y⟩ ⟨-f.x, -f.y⟩ = ⟨-(newVelocity sqrt c v f).x, -(newVelocity sqrt c v f).y⟩ := by
  unfold newVelocity
  simp only []
  have e1 : -v.x * c.damping + -f.x = -(v.x * c.damping + f.x) := by ring
  have e2 : -v.y * c.damping + -f.y = -(v.y * c.damping + f.y) := by ring
  rw [e1, e2, neg_mul_neg, neg_mul_neg]
  split
  · rw [neg_mul, neg_mul]
  · rfl

theorem newVelocity_along (sqrt : ℚ → ℚ) (c : GraphCfg) (hm : 0 ≤ c.maxVelocity) (hd : 0 ≤ c.damping) (t r : ℚ) (d : Pt) (ht : 0 ≤ t)
    (hr : 0 ≤ r) : ∃ u, 0 ≤ u ∧ newVelocity sqrt c ⟨t * d.x, t * d.y⟩ ⟨r * d.x, r * d.y⟩ = ⟨u * d.x, u * d.y⟩ := by
  unfold newVelocity
  simp only []
  have e1 : t * d.x * c.damping + r * d.x = (t * c.damping + r) * d.x := by ring
  have e2 : t * d.y * c.damping + r * d.y = (t * c.damping + r) * d.y := by ring
  rw [e1, e2]
  have h0 : 0 ≤ t * c.damping + r := add_nonneg (mul_nonneg ht hd) hr
  split
  · rename_i h
    refine ⟨(t * c.damping + r) * (c.maxVelocity /
      sqrt ((t * c.damping + r) * d.x * ((t * c.damping + r) * d.x) + (t * c.damping + r) * d.y * ((t * c.damping + r) * d.y))),
      mul_nonneg h0 (div_nonneg hm (hm.trans h.le)), ?_⟩
    congr 1 <;> ring
  · exact ⟨_, h0, rfl⟩

theorem forces_two (sqrt : ℚ → ℚ) (c : GraphCfg) (a b : GNode) (dir : Bool) (hab : a.id ≠ b.id) (pos : FMap Str Pt) (p q : Pt)
    (hp : pos a.id = some p) (hq : pos b.id = some q) (hr : 0 ≤ c.repulsion) :
    ∃ fs r, 0 ≤ r ∧ forces sqrt c ⟨[a, b], [], dir⟩ pos = .ok fs ∧ fs a.id = some ⟨r * (p.x - q.x), r * (p.y - q.y)⟩ ∧
      fs b.id = some ⟨-(r * (p.x - q.x)), -(r * (p.y - q.y))⟩ := by
  have hd : 0 < max (distanceTo sqrt p q) 1 := lt_of_lt_of_le one_pos (le_max_right _ _)
  refine ⟨(((FMap.empty.insert a.id ⟨0, 0⟩).insert b.id ⟨0, 0⟩).insert a.id
      ⟨0 + (p.x - q.x) / max (distanceTo sqrt p q) 1 * (c.repulsion / (max (distanceTo sqrt p q) 1 * max (distanceTo sqrt p q) 1)),
       0 + (p.y - q.y) / max (distanceTo sqrt p q) 1 * (c.repulsion / (max (distanceTo sqrt p q) 1 * max (distanceTo sqrt p q) 1))⟩).insert b.id
      ⟨0 + -((p.x - q.x) / max (distanceTo sqrt p q) 1 * (c.repulsion / (max (distanceTo sqrt p q) 1 * max (distanceTo sqrt p q) 1))),
       0 + -((p.y - q.y) / max (distanceTo sqrt p q) 1 * (c.repulsion / (max (distanceTo sqrt p q) 1 * max (distanceTo sqrt p q) 1)))⟩,
    (max (distanceTo sqrt p q) 1)⁻¹ *
    (c.repulsion / (max (distanceTo sqrt p q) 1 * max (distanceTo sqrt p q) 1)), ?_, ?_, ?_, ?_⟩
  · exact mul_nonneg (inv_nonneg.2 hd.le) (div_nonneg hr (mul_nonneg hd.le hd.le))
  · unfold forces
    simp [repelAll, repelFrom, repel, hp, hq, pushPair, push, attractAll, hab, Ne.symm hab, bind, Except.bind, FMap.insert_get]
  · rw [FMap.insert_get, if_neg hab, FMap.insert_get, if_pos rfl]
    congr 2 <;> ring
  · rw [FMap.insert_get, if_pos rfl]
    congr 2 <;> ring

theorem simulate_two (sqrt : ℚ → ℚ) (c : GraphCfg) (a b : GNode) (dir : Bool) (hab : a.id ≠ b.id) (hr : 0 ≤ c.repulsion)
    (hd : 0 ≤ c.damping) (hm : 0 ≤ c.maxVelocity) (d : Pt) : ∀ (n : Nat) (m : Motion) (p q : Pt) (s t : ℚ), 0 ≤ t → 0 ≤ s →
    m.pos a.id = some p → m.pos b.id = some q → m.vel a.id = some ⟨t * d.x, t * d.y⟩ → m.vel b.id = some ⟨-(t * d.x), -(t * d.y)⟩ →
    p.x - q.x = s * d.x → p.y - q.y = s * d.y →
    ∃ m' p' q' s', simulate sqrt c ⟨[a, b], [], dir⟩ n m = .ok m' ∧ m'.pos a.id = some p' ∧ m'.pos b.id = some q' ∧ s ≤ s' ∧
      p'.x - q'.x = s' * d.x ∧ p'.y - q'.y = s' * d.y ∧ p'.x + q'.x = p.x + q.x ∧ p'.y + q'.y = p.y + q.y
  | 0, m, p, q, s, t, _, _, hp, hq, _, _, hx, hy => ⟨m, p, q, s, rfl, hp, hq, le_refl _, hx, hy, rfl, rfl⟩
  | n + 1, m, p, q, s, t, ht, hs, hp, hq, hv, hw, hx, hy => by
    obtain ⟨fs, r, h0, h1, h2, h3⟩ := forces_two sqrt c a b dir hab m.pos p q hp hq hr
    have e2 : fs a.id = some ⟨(r * s) * d.x, (r * s) * d.y⟩ := by rw [h2, hx, hy]; congr 2 <;> ring
    have e3 : fs b.id = some ⟨-((r * s) * d.x), -((r * s) * d.y)⟩ := by rw [h3, hx, hy]; congr 2 <;> ring
    obtain ⟨u, hu, k1⟩ := newVelocity_along sqrt c hm hd t (r * s) d ht (mul_nonneg h0 hs)
    have k2 := newVelocity_neg sqrt c ⟨t * d.x, t * d.y⟩ ⟨(r * s) * d.x, (r * s) * d.y⟩
    simp only [] at k2
    rw [k1] at k2
    have hn : ([a.id, b.id] : List Str).Nodup := by simp [hab]
    obtain ⟨a1, a2⟩ := moveAll_one sqrt c fs a.id _ _ p e2 [a.id, b.id] m hn (by simp) hv hp
    obtain ⟨b1, b2⟩ := moveAll_one sqrt c fs b.id _ _ q e3 [a.id, b.id] m hn (by simp) hw hq
    rw [k1] at a1 a2
    rw [k2] at b1 b2
    obtain ⟨m', p', q', s', r1, r2, r3, r4, r5, r6, r7, r8⟩ := simulate_two sqrt c a b dir hab hr hd hm d n
      (moveAll sqrt c fs [a.id, b.id] m) _ _ (s + 2 * u) u hu (by linarith) a2 b2 a1 b1
      (by simp only []; linarith) (by simp only []; linarith)
    refine ⟨m', p', q', s', ?_, r2, r3, by linarith, r5, r6, ?_, ?_⟩
    · rw [simulate, h1]; exact r1
    · rw [r7]; show p.x + u * d.x + (q.x + -(u * d.x)) = _; ring
    · rw [r8]; show p.y + u * d.y + (q.y + -(u * d.y)) = _; ring

/-! Two nodes with an edge. -/

/-- What moves one of two joined nodes, for each unit of the vector from the other to it. -/
def pairForce (sqrt : ℚ → ℚ) (c : GraphCfg) (w : ℚ) (p q : Pt) : ℚ :=
  c.repulsion / max (distanceTo sqrt p q) 1 ^ 3 - c.spring * (distanceTo sqrt p q - c.idealLength) * w / distanceTo sqrt p q

theorem forces_joined (sqrt : ℚ → ℚ) (c : GraphCfg) (a b : GNode) (lab : Option Str) (w : ℚ) (dir : Bool) (hab : a.id ≠ b.id)
    (pos : FMap Str Pt) (p q : Pt) (hp : pos a.id = some p) (hq : pos b.id = some q) (hd : 0 < distanceTo sqrt p q) :
    ∃ fs, forces sqrt c ⟨[a, b], [⟨a.id, b.id, lab, w⟩], dir⟩ pos = .ok fs ∧
      fs a.id = some ⟨pairForce sqrt c w p q * (p.x - q.x), pairForce sqrt c w p q * (p.y - q.y)⟩ ∧
      fs b.id = some ⟨-(pairForce sqrt c w p q * (p.x - q.x)), -(pairForce sqrt c w p q * (p.y - q.y))⟩ := by
  have hm : (0 : ℚ) < max (distanceTo sqrt p q) 1 := lt_of_lt_of_le one_pos (le_max_right _ _)
  unfold forces
  simp only [List.map_cons, List.map_nil, List.foldl_cons, List.foldl_nil, repelAll, repelFrom, repel, hp, hq, pushPair, push, attractAll, bind,
    Except.bind, FMap.insert_get, if_neg hab, if_neg (Ne.symm hab), if_true, if_pos hd]
  refine ⟨_, rfl, ?_, ?_⟩
  · simp only [FMap.insert_get, if_neg hab, if_true]
    unfold pairForce
    congr 2 <;> · field_simp; ring
  · simp only [FMap.insert_get, if_true]
    unfold pairForce
    congr 2 <;> · field_simp; ring

theorem newVelocity_rest (sqrt : ℚ → ℚ) (c : GraphCfg) (hm : 0 ≤ c.maxVelocity) (f : Pt) :
    ∃ s, 0 ≤ s ∧ s ≤ 1 ∧ (sqrt (f.x * f.x + f.y * f.y) ≤ c.maxVelocity → s = 1) ∧ newVelocity sqrt c ⟨0, 0⟩ f = ⟨s * f.x, s * f.y⟩ := by
  unfold newVelocity
  simp only [zero_mul, zero_add]
  split
  · rename_i h
    have h0 := hm.trans_lt h
    refine ⟨c.maxVelocity / sqrt (f.x * f.x + f.y * f.y), div_nonneg hm h0.le, (div_le_one₀ h0).2 h.le, fun h' => absurd h (not_lt.2 h'), ?_⟩
    congr 1 <;> ring
  · exact ⟨1, zero_le_one, le_refl _, fun _ => rfl, by simp⟩

theorem simulate_joined (sqrt : ℚ → ℚ) (c : GraphCfg) (a b : GNode) (lab : Option Str) (w : ℚ) (dir : Bool) (hab : a.id ≠ b.id)
    (hm : 0 ≤ c.maxVelocity) (m : Motion) (p q : Pt) (hp : m.pos a.id = some p) (hq : m.pos b.id = some q)
    (hv : m.vel a.id = some ⟨0, 0⟩) (hw : m.vel b.id = some ⟨0, 0⟩) (hd : 0 < distanceTo sqrt p q) :
    ∃ m' p' q' s, simulate sqrt c ⟨[a, b], [⟨a.id, b.id, lab, w⟩], dir⟩ 1 m = .ok m' ∧ m'.pos a.id = some p' ∧ m'.pos b.id = some q' ∧
      0 ≤ s ∧ s ≤ 1 ∧ (sqrt (pairForce sqrt c w p q * (p.x - q.x) * (pairForce sqrt c w p q * (p.x - q.x)) +
        pairForce sqrt c w p q * (p.y - q.y) * (pairForce sqrt c w p q * (p.y - q.y))) ≤ c.maxVelocity → s = 1) ∧
      p'.x = p.x + s * pairForce sqrt c w p q * (p.x - q.x) ∧ p'.y = p.y + s * pairForce sqrt c w p q * (p.y - q.y) ∧
      q'.x = q.x - s * pairForce sqrt c w p q * (p.x - q.x) ∧ q'.y = q.y - s * pairForce sqrt c w p q * (p.y - q.y) := by
  obtain ⟨fs, h1, h2, h3⟩ := forces_joined sqrt c a b lab w dir hab m.pos p q hp hq hd
  obtain ⟨s, s0, s1, s2, k1⟩ := newVelocity_rest sqrt c hm ⟨pairForce sqrt c w p q * (p.x - q.x), pairForce sqrt c w p q * (p.y - q.y)⟩
  have k2 := newVelocity_neg sqrt c ⟨0, 0⟩ ⟨pairForce sqrt c w p q * (p.x - q.x), pairForce sqrt c w p q * (p.y - q.y)⟩
  simp only [neg_zero] at k2
  rw [k1] at k2
  have hn : ([a.id, b.id] : List Str).Nodup := by simp [hab]
  obtain ⟨_, a2⟩ := moveAll_one sqrt c fs a.id _ _ p h2 [a.id, b.id] m hn (by simp) hv hp
  obtain ⟨_, b2⟩ := moveAll_one sqrt c fs b.id _ _ q h3 [a.id, b.id] m hn (by simp) hw hq
  rw [k1] at a2
  rw [k2] at b2
  refine ⟨_, _, _, s, ?_, a2, b2, s0, s1, s2, ?_, ?_, ?_, ?_⟩
  · rw [simulate, h1]; rfl
  · simp only []; ring
  · simp only []; ring
  · simp only []; ring
  · simp only []; ring

/-! ### The layouts -/

theorem layers_nodes (c : GraphCfg) (g : VGraph) (hd : Distinct g) (hn : g.nodes ≠ []) (layers : List (List Str)) (ord)
    (hl : topologicalLayers g.plain ord g.nodes.length = .ok layers) (hp : layers.flatten.Perm g.plain.nodes) :
    ∃ ms : List (List GNode), ms.map (fun l => l.map (·.id)) = layers ∧ (∀ l ∈ ms, ∀ m ∈ l, m ∈ g.nodes) ∧
      ((layersPlaces c 0 ms).map (·.1)).Perm g.nodes ∧
      layersLayout c ord g.nodes.length g = .ok (addStraight g.edges (addAll (layersPlaces c 0 ms) Lay.new)) := by
  obtain ⟨ms, h1, h2⟩ := pull_layers g.nodes layers (by
    intro ids hids i hi
    exact hp.mem_iff.1 (List.mem_flatten.2 ⟨ids, hids, hi⟩))
  refine ⟨ms, h1, h2, ?_, ?_⟩
  · rw [layersPlaces_fst]
    refine perm_of_ids hd (fun m hm => ?_) ?_
    · obtain ⟨l, h3, h4⟩ := List.mem_flatten.1 hm
      exact h2 l h3 m h4
    · rw [List.map_flatten, h1]
      exact hp
  · unfold layersLayout
    rw [if_neg (by simpa using hn), hl]
    show (layersLoop c g 0 layers Lay.new >>= _) = _
    rw [← h1, layersLoop_eq c g hd ms 0 Lay.new h2]
    rfl

theorem force_runs (cos sin sqrt : ℚ → ℚ) (pi : ℚ) (c : GraphCfg) (g : VGraph) (hn : g.nodes ≠ []) :
    ∃ m, simulate sqrt c g c.iterations
        (startLoop cos sin (2 * pi / g.nodes.length) 0 (g.nodes.map GNode.id) ⟨FMap.empty, FMap.empty⟩) = .ok m ∧
      MotionOf m (g.nodes.map (·.id)) ∧
      forceLayout cos sin sqrt pi c g = .ok (addStraight g.edges (addAll (forcePlaces c m.pos g.nodes) Lay.new)) ∧
      (forcePlaces c m.pos g.nodes).map (·.1) = g.nodes := by
  have h0 := startLoop_of cos sin (2 * pi / g.nodes.length) (g.nodes.map GNode.id) 0 ⟨FMap.empty, FMap.empty⟩ []
    ⟨by intro j; simp, by intro j; simp⟩
  rw [List.nil_append] at h0
  obtain ⟨m, h1, h2⟩ := simulate_ok sqrt c g c.iterations _ h0
  refine ⟨m, h1, h2, ?_, ?_⟩
  · unfold forceLayout
    rw [if_neg (by simpa using hn)]
    show (simulate sqrt c g c.iterations _ >>= _) = _
    rw [h1, ← forceNodes_eq]
    rfl
  · exact forcePlaces_fst c m.pos g.nodes fun n hn' => (h2.1 n.id).2 (List.mem_map_of_mem hn')

end Oaks.Viz
