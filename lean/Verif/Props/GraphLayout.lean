import Verif.Proofs.GraphLayout
import Verif.Props.Graph
import Mathlib.Tactic.LinearCombination

/-!
C75: the drawings of graphs show every node and every edge, and the nodes are where the kind of drawing says.
-/

namespace Oaks.Viz.Props
open Oaks Oaks.Viz Oaks.Viz.Spec

/-- No nodes, no drawing. -/
theorem empty_good (c : GraphCfg) (g : VGraph) (h : g.nodes = []) : Drawn c g.nodes Lay.new ∧ Joined g Lay.new := by
  rw [h]
  refine ⟨⟨[], .refl _, .nil⟩, ?_⟩
  unfold Joined
  rw [h]
  simp [Lay.new]

/-- C75 (partial): whatever the algorithm, the configuration, the order of the tables and the functions used for the cosine, the
sine and the square root, the layout is made, without a panic, and it shows each node exactly once, with its own label, type and
size, and each edge between two nodes as a line from the middle of one to the middle of the other. Missing, see the witnesses:
layers with an edge to a node that does not exist, labels of the edges, the same drawing each time. -/
theorem C75_drawn_partial (cos sin sqrt : ℚ → ℚ) (pi : ℚ) (alg : GraphAlg) (c : GraphCfg) (g : VGraph) (hd : Distinct g)
    (ht : alg = .layers → TargetsKnown g) (ord : Nat → List (Str × Nat) → List (Str × Nat)) (hord : ∀ n l, (ord n l).Perm l) :
    ∃ l, layoutGraph cos sin sqrt pi ord g.nodes.length alg c g = .ok l ∧ Drawn c g.nodes l ∧ Joined g l := by
  by_cases hn : g.nodes = []
  · obtain ⟨h1, h2⟩ := empty_good c g hn
    refine ⟨Lay.new, ?_, h1, h2⟩
    unfold layoutGraph organicLayout forceLayout circularLayout layersLayout gridLayout
    rw [if_pos (by simp [hn])]
    cases alg <;> simp [hn]
  · have force : ∀ c' : GraphCfg, (∀ n, c'.sizeOf n = c.sizeOf n) →
        ∃ l, forceLayout cos sin sqrt pi c' g = .ok l ∧ Drawn c g.nodes l ∧ Joined g l := by
      intro c' hc
      obtain ⟨m, _, _, h3, h4⟩ := force_runs cos sin sqrt pi c' g hn
      obtain ⟨_, g2, g3⟩ := drawing_good c g (forcePlaces c' m.pos g.nodes) hd (by rw [h4]) (by
        intro p hp
        obtain ⟨_, q, _, h⟩ := forcePlaces_mem c' m.pos g.nodes p hp
        rw [h]
        exact hc p.1)
      exact ⟨_, h3, ⟨_, by rw [h4], g2⟩, g3⟩
    cases alg with
    | force => exact force c fun _ => rfl
    | organic => exact force _ fun _ => rfl
    | circular =>
      obtain ⟨_, g2, g3⟩ := drawing_good c g (circlePlaces cos sin c (2 * pi / g.nodes.length) 0 g.nodes) hd
        (by rw [circlePlaces_fst]) (by
        intro p hp
        obtain ⟨k, _, h⟩ := circlePlaces_mem cos sin c _ g.nodes 0 p hp
        rw [h]
        rfl)
      refine ⟨_, ?_, ⟨_, by rw [circlePlaces_fst], g2⟩, g3⟩
      unfold layoutGraph circularLayout
      rw [if_neg (by simpa using hn), circleLoop_eq]
    | grid =>
      obtain ⟨_, g2, g3⟩ := drawing_good c g (gridPlaces c (ceilSqrt g.nodes.length) 0 g.nodes) hd
        (by rw [gridPlaces_fst]) (by
        intro p hp
        obtain ⟨k, _, h⟩ := gridPlaces_mem c _ g.nodes 0 p hp
        rw [h]
        rfl)
      refine ⟨_, ?_, ⟨_, by rw [gridPlaces_fst], g2⟩, g3⟩
      unfold layoutGraph gridLayout
      rw [if_neg (by simpa using hn), gridLoop_eq]
    | layers =>
      obtain ⟨layers, l1, l2, _⟩ := Oaks.Props.C47_layers g.plain hd (by
        intro e he
        obtain ⟨e', h1, rfl⟩ := List.mem_map.1 he
        exact ht rfl e' h1) ord hord
      obtain ⟨ms, _, _, h3, h4⟩ := layers_nodes c g hd hn layers ord (by simpa [VGraph.plain] using l1) l2
      obtain ⟨_, g2, g3⟩ := drawing_good c g (layersPlaces c 0 ms) hd h3 (by
        intro p hp
        obtain ⟨k, ns, _, _, a, j, h⟩ := layersPlaces_mem c ms 0 p hp
        rw [h]
        rfl)
      exact ⟨_, h4, ⟨_, h3, g2⟩, g3⟩

/-- Two nodes and two edges, one of which leads nowhere. -/
def sampleGraph : VGraph :=
  ⟨[⟨['a'], "start".toList, "function".toList, none⟩, ⟨['b'], "end".toList, "struct".toList, some ⟨30, 20⟩⟩],
    [⟨['a'], ['b'], some "then".toList, 1⟩, ⟨['a'], ['x'], none, 1⟩], true⟩

/-- Beside `C75_drawn_partial`: the hypotheses are met, and what is drawn is two nodes and one line. -/
theorem drawn_example : Distinct sampleGraph ∧
    (gridLayout GraphCfg.std sampleGraph).nodes.map Prod.fst = [['a'], ['b']] ∧
    (gridLayout GraphCfg.std sampleGraph).edges.map (·.dst) = [['b']] := by
  unfold Distinct
  decide +kernel

/-- C75, grid: with the least number of columns such that the square has room for all nodes, each node is in its own cell, counted
along the rows. -/
theorem C75_grid (c : GraphCfg) (g : VGraph) (hd : Distinct g) :
    ∃ k, (g.nodes.length ≤ k * k ∧ ∀ j, g.nodes.length ≤ j * j → k ≤ j) ∧ DrawnAs c g.nodes (gridLayout c g) ∧
      ∀ (i : Nat) (e : Str × LNode), (gridLayout c g).nodes[i]? = some e →
        e.2.rect.origin = ⟨((i % k : Nat) : ℚ) * (c.nodeWidth + c.spacing), ((i / k : Nat) : ℚ) * (c.nodeHeight + c.spacing)⟩ := by
  refine ⟨ceilSqrt g.nodes.length, ceilSqrt_spec _, ?_⟩
  by_cases hn : g.nodes = []
  · unfold gridLayout
    rw [if_pos (by simp [hn]), hn]
    exact ⟨.nil, by intro i e h; simp [Lay.new] at h⟩
  · obtain ⟨g1, g2, _⟩ := drawing_good c g (gridPlaces c (ceilSqrt g.nodes.length) 0 g.nodes) hd
      (by rw [gridPlaces_fst]) (by
      intro p hp
      obtain ⟨k, _, h⟩ := gridPlaces_mem c _ g.nodes 0 p hp
      rw [h]
      rfl)
    unfold gridLayout
    rw [if_neg (by simpa using hn), gridLoop_eq]
    rw [gridPlaces_fst] at g2
    refine ⟨g2, ?_⟩
    intro i e h
    rw [g1, List.getElem?_map, gridPlaces_get, Option.map_map, Option.map_eq_some_iff] at h
    obtain ⟨n, _, rfl⟩ := h
    show (gridRect c _ (0 + i) n).origin = _
    rw [Nat.zero_add]
    rfl

/-- C75, grid: nodes that are no larger than the cells do not overlap. -/
theorem C75_grid_clear (c : GraphCfg) (g : VGraph) (hd : Distinct g) (hw : 0 ≤ c.nodeWidth + c.spacing)
    (hh : 0 ≤ c.nodeHeight + c.spacing) (hf : FitIn c g (c.nodeWidth + c.spacing) (c.nodeHeight + c.spacing)) :
    Clear (gridLayout c g) := by
  obtain ⟨k, _, h2, h3⟩ := C75_grid c g hd
  unfold Clear
  rw [List.pairwise_map, List.pairwise_iff_getElem]
  intro i j hi hj hij
  have e1 := h3 i _ (List.getElem?_eq_getElem hi)
  have e2 := h3 j _ (List.getElem?_eq_getElem hj)
  have size : ∀ (i : Nat) (hi : i < (gridLayout c g).nodes.length),
      (gridLayout c g).nodes[i].2.rect.size.width ≤ c.nodeWidth + c.spacing ∧
      (gridLayout c g).nodes[i].2.rect.size.height ≤ c.nodeHeight + c.spacing := by
    intro i hi
    have hlen := h2.length_eq
    have := List.forall₂_iff_get.1 h2 |>.2 i (by omega) hi
    exact hf _ (List.get_mem _ _) _ this.2.2.2
  unfold Apart
  rw [e1, e2]
  rcases cell_apart (cols := k) hij with h | h | h
  · exact .inl (scaled_le h hw (size i hi).1)
  · exact .inr (.inl (scaled_le h hw (size j hj).1))
  · exact .inr (.inr (.inl (scaled_le h hh (size i hi).2)))

/-- Beside `C75_grid_clear`: the graph above fits. -/
theorem grid_example : FitIn GraphCfg.std sampleGraph (GraphCfg.std.nodeWidth + GraphCfg.std.spacing)
    (GraphCfg.std.nodeHeight + GraphCfg.std.spacing) ∧ Clear (gridLayout GraphCfg.std sampleGraph) := by
  have hf : FitIn GraphCfg.std sampleGraph (GraphCfg.std.nodeWidth + GraphCfg.std.spacing)
      (GraphCfg.std.nodeHeight + GraphCfg.std.spacing) := by
    intro n hn s hs
    rw [sized_eq _ _ _ hs]
    have : ∀ n ∈ sampleGraph.nodes, (GraphCfg.std.sizeOf n).width ≤ GraphCfg.std.nodeWidth + GraphCfg.std.spacing ∧
      (GraphCfg.std.sizeOf n).height ≤ GraphCfg.std.nodeHeight + GraphCfg.std.spacing := by decide +kernel
    exact this n hn
  exact ⟨hf, C75_grid_clear _ _ (by unfold Distinct; decide +kernel) (by decide +kernel) (by decide +kernel) hf⟩

/-- C75, layers: nodes that are no wider than their places and no higher than the layers do not overlap, also when the graph has
cycles. -/
theorem C75_layers_clear (c : GraphCfg) (g : VGraph) (hd : Distinct g) (ht : TargetsKnown g) (hw : 0 ≤ c.nodeWidth + c.spacing)
    (hh : 0 ≤ c.layerDistance) (hf : FitIn c g (c.nodeWidth + c.spacing) c.layerDistance)
    (ord : Nat → List (Str × Nat) → List (Str × Nat)) (hord : ∀ n l, (ord n l).Perm l) :
    ∃ l, layersLayout c ord g.nodes.length g = .ok l ∧ Clear l := by
  by_cases hn : g.nodes = []
  · refine ⟨Lay.new, ?_, .nil⟩
    unfold layersLayout
    rw [if_pos (by simp [hn])]
  · obtain ⟨layers, l1, l2, _⟩ := Oaks.Props.C47_layers g.plain hd (by
      intro e he
      obtain ⟨e', h1, rfl⟩ := List.mem_map.1 he
      exact ht e' h1) ord hord
    obtain ⟨ms, _, h2, h3, h4⟩ := layers_nodes c g hd hn layers ord (by simpa [VGraph.plain] using l1) l2
    obtain ⟨g1, _, _⟩ := drawing_good c g (layersPlaces c 0 ms) hd h3 (by
      intro p hp
      obtain ⟨k, ns, _, _, a, j, h⟩ := layersPlaces_mem c ms 0 p hp
      rw [h]
      rfl)
    refine ⟨_, h4, ?_⟩
    unfold Clear
    rw [g1, List.pairwise_map, List.pairwise_map]
    exact layersPlaces_apart c hw hh ms 0 fun ns hns n hn' => hf n (h2 ns hns n hn') _ (sizeOf_sized c n)

/-- C75, layers: in a graph without cycles every edge goes down by at least the distance of the layers. -/
theorem C75_layers_down (c : GraphCfg) (g : VGraph) (hd : Distinct g) (he : EndsKnown g) (ha : NoCycle g) (hh : 0 ≤ c.layerDistance)
    (ord : Nat → List (Str × Nat) → List (Str × Nat)) (hord : ∀ n l, (ord n l).Perm l) :
    ∃ l, layersLayout c ord g.nodes.length g = .ok l ∧ ∀ e ∈ g.edges, ∃ a b, (e.src, a) ∈ l.nodes ∧ (e.dst, b) ∈ l.nodes ∧
      a.rect.origin.y + c.layerDistance ≤ b.rect.origin.y := by
  by_cases hn : g.nodes = []
  · refine ⟨Lay.new, ?_, ?_⟩
    · unfold layersLayout
      rw [if_pos (by simp [hn])]
    · intro e h
      have := (he e h).1
      rw [hn] at this
      simp at this
  · obtain ⟨layers, l1, l2, l3⟩ := Oaks.Props.C47_layers_edges g.plain
      ⟨hd, by
        intro e h
        obtain ⟨e', h1, rfl⟩ := List.mem_map.1 h
        exact he e' h1⟩ (by
      intro v hv
      refine ha v (Relation.TransGen.mono (fun a b hab => ?_) v v hv)
      obtain ⟨e, h1, h2⟩ := List.mem_map.1 hab
      cases h2
      exact ⟨e, h1, rfl, rfl⟩) ord hord
    obtain ⟨ms, h1, h2, h3, h4⟩ := layers_nodes c g hd hn layers ord (by simpa [VGraph.plain] using l1) l2
    obtain ⟨g1, _, _⟩ := drawing_good c g (layersPlaces c 0 ms) hd h3 (by
      intro p hp
      obtain ⟨k, ns, _, _, a, j, h⟩ := layersPlaces_mem c ms 0 p hp
      rw [h]
      rfl)
    refine ⟨_, h4, ?_⟩
    intro e hmem
    obtain ⟨i, j, ⟨la, hi, hia⟩, ⟨lb, hj, hjb⟩, hij⟩ := l3 e.src e.dst (List.mem_map.2 ⟨e, hmem, rfl⟩)
    -- a node of a layer is drawn on the height of that layer
    have height : ∀ (i : Nat) (la : List Str) (v : Str), layers[i]? = some la → v ∈ la →
        ∃ a, (v, a) ∈ (layersPlaces c 0 ms).map gnodeOf ∧ a.rect.origin.y = (i : ℚ) * c.layerDistance := by
      intro i la v hi hv
      rw [← h1, List.getElem?_map, Option.map_eq_some_iff] at hi
      obtain ⟨ns, hi, rfl⟩ := hi
      obtain ⟨n, hn1, rfl⟩ := List.mem_map.1 hv
      have hm : n ∈ (layersPlaces c 0 ms).map (·.1) := by
        rw [layersPlaces_fst]
        exact List.mem_flatten.2 ⟨ns, List.mem_of_getElem? hi, hn1⟩
      obtain ⟨p, hp, rfl⟩ := List.mem_map.1 hm
      refine ⟨_, List.mem_map.2 ⟨p, hp, rfl⟩, ?_⟩
      obtain ⟨k, ns', k1, k2, a, j, k3⟩ := layersPlaces_mem c ms 0 p hp
      show p.2.origin.y = _
      rw [k3]
      have hnd : ms.flatten.Nodup := by
        have : ((ms.flatten).map GNode.id).Nodup := by
          rw [List.map_flatten, h1]
          exact l2.nodup_iff.2 hd
        exact List.Nodup.of_map _ this
      have : k = i := by
        by_contra hne
        have hdj := (List.nodup_flatten.1 hnd).2
        rw [List.pairwise_iff_getElem] at hdj
        obtain ⟨b1, e1⟩ := List.getElem?_eq_some_iff.1 k1
        obtain ⟨b2, e2⟩ := List.getElem?_eq_some_iff.1 hi
        rcases Nat.lt_or_gt_of_ne hne with h | h
        · have := hdj k i b1 b2 h
          rw [e1, e2] at this
          exact this k2 hn1
        · have := hdj i k b2 b1 h
          rw [e1, e2] at this
          exact this hn1 k2
      subst this
      show (((0 + k : Nat) : ℚ)) * c.layerDistance = _
      rw [Nat.zero_add]
    obtain ⟨a, a1, a2⟩ := height i la e.src hi hia
    obtain ⟨b, b1, b2⟩ := height j lb e.dst hj hjb
    refine ⟨a, b, by rw [g1]; exact a1, by rw [g1]; exact b1, ?_⟩
    rw [a2, b2]
    exact scaled_le hij hh (le_refl _)

/-- A chain of three nodes, listed the other way round. -/
def chainGraph : VGraph :=
  ⟨[⟨['c'], [], [], none⟩, ⟨['b'], [], [], none⟩, ⟨['a'], [], [], none⟩], [⟨['b'], ['c'], none, 1⟩, ⟨['a'], ['b'], none, 1⟩], true⟩

/-- Beside `C75_layers_clear` and `C75_layers_down`: the hypotheses are met. -/
theorem layers_example : Distinct chainGraph ∧ EndsKnown chainGraph ∧ TargetsKnown chainGraph ∧
    NoCycle chainGraph := by
  refine ⟨by unfold Distinct; decide +kernel, by unfold EndsKnown; decide +kernel, by unfold TargetsKnown; decide +kernel, ?_⟩
  have h1 : ∀ a b : Str, Relation.TransGen (fun a b => ∃ e ∈ chainGraph.edges, e.src = a ∧ e.dst = b) a b →
      (a.headD ' ').toNat < (b.headD ' ').toNat := by
    intro a b h
    have one : ∀ e ∈ chainGraph.edges, (e.src.headD ' ').toNat < (e.dst.headD ' ').toNat := by decide +kernel
    induction h with
    | single h =>
      obtain ⟨e, h1, rfl, rfl⟩ := h
      exact one e h1
    | tail _ h ih =>
      obtain ⟨e, h1, rfl, rfl⟩ := h
      exact lt_trans ih (one e h1)
  intro v hv
  exact lt_irrefl _ (h1 v v hv)

/-- C75, circle: the middle of node `i` is at the angle of `i` parts of the full circle, in the distance of the radius. -/
theorem C75_circle (cos sin : ℚ → ℚ) (pi : ℚ) (hcs : ∀ a, cos a * cos a + sin a * sin a = 1) (c : GraphCfg) (g : VGraph)
    (hd : Distinct g) :
    DrawnAs c g.nodes (circularLayout cos sin pi c g) ∧
      ∀ (i : Nat) (e : Str × LNode), (circularLayout cos sin pi c g).nodes[i]? = some e →
      middle e.2.rect = ⟨c.radius * cos (i * (2 * pi / g.nodes.length)), c.radius * sin (i * (2 * pi / g.nodes.length))⟩ ∧
      (middle e.2.rect).x * (middle e.2.rect).x + (middle e.2.rect).y * (middle e.2.rect).y = c.radius * c.radius := by
  by_cases hn : g.nodes = []
  · unfold circularLayout
    rw [if_pos (by simp [hn]), hn]
    exact ⟨.nil, by intro i e h; simp [Lay.new] at h⟩
  · obtain ⟨g1, g2, _⟩ := drawing_good c g (circlePlaces cos sin c (2 * pi / g.nodes.length) 0 g.nodes) hd
      (by rw [circlePlaces_fst]) (by
      intro p hp
      obtain ⟨k, _, h⟩ := circlePlaces_mem cos sin c _ g.nodes 0 p hp
      rw [h]
      rfl)
    rw [circlePlaces_fst] at g2
    unfold circularLayout
    rw [if_neg (by simpa using hn), circleLoop_eq]
    refine ⟨g2, ?_⟩
    intro i e h
    rw [g1, List.getElem?_map, circlePlaces_get, Option.map_map, Option.map_eq_some_iff] at h
    obtain ⟨n, _, rfl⟩ := h
    have hm : middle (gnodeOf (n, around ⟨c.radius * cos (((0 + i : Nat) : ℚ) * (2 * pi / g.nodes.length)),
        c.radius * sin (((0 + i : Nat) : ℚ) * (2 * pi / g.nodes.length))⟩ (c.sizeOf n))).2.rect =
        ⟨c.radius * cos (i * (2 * pi / g.nodes.length)), c.radius * sin (i * (2 * pi / g.nodes.length))⟩ := by
      rw [Nat.zero_add]
      exact middle_around _ _
    refine ⟨hm, ?_⟩
    have := hcs (i * (2 * pi / g.nodes.length))
    have e : ∀ m : Pt, m = ⟨c.radius * cos (i * (2 * pi / g.nodes.length)), c.radius * sin (i * (2 * pi / g.nodes.length))⟩ →
        m.x * m.x + m.y * m.y = c.radius * c.radius := by
      rintro _ rfl
      show c.radius * cos _ * (c.radius * cos _) + c.radius * sin _ * (c.radius * sin _) = _
      linear_combination c.radius * c.radius * this
    exact e _ hm

/-- C75, forces: no node ends further from its place on the starting circle than the number of rounds times the greatest
velocity, whatever the other settings and the weights of the edges. -/
theorem C75_force_near (cos sin sqrt : ℚ → ℚ) (pi : ℚ) (hs : Lengthy sqrt) (c : GraphCfg) (hm : 0 ≤ c.maxVelocity) (g : VGraph)
    (hd : Distinct g) :
    ∃ l, forceLayout cos sin sqrt pi c g = .ok l ∧ DrawnAs c g.nodes l ∧ ∀ (i : Nat) (e : Str × LNode), l.nodes[i]? = some e →
      Near (middle e.2.rect) ⟨100 * cos (i * (2 * pi / g.nodes.length)), 100 * sin (i * (2 * pi / g.nodes.length))⟩
        (c.iterations * c.maxVelocity) := by
  by_cases hn : g.nodes = []
  · refine ⟨Lay.new, ?_, ?_, by intro i e h; simp [Lay.new] at h⟩
    · unfold forceLayout
      rw [if_pos (by simp [hn])]
    · rw [hn]; exact .nil
  · obtain ⟨m, h1, h2, h3, h4⟩ := force_runs cos sin sqrt pi c g hn
    obtain ⟨g1, g2, _⟩ := drawing_good c g (forcePlaces c m.pos g.nodes) hd (by rw [h4]) (by
      intro p hp
      obtain ⟨_, q, _, h⟩ := forcePlaces_mem c m.pos g.nodes p hp
      rw [h]
      rfl)
    rw [h4] at g2
    refine ⟨_, h3, g2, ?_⟩
    intro i e he
    rw [g1, List.getElem?_map, Option.map_eq_some_iff] at he
    obtain ⟨p, hp, rfl⟩ := he
    obtain ⟨_, q, hq, hr⟩ := forcePlaces_mem c m.pos g.nodes p (List.mem_of_getElem? hp)
    have hpi : (g.nodes.map GNode.id)[i]? = some p.1.id := by
      rw [← h4, List.map_map, List.getElem?_map, hp]
      rfl
    have h0 := startLoop_of cos sin (2 * pi / g.nodes.length) (g.nodes.map GNode.id) 0 ⟨FMap.empty, FMap.empty⟩ []
      ⟨by intro j; simp, by intro j; simp⟩
    rw [List.nil_append] at h0
    obtain ⟨s1, _⟩ := startLoop_get cos sin (2 * pi / g.nodes.length) (g.nodes.map GNode.id) 0 ⟨FMap.empty, FMap.empty⟩ hd i _ hpi
    have := simulate_near sqrt hs c hm g hd c.iterations _ h0 m h1 p.1.id _ q s1 hq
    rw [Nat.zero_add] at this
    show Near (middle p.2) _ _
    rw [hr, middle_around]
    exact this

/-- C75, forces: two nodes without an edge between them are pushed straight apart: the way from one to the other keeps its
direction and gets no shorter, and the point between them stays where it is. -/
theorem C75_force_apart (cos sin sqrt : ℚ → ℚ) (pi : ℚ) (c : GraphCfg) (hr : 0 ≤ c.repulsion) (hdm : 0 ≤ c.damping)
    (hm : 0 ≤ c.maxVelocity) (a b : GNode) (dir : Bool) (hab : a.id ≠ b.id) :
    ∃ l x y s, forceLayout cos sin sqrt pi c ⟨[a, b], [], dir⟩ = .ok l ∧ l.nodes.map Prod.fst = [a.id, b.id] ∧
      l.nodes.map (fun e => middle e.2.rect) = [x, y] ∧ 1 ≤ s ∧
      x.x - y.x = s * (100 * cos 0 - 100 * cos pi) ∧ x.y - y.y = s * (100 * sin 0 - 100 * sin pi) ∧
      x.x + y.x = 100 * cos 0 + 100 * cos pi ∧ x.y + y.y = 100 * sin 0 + 100 * sin pi := by
  have hd : Distinct ⟨[a, b], [], dir⟩ := by unfold Distinct; simp [hab]
  obtain ⟨m, h1, h2, h3, h4⟩ := force_runs cos sin sqrt pi c ⟨[a, b], [], dir⟩ (by simp)
  obtain ⟨g1, _, _⟩ := drawing_good c ⟨[a, b], [], dir⟩ (forcePlaces c m.pos [a, b]) hd (by rw [h4]) (by
    intro p hp
    obtain ⟨_, q, _, h⟩ := forcePlaces_mem c m.pos _ p hp
    rw [h]
    rfl)
  have e1 : 2 * pi / (([a, b] : List GNode).length : ℚ) = pi := by simp
  simp only [e1] at h1
  have hn : ([a, b].map GNode.id).Nodup := hd
  obtain ⟨sa, va⟩ := startLoop_get cos sin pi ([a, b].map GNode.id) 0 ⟨FMap.empty, FMap.empty⟩ hn 0 a.id rfl
  obtain ⟨sb, vb⟩ := startLoop_get cos sin pi ([a, b].map GNode.id) 0 ⟨FMap.empty, FMap.empty⟩ hn 1 b.id rfl
  simp only [Nat.zero_add, Nat.cast_zero, zero_mul, Nat.cast_one, one_mul] at sa sb
  obtain ⟨m', p', q', s', r1, r2, r3, r4, r5, r6, r7, r8⟩ := simulate_two sqrt c a b dir hab hr hdm hm
    ⟨100 * cos 0 - 100 * cos pi, 100 * sin 0 - 100 * sin pi⟩ c.iterations _ _ _ 1 0 (le_refl _) zero_le_one sa sb
    (by rw [va]; simp) (by rw [vb]; simp) (by simp) (by simp)
  rw [h1] at r1
  cases r1
  refine ⟨_, p', q', s', h3, ?_, ?_, r4, r5, r6, r7, r8⟩
  · rw [g1]
    unfold forcePlaces
    simp [r2, r3, gnodeOf]
  · rw [g1]
    unfold forcePlaces
    simp [r2, r3, gnodeOf, middle_around]

/-- One round for two joined nodes: both move along the line between them by the same amount, apart by what the repulsion gives at
their distance, and together by what the spring gives for the length over the ideal one and the weight of the edge, or less if that
is over the limit. The organic layout has half of the spring and half as much repulsion again. -/
theorem C75_force_edge (cos sin sqrt : ℚ → ℚ) (pi : ℚ) (c : GraphCfg) (hi : c.iterations = 1) (hm : 0 ≤ c.maxVelocity) (a b : GNode)
    (lab : Option Str) (w : ℚ) (dir : Bool) (hab : a.id ≠ b.id) (ord : Nat → List (Str × Nat) → List (Str × Nat)) (fuel : Nat)
    (alg : GraphAlg) (u v : ℚ) (ha : alg = .force ∧ u = 1 ∧ v = 1 ∨ alg = .organic ∧ u = 1 / 2 ∧ v = 3 / 2) (dx dy d k : ℚ)
    (hx : dx = 100 * cos 0 - 100 * cos pi) (hy : dy = 100 * sin 0 - 100 * sin pi) (hd : d = sqrt (dx * dx + dy * dy)) (h0 : 0 < d)
    (hk : k = v * c.repulsion / max d 1 ^ 3 - u * c.spring * (d - c.idealLength) * w / d) :
    ∃ l s, layoutGraph cos sin sqrt pi ord fuel alg c ⟨[a, b], [⟨a.id, b.id, lab, w⟩], dir⟩ = .ok l ∧ l.nodes.map Prod.fst = [a.id, b.id] ∧
      l.nodes.map (fun e => middle e.2.rect) = [⟨100 * cos 0 + s * k * dx, 100 * sin 0 + s * k * dy⟩,
        ⟨100 * cos pi - s * k * dx, 100 * sin pi - s * k * dy⟩] ∧ 0 ≤ s ∧ s ≤ 1 ∧
      (sqrt (k * dx * (k * dx) + k * dy * (k * dy)) ≤ c.maxVelocity → s = 1) := by
  have force : ∀ c' : GraphCfg, c'.iterations = 1 → 0 ≤ c'.maxVelocity →
      k = c'.repulsion / max d 1 ^ 3 - c'.spring * (d - c'.idealLength) * w / d →
      ∃ l s, forceLayout cos sin sqrt pi c' ⟨[a, b], [⟨a.id, b.id, lab, w⟩], dir⟩ = .ok l ∧ l.nodes.map Prod.fst = [a.id, b.id] ∧
      l.nodes.map (fun e => middle e.2.rect) = [⟨100 * cos 0 + s * k * dx, 100 * sin 0 + s * k * dy⟩,
        ⟨100 * cos pi - s * k * dx, 100 * sin pi - s * k * dy⟩] ∧ 0 ≤ s ∧ s ≤ 1 ∧
      (sqrt (k * dx * (k * dx) + k * dy * (k * dy)) ≤ c'.maxVelocity → s = 1) := by
    intro c' hi' hm' hk'
    have hdist : distanceTo sqrt ⟨100 * cos 0, 100 * sin 0⟩ ⟨100 * cos pi, 100 * sin pi⟩ = d := by
      unfold distanceTo
      rw [hd, hx, hy]
    have hpf : pairForce sqrt c' w ⟨100 * cos 0, 100 * sin 0⟩ ⟨100 * cos pi, 100 * sin pi⟩ = k := by
      unfold pairForce
      rw [hdist, hk']
    have hdt : Distinct ⟨[a, b], [⟨a.id, b.id, lab, w⟩], dir⟩ := by unfold Distinct; simp [hab]
    obtain ⟨m, h1, h2, h3, h4⟩ := force_runs cos sin sqrt pi c' ⟨[a, b], [⟨a.id, b.id, lab, w⟩], dir⟩ (by simp)
    obtain ⟨g1, _, _⟩ := drawing_good c' ⟨[a, b], [⟨a.id, b.id, lab, w⟩], dir⟩ (forcePlaces c' m.pos [a, b]) hdt (by rw [h4]) (by
      intro p hp
      obtain ⟨_, q, _, h⟩ := forcePlaces_mem c' m.pos _ p hp
      rw [h]
      rfl)
    have e1 : 2 * pi / (([a, b] : List GNode).length : ℚ) = pi := by simp
    simp only [e1] at h1
    have hn : ([a, b].map GNode.id).Nodup := hdt
    obtain ⟨sa, va⟩ := startLoop_get cos sin pi ([a, b].map GNode.id) 0 ⟨FMap.empty, FMap.empty⟩ hn 0 a.id rfl
    obtain ⟨sb, vb⟩ := startLoop_get cos sin pi ([a, b].map GNode.id) 0 ⟨FMap.empty, FMap.empty⟩ hn 1 b.id rfl
    simp only [Nat.zero_add, Nat.cast_zero, zero_mul, Nat.cast_one, one_mul] at sa sb
    obtain ⟨m', p', q', s, r1, r2, r3, r4, r5, r6, r7, r8, r9, r10⟩ := simulate_joined sqrt c' a b lab w dir hab hm' _ _ _ sa sb va vb
      (by rw [hdist]; exact h0)
    rw [hi'] at h1
    rw [h1] at r1
    cases r1
    rw [hpf] at r6 r7 r8 r9 r10
    simp only [← hx, ← hy] at r6 r7 r8 r9 r10
    have ep : p' = ⟨100 * cos 0 + s * k * dx, 100 * sin 0 + s * k * dy⟩ := by rw [← r7, ← r8]
    have eq : q' = ⟨100 * cos pi - s * k * dx, 100 * sin pi - s * k * dy⟩ := by rw [← r9, ← r10]
    refine ⟨_, s, h3, ?_, ?_, r4, r5, r6⟩
    · rw [g1]
      unfold forcePlaces
      simp [r2, r3, gnodeOf]
    · rw [g1]
      unfold forcePlaces
      simp [r2, r3, gnodeOf, middle_around, ep, eq]
  rcases ha with ⟨rfl, rfl, rfl⟩ | ⟨rfl, rfl, rfl⟩
  · exact force c hi hm (by rw [hk]; simp)
  · exact force { c with spring := c.spring * (1 / 2), repulsion := c.repulsion * (3 / 2), damping := 95 / 100 } hi hm (by rw [hk]; ring)

/-- Nodes at 200 from each other, joined by an edge, come nearer. -/
example : ∃ l s, layoutGraph (fun a => 1 - 2 * a) (fun _ => 0) (fun _ => 200) 1 (fun _ l => l) 2 .force { GraphCfg.std with iterations := 1 }
      ⟨[⟨['a'], [], [], none⟩, ⟨['b'], [], [], none⟩], [⟨['a'], ['b'], none, 1⟩], false⟩ = .ok l ∧ l.nodes.map Prod.fst = [['a'], ['b']] ∧
      l.nodes.map (fun e => middle e.2.rect) = [⟨100 * (1 - 2 * 0) + s * (-399 / 8000) * 200, 100 * 0 + s * (-399 / 8000) * 0⟩,
        ⟨100 * (1 - 2 * 1) - s * (-399 / 8000) * 200, 100 * 0 - s * (-399 / 8000) * 0⟩] ∧ 0 ≤ s ∧ s ≤ 1 ∧ (200 ≤ (10 : ℚ) → s = 1) :=
  C75_force_edge (fun a => 1 - 2 * a) (fun _ => 0) (fun _ => 200) 1 { GraphCfg.std with iterations := 1 } rfl (by norm_num [GraphCfg.std])
    ⟨['a'], [], [], none⟩ ⟨['b'], [], [], none⟩ none 1 false (by decide) (fun _ l => l) 2 .force 1 1 (.inl ⟨rfl, rfl, rfl⟩) 200 0 200 (-399 / 8000)
    (by norm_num) (by norm_num) rfl (by norm_num) (by norm_num [GraphCfg.std])

/-- Beside `C75_circle`, `C75_force_near` and `C75_force_apart`: functions as the hypotheses want them, and an instance of the
last theorem in which the nodes are pushed apart. -/
theorem force_example : (∀ a : ℚ, (fun _ => (3 / 5 : ℚ)) a * (fun _ => (3 / 5 : ℚ)) a + (fun _ => (4 / 5 : ℚ)) a * (fun _ => (4 / 5 : ℚ)) a = 1) ∧
    Lengthy (fun z => z + 1) ∧
    (∃ l, forceLayout (fun a => 1 - a) (fun a => a) (fun z => z + 1) 1 { GraphCfg.std with iterations := 1 }
        ⟨[⟨['a'], [], [], none⟩, ⟨['b'], [], [], none⟩], [], false⟩ = .ok l ∧
      l.nodes.map (fun e => middle e.2.rect) = [⟨100 + 100 * 1000 / 20001 ^ 3, -100 * 1000 / 20001 ^ 3⟩,
        ⟨-100 * 1000 / 20001 ^ 3, 100 + 100 * 1000 / 20001 ^ 3⟩]) := by
  refine ⟨by intro a; norm_num, ?_, ?_⟩
  · intro x y
    have key : ∀ x y : ℚ, |x| ≤ x * x + y * y + 1 := by
      intro x y
      rw [abs_le]
      constructor <;> nlinarith [sq_nonneg (x + 1), sq_nonneg (x - 1), sq_nonneg y]
    exact ⟨key x y, by rw [add_comm (x * x)]; exact key y x⟩
  · refine ⟨_, rfl, ?_⟩
    decide +kernel

/-- The order in which the table of the nodes is iterated decides which node is where: the same graph is drawn differently from
one run to the next. -/
theorem C75_order : let a : GNode := ⟨['a'], [], [], none⟩; let b : GNode := ⟨['b'], [], [], none⟩
    (gridLayout GraphCfg.std ⟨[a, b], [], true⟩).nodes.map (fun e => (e.1, e.2.rect.origin)) =
      [(['a'], ⟨0, 0⟩), (['b'], ⟨GraphCfg.std.nodeWidth + GraphCfg.std.spacing, 0⟩)] ∧
    (gridLayout GraphCfg.std ⟨[b, a], [], true⟩).nodes.map (fun e => (e.1, e.2.rect.origin)) =
      [(['b'], ⟨0, 0⟩), (['a'], ⟨GraphCfg.std.nodeWidth + GraphCfg.std.spacing, 0⟩)] := by
  decide +kernel

/-- No line of any drawing has a label, whatever the labels of the edges. -/
theorem C75_labels (cos sin sqrt : ℚ → ℚ) (pi : ℚ) (alg : GraphAlg) (c : GraphCfg) (g : VGraph) (hd : Distinct g)
    (ht : alg = .layers → TargetsKnown g) (ord : Nat → List (Str × Nat) → List (Str × Nat)) (hord : ∀ n l, (ord n l).Perm l) :
    ∃ l, layoutGraph cos sin sqrt pi ord g.nodes.length alg c g = .ok l ∧ ∀ r ∈ l.edges, r.label = none := by
  have key : ∀ l : Lay, l.edges = [] → ∀ r ∈ (addStraight g.edges l).edges, r.label = none := by
    intro l hl
    obtain ⟨rs, h1, _, h3⟩ := addStraight_edges g.edges l
    rw [h1, hl]
    exact h3
  have hnd : ∀ ps : List (GNode × Rct), (ps.map (·.1)).Perm g.nodes → (addAll ps Lay.new).edges = [] := by
    intro ps hp
    have hn : (ps.map (·.1.id)).Nodup := by
      have := (hp.map GNode.id).nodup_iff.2 hd
      rw [List.map_map] at this
      exact this
    rw [(addAll_spec ps Lay.new (by simpa [Lay.new] using hn)).2]
    rfl
  by_cases hn : g.nodes = []
  · refine ⟨Lay.new, ?_, by simp [Lay.new]⟩
    unfold layoutGraph organicLayout forceLayout circularLayout layersLayout gridLayout
    rw [if_pos (by simp [hn])]
    cases alg <;> simp [hn]
  · cases alg with
    | force =>
      obtain ⟨m, _, _, h3, h4⟩ := force_runs cos sin sqrt pi c g hn
      exact ⟨_, h3, key _ (hnd _ (by rw [h4]))⟩
    | organic =>
      obtain ⟨m, _, _, h3, h4⟩ := force_runs cos sin sqrt pi _ g hn
      exact ⟨_, h3, key _ (hnd _ (by rw [h4]))⟩
    | circular =>
      refine ⟨_, rfl, ?_⟩
      unfold circularLayout
      rw [if_neg (by simpa using hn), circleLoop_eq]
      exact key _ (hnd _ (by rw [circlePlaces_fst]))
    | grid =>
      refine ⟨_, rfl, ?_⟩
      unfold gridLayout
      rw [if_neg (by simpa using hn), gridLoop_eq]
      exact key _ (hnd _ (by rw [gridPlaces_fst]))
    | layers =>
      obtain ⟨layers, l1, l2, _⟩ := Oaks.Props.C47_layers g.plain hd (by
        intro e he
        obtain ⟨e', h1, rfl⟩ := List.mem_map.1 he
        exact ht rfl e' h1) ord hord
      obtain ⟨ms, _, _, h3, h4⟩ := layers_nodes c g hd hn layers ord (by simpa [VGraph.plain] using l1) l2
      exact ⟨_, h4, key _ (hnd _ h3)⟩

/-- An edge to a node that does not exist is left out by the other algorithms (`C75_drawn_partial`); with layers it panics. -/
theorem C75_dangling (cos sin sqrt : ℚ → ℚ) (pi : ℚ) (ord : Nat → List (Str × Nat) → List (Str × Nat)) (fuel : Nat) :
    layoutGraph cos sin sqrt pi ord fuel .layers GraphCfg.std sampleGraph = .error .panic := rfl

/-- A node that is larger than its cell in the grid covers the next one. -/
theorem C75_overlap : ¬ Clear (gridLayout GraphCfg.std
    ⟨[⟨['a'], [], [], some ⟨500, 10⟩⟩, ⟨['b'], [], [], none⟩], [], true⟩) := by
  unfold Clear
  decide +kernel

end Oaks.Viz.Props
