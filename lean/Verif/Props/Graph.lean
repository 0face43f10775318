import Verif.Proofs.GraphCycles
import Verif.Proofs.GraphLayers

/-
C47: graph queries agree with the edges of the graph.
-/
namespace Oaks.Props
open Oaks Oaks.Spec

/-- The neighbours of `u` list every edge leaving `u` once (an edge of an undirected graph leaves both of
its ends), and the degree is the number of such edges. -/
theorem C47_neighbors (g : Graph) (u v : Str) :
    (v ∈ getNeighbors g u ↔ Arc g u v) ∧
    (getNeighbors g u).count v = g.edges.count (u, v) + (if g.directed then 0 else g.edges.count (v, u)) ∧
    getDegree g u = outEnds g u := by
  refine ⟨mem_neighbors, ?_, ?_⟩
  · unfold getNeighbors
    have : ∀ es : List (Str × Str), (es.flatMap (neighborsOf g u)).count v =
        es.count (u, v) + (if g.directed then 0 else es.count (v, u)) := by
      intro es
      induction es with
      | nil => cases g.directed <;> simp
      | cons e es ih =>
        obtain ⟨a, b⟩ := e
        have hc : (neighborsOf g u (a, b)).count v =
            (if a = u ∧ b = v then 1 else 0) + (if g.directed then 0 else if a = v ∧ b = u then 1 else 0) := by
          unfold neighborsOf
          rw [List.count_append]
          congr 1
          · by_cases h1 : a = u
            · rw [if_pos h1, List.count_singleton]; simp [h1]
            · simp [h1]
          · cases g.directed
            · by_cases h1 : b = u
              · rw [if_pos ⟨rfl, h1⟩, List.count_singleton]; simp [h1]
              · simp [h1]
            · simp
        rw [List.flatMap_cons, List.count_append, ih, hc]
        simp only [List.count_cons, beq_iff_eq, Prod.mk.injEq]
        cases g.directed
        · simp only [Bool.false_eq_true, if_false]; omega
        · simp only [if_true]; omega
    exact this g.edges
  · unfold getDegree outEnds getNeighbors
    have : ∀ es : List (Str × Str), (es.flatMap (neighborsOf g u)).length =
        es.countP (fun e => e.1 = u) + if g.directed then 0 else es.countP (fun e => e.2 = u) := by
      intro es
      induction es with
      | nil => cases g.directed <;> simp
      | cons e es ih =>
        rw [List.flatMap_cons, List.length_append, ih]
        simp only [List.countP_cons, neighborsOf]
        by_cases h1 : e.1 = u <;> by_cases h2 : e.2 = u <;> cases g.directed <;> simp [h1, h2] <;> omega
    exact this g.edges

/-- Non-trivial case: an undirected graph with a doubled edge and a loop. -/
example : getNeighbors ⟨["a".toList, "b".toList], [("a".toList, "b".toList), ("b".toList, "a".toList), ("a".toList, "a".toList)], false⟩ "a".toList =
    ["b".toList, "b".toList, "a".toList, "a".toList] := by decide

/-- When every edge joins two nodes of the graph, `is_connected` ends and says whether every node is
reachable from the first one of the table. -/
theorem C47_connected (g : Graph) (h : Closed g) :
    ∃ b, isConnected g (2 * g.edges.length + 1) = .ok b ∧
      (b = true ↔ ∀ s, g.nodes.head? = some s → ∀ v ∈ g.nodes, Walk g s v) := by
  cases hn : g.nodes with
  | nil => exact ⟨true, by unfold isConnected; rw [hn], by simp⟩
  | cons s rest =>
    obtain ⟨vs, h1, h2, h3⟩ := isConnected_visited g s rest hn
    refine ⟨_, h1, ?_⟩
    rw [decide_eq_true_eq, nodup_full h2 h.nodup (fun x hx => walk_in_nodes h ((h3 x).1 hx) (by rw [hn]; exact List.mem_cons_self ..))]
    simp only [h3, List.head?_cons, Option.some.injEq]
    rw [hn]
    exact ⟨fun h' _ hs => hs ▸ h', fun h' => h' s rfl⟩

/-- For an undirected graph the answer is whether any two nodes are joined by a walk. -/
theorem C47_connected_undirected (g : Graph) (h : Closed g) (hu : g.directed = false) :
    ∃ b, isConnected g (2 * g.edges.length + 1) = .ok b ∧ (b = true ↔ ∀ u ∈ g.nodes, ∀ v ∈ g.nodes, Walk g u v) := by
  obtain ⟨b, h1, h2⟩ := C47_connected g h
  refine ⟨b, h1, h2.trans ?_⟩
  have hsym : ∀ a c, Arc g a c → Arc g c a := by
    rintro a c (ha | ⟨_, ha⟩)
    · exact .inr ⟨hu, ha⟩
    · exact .inl ha
  have wsym : ∀ a c, Walk g a c → Walk g c a := by
    intro a c hw
    induction hw with
    | refl => exact .refl
    | tail _ ha ih => exact .head (hsym _ _ ha) ih
  constructor
  · intro hs u hu' v hv
    cases hn : g.nodes with
    | nil => rw [hn] at hu'; cases hu'
    | cons s rest =>
      have := hs s (by rw [hn]; rfl)
      exact (wsym _ _ (this u hu')).trans (this v hv)
  · intro hs s hs' v hv
    cases hn : g.nodes with
    | nil => rw [hn] at hs'; cases hs'
    | cons s' rest =>
      rw [hn] at hs'; cases hs'
      exact hs s (by rw [hn]; exact List.mem_cons_self ..) v hv

/-- The answer does not depend on the order in which the table of an undirected graph is iterated. -/
theorem C47_connected_order (g g' : Graph) (h : Closed g) (hu : g.directed = false) (hp : g'.nodes.Perm g.nodes)
    (he : g'.edges = g.edges) (hd : g'.directed = g.directed) :
    isConnected g' (2 * g'.edges.length + 1) = isConnected g (2 * g.edges.length + 1) := by
  have hc : Closed g' := ⟨hp.nodup_iff.2 h.nodup, by
    intro e hm
    rw [he] at hm
    exact ⟨hp.mem_iff.2 (h.ends e hm).1, hp.mem_iff.2 (h.ends e hm).2⟩⟩
  obtain ⟨b, h1, h2⟩ := C47_connected_undirected g h hu
  obtain ⟨b', h1', h2'⟩ := C47_connected_undirected g' hc (hd.trans hu)
  rw [h1, h1']
  congr 1
  rw [Bool.eq_iff_iff, h2, h2']
  have hw : Walk g' = Walk g := by
    unfold Walk; congr 1; funext a c; unfold Arc; rw [he, hd]
  rw [hw]
  constructor
  · intro k u hu v hv; exact k u (hp.mem_iff.2 hu) v (hp.mem_iff.2 hv)
  · intro k u hu v hv; exact k u (hp.mem_iff.1 hu) v (hp.mem_iff.1 hv)

/-- Non-trivial case: two components. -/
example : isConnected ⟨["a".toList, "b".toList, "c".toList], [("a".toList, "b".toList)], false⟩ 3 = .ok false := by decide

/-- For a directed graph the same table in another order gives another answer. -/
theorem C47_connected_directed_order :
    isConnected ⟨["a".toList, "b".toList], [("a".toList, "b".toList)], true⟩ 3 = .ok true ∧
    isConnected ⟨["b".toList, "a".toList], [("a".toList, "b".toList)], true⟩ 3 = .ok false := by decide

/-- An edge to a name that is not a node is counted as a visited node: two nodes without any walk between
them are reported as connected. -/
theorem C47_connected_dangling :
    isConnected ⟨["a".toList, "b".toList], [("a".toList, "x".toList)], false⟩ 3 = .ok true := by decide

/-- `find_cycles` ends; every list it returns is a cycle. -/
theorem C47_cycles_sound (g : Graph) :
    ∃ cs, findCycles g (g.nodes.length + 2 * g.edges.length) = .ok cs ∧ ∀ c ∈ cs, IsCycle g c := by
  obtain ⟨cs, h1, h2, _⟩ := findCycles_spec g
  exact ⟨cs, h1, h2⟩

/-- For a directed graph it returns nothing exactly when the graph has no closed walk. -/
theorem C47_cycles_complete (g : Graph) (hd : g.directed = true) (h : Closed g) :
    ∃ cs, findCycles g (g.nodes.length + 2 * g.edges.length) = .ok cs ∧ (cs = [] ↔ Acyclic g) := by
  obtain ⟨cs, h1, h2, h3⟩ := findCycles_spec g
  have harc : Arc g = fun a b => (a, b) ∈ g.edges := by
    funext a b; unfold Arc; rw [hd]; simp
  refine ⟨cs, h1, ?_, ?_⟩
  · intro hc v hv
    have hvn : v ∈ g.nodes := by
      cases hv with
      | single ha => exact (h.ends _ ha).2
      | tail _ ha => exact (h.ends _ ha).2
    exact h3 hc v hvn v .refl (by rw [harc]; exact hv)
  · intro ha
    cases cs with
    | nil => rfl
    | cons c cs =>
      exfalso
      have hc := h2 c (List.mem_cons_self ..)
      obtain ⟨first, _, hf, _⟩ := hc.back
      have := isCycle_return hc first (List.mem_of_head? hf)
      rw [harc] at this
      exact ha first this

/-- Non-trivial case: a loop reached from outside. -/
example : findCycles ⟨["a".toList, "b".toList, "c".toList],
    [("a".toList, "b".toList), ("b".toList, "c".toList), ("c".toList, "b".toList)], true⟩ 9 = .ok [["b".toList, "c".toList]] := by decide

/-- A single edge of an undirected graph is reported as a cycle. -/
theorem C47_cycles_undirected :
    findCycles ⟨["a".toList, "b".toList], [("a".toList, "b".toList)], false⟩ 4 = .ok [["a".toList, "b".toList]] := by decide

/-- Whatever the order in which its tables are iterated, `topological_layers` ends and puts every node into
exactly one layer, none of them empty; also when the graph has cycles. -/
theorem C47_layers (g : Graph) (hn : g.nodes.Nodup) (ht : ∀ e ∈ g.edges, e.2 ∈ g.nodes)
    (ord : Nat → List (Str × Nat) → List (Str × Nat)) (hord : ∀ n l, (ord n l).Perm l) :
    ∃ layers, topologicalLayers g ord g.nodes.length = .ok layers ∧ layers.flatten.Perm g.nodes ∧ [] ∉ layers := by
  obtain ⟨deg, h1, h2, h3⟩ := init_inv g hn ht
  obtain ⟨layers, l1, l2, l3, l4, _⟩ := layerLoop_spec g ord hord g.nodes.length 0 [] deg h2 (by omega)
  refine ⟨layers, by unfold topologicalLayers; rw [h1, run_bind_ok]; exact l1, ?_, l4⟩
  rw [List.perm_ext_iff_of_nodup l2 hn]
  intro v
  rw [l3 v, h2.keys v]; simp

/-- In a graph without closed walks every edge goes from an earlier to a later layer. -/
theorem C47_layers_edges (g : Graph) (hc : Closed g) (ha : Acyclic g)
    (ord : Nat → List (Str × Nat) → List (Str × Nat)) (hord : ∀ n l, (ord n l).Perm l) :
    ∃ layers, topologicalLayers g ord g.nodes.length = .ok layers ∧ layers.flatten.Perm g.nodes ∧
      ∀ u v, (u, v) ∈ g.edges → ∃ i j, InLayer layers i u ∧ InLayer layers j v ∧ i < j := by
  obtain ⟨deg, h1, h2, h3⟩ := init_inv g hc.nodup (fun e he => (hc.ends e he).2)
  obtain ⟨layers, l1, l2, l3, _, l5⟩ := layerLoop_spec g ord hord g.nodes.length 0 [] deg h2 (by omega)
  refine ⟨layers, by unfold topologicalLayers; rw [h1, run_bind_ok]; exact l1, ?_, ?_⟩
  · rw [List.perm_ext_iff_of_nodup l2 hc.nodup]
    intro v
    rw [l3 v, h2.keys v]; simp
  · intro u v he
    rcases l5 hc ha u v he ((h2.keys v).2 ⟨(hc.ends _ he).2, by simp⟩) with h | h
    · cases h
    · exact h

/-- Non-trivial case: a diamond with a shortcut. -/
example : topologicalLayers ⟨["d".toList, "b".toList, "a".toList, "c".toList],
    [("a".toList, "b".toList), ("a".toList, "c".toList), ("b".toList, "d".toList), ("c".toList, "d".toList), ("a".toList, "d".toList)], true⟩
    (fun _ l => l) 4 = .ok [["a".toList], ["b".toList, "c".toList], ["d".toList]] := by decide

/-- An edge to a name that is not a node makes `topological_layers` panic. -/
theorem C47_layers_dangling (ord : Nat → List (Str × Nat) → List (Str × Nat)) (fuel : Nat) :
    topologicalLayers ⟨["a".toList], [("a".toList, "x".toList)], true⟩ ord fuel = .error .panic := rfl

end Oaks.Props
