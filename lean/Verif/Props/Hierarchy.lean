import Verif.Proofs.Hierarchy

/-!
C68: the hierarchical layout of a forest shows every node, keeps the nodes apart, sets children past their parents and
joins them by edges.
-/

namespace Oaks.Viz.Props
open Oaks Oaks.Viz Oaks.Viz.Spec

/-- C68 (partial): for a forest with sizes and spacings that are not negative, every direction gives a layout that has each
node once with its own size, no two nodes overlapping, every edge from middle to middle; from the top down and from left to
right each child lies past its parent. Missing, see the witnesses: the two other directions, labels and types of the
nodes, graphs with cycles, edges to nodes that do not exist. -/
theorem C68_forest_partial (rank : Str → Nat) (nodes : List LayoutNode) (edges : List LayoutEdge) (hf : Forest rank nodes edges)
    (cfg : LayoutConfig) (hh : 0 ≤ cfg.horizontal) (hv : 0 ≤ cfg.vertical)
    (hsz : ∀ n ∈ nodes, 0 ≤ n.size.width ∧ 0 ≤ n.size.height)
    (fuel : Nat) (hfuel : ∀ n ∈ nodes, rank n.id < fuel) (dir : Direction) :
    ∃ l, hierarchicalLayout fuel dir nodes edges cfg = .ok l ∧ Places nodes l ∧ Clear l ∧ Routed edges l ∧
      (dir = .topDown ∨ dir = .leftRight → Follows dir edges l) := by
  by_cases hn : nodes = []
  · subst hn
    have he : edges = [] := by
      cases edges with
      | nil => rfl
      | cons e es =>
        obtain ⟨⟨n, h, _⟩, _⟩ := hf.known e List.mem_cons_self
        simp at h
    subst he
    refine ⟨Lay.new, by simp [hierarchicalLayout], .refl _, .nil, .nil, ?_⟩
    intro _ e he
    simp at he
  · obtain ⟨hs, h1, h2, h3⟩ := buildHierarchy_ok rank nodes edges hf fuel hfuel
    have hnd : (hidsAll hs).Nodup := h3.nodup_iff.2 hf.ids
    have hsized := sizedAll_built nodes edges hsz hs h2
    have hne : nodes.isEmpty = false := by simpa using hn
    have vert := td_roots cfg hv hs cfg.margin [] hsized (by simpa using hnd)
    have hor := lr_roots cfg hh hs cfg.margin [] hsized (by simpa using hnd)
    obtain ⟨av, v1, _, v3, v4, _, v6⟩ := vert
    obtain ⟨ah, w1, _, w3, w4, _, w6⟩ := hor
    have gv := layout_good (Past .topDown) (fun r s h => Or.inr (Or.inr (Or.inl h))) nodes edges hf.ids hf.known hs h2 h3 av v3 v4 v6
    have gh := layout_good (Past .leftRight) (fun r s h => Or.inl h) nodes edges hf.ids hf.known hs h2 h3 ah w3 w4 w6
    have ev : topDown cfg hs = av := by unfold topDown; rw [v1]; rfl
    have eh : leftRight cfg hs = ah := by unfold leftRight; rw [w1]; rfl
    unfold hierarchicalLayout
    rw [h1, hne]
    cases dir with
    | topDown => exact ⟨_, by rw [← ev]; rfl, gv.1, gv.2.1, gv.2.2.1, fun _ => gv.2.2.2⟩
    | bottomUp => exact ⟨_, by rw [← ev]; rfl, gv.1, gv.2.1, gv.2.2.1, by rintro (h | h) <;> simp at h⟩
    | leftRight => exact ⟨_, by rw [← eh]; rfl, gh.1, gh.2.1, gh.2.2.1, fun _ => gh.2.2.2⟩
    | rightLeft => exact ⟨_, by rw [← eh]; rfl, gh.1, gh.2.1, gh.2.2.1, by rintro (h | h) <;> simp at h⟩

/-- Three nodes: `a` above `b` and `c`. -/
def sampleNodes : List LayoutNode :=
  [⟨['b'], ⟨20, 10⟩, "left".toList, .dflt⟩, ⟨['a'], ⟨40, 10⟩, "top".toList, .dflt⟩, ⟨['c'], ⟨20, 30⟩, "right".toList, .dflt⟩]

/-- The edges of `sampleNodes`. -/
def sampleEdges : List LayoutEdge := [⟨['a'], ['b'], none⟩, ⟨['a'], ['c'], some (['x'])⟩]

/-- The ranks of `sampleNodes`. -/
def sampleRank (i : Str) : Nat := if i = ['a'] then 0 else 1

/-- A case that meets the hypotheses of `C68_forest_partial`. -/
example : Forest sampleRank sampleNodes sampleEdges ∧ (∀ n ∈ sampleNodes, 0 ≤ n.size.width ∧ 0 ≤ n.size.height) ∧
    ∀ n ∈ sampleNodes, sampleRank n.id < 2 :=
  ⟨⟨by decide +kernel, by decide +kernel, by decide +kernel, by decide +kernel⟩, by decide +kernel, by decide +kernel⟩

/-- What is missing from C68: from the bottom up is drawn as from the top down, and from right to left as from left to
right, whatever the graph. -/
theorem C68_direction_witness (fuel : Nat) (nodes : List LayoutNode) (edges : List LayoutEdge) (cfg : LayoutConfig) :
    hierarchicalLayout fuel .bottomUp nodes edges cfg = hierarchicalLayout fuel .topDown nodes edges cfg ∧
    hierarchicalLayout fuel .rightLeft nodes edges cfg = hierarchicalLayout fuel .leftRight nodes edges cfg := ⟨rfl, rfl⟩

/-- What is missing from C68: the parent of a forest drawn from the bottom up does not lie below its child. -/
theorem C68_bottom_up_witness : ∃ l, hierarchicalLayout 2 .bottomUp sampleNodes sampleEdges ⟨10, 20, 5⟩ = .ok l ∧
    ¬ Follows .bottomUp sampleEdges l := by
  obtain ⟨l, h1, h2, h3, _, h5⟩ := C68_forest_partial sampleRank sampleNodes sampleEdges
    ⟨by decide +kernel, by decide +kernel, by decide +kernel, by decide +kernel⟩ ⟨10, 20, 5⟩ (by decide +kernel) (by decide +kernel)
    (by decide +kernel) 2 (by decide +kernel) .topDown
  refine ⟨l, h1, ?_⟩
  intro hf
  have hkeys : (l.nodes.map Prod.fst).Nodup := by
    have := h2.map Prod.fst
    rw [List.map_map, List.map_map] at this
    exact this.nodup_iff.2 (by decide +kernel)
  obtain ⟨a, b, a1, b1, r1⟩ := h5 (Or.inl rfl) _ List.mem_cons_self
  obtain ⟨a', b', a2, b2, r2⟩ := hf _ List.mem_cons_self
  have ea : a = a' := by
    have := List.inj_on_of_nodup_map hkeys a1 a2 rfl
    exact (Prod.mk.inj this).2
  have eb : b = b' := by
    have := List.inj_on_of_nodup_map hkeys b1 b2 rfl
    exact (Prod.mk.inj this).2
  subst ea eb
  have sz : ∀ c, (['b'], c) ∈ l.nodes → c.rect.size = ⟨20, 10⟩ := by
    intro c hc
    have hm := h2.mem_iff.1 (List.mem_map.2 ⟨_, hc, rfl⟩)
    simp only [sampleNodes, List.map_cons, List.map_nil, List.mem_cons, Prod.mk.injEq, List.not_mem_nil, or_false] at hm
    rcases hm with ⟨_, h⟩ | ⟨h, _⟩ | ⟨h, _⟩
    · exact h
    · exact absurd h (by decide)
    · exact absurd h (by decide)
  have sa : ∀ c, (['a'], c) ∈ l.nodes → c.rect.size = ⟨40, 10⟩ := by
    intro c hc
    have hm := h2.mem_iff.1 (List.mem_map.2 ⟨_, hc, rfl⟩)
    simp only [sampleNodes, List.map_cons, List.map_nil, List.mem_cons, Prod.mk.injEq, List.not_mem_nil, or_false] at hm
    rcases hm with ⟨h, _⟩ | ⟨_, h⟩ | ⟨h, _⟩
    · exact absurd h (by decide)
    · exact h
    · exact absurd h (by decide)
  have r1 : a.rect.origin.y + a.rect.size.height ≤ b.rect.origin.y := r1
  have r2 : b.rect.origin.y + b.rect.size.height ≤ a.rect.origin.y := r2
  rw [sa a a1] at r1
  rw [sz b b1] at r2
  simp only [] at r1 r2
  linarith

mutual
theorem buildNode_relabel (nodes : List LayoutNode) (f : LayoutNode → LayoutNode) (hf : ∀ n, (f n).id = n.id ∧ (f n).size = n.size)
    (ch : FMap Str (List Str)) : ∀ (fuel : Nat) (id : Str), buildNode (nodes.map f) ch fuel id = buildNode nodes ch fuel id
  | 0, id => by rw [buildNode, buildNode]
  | fuel + 1, id => by
    rw [buildNode, buildNode, buildNodes_relabel nodes f hf ch fuel, List.find?_map]
    have : ((fun n : LayoutNode => decide (n.id = id)) ∘ f) = fun n => decide (n.id = id) := by
      funext n; rw [Function.comp_apply, (hf n).1]
    rw [this]
    cases nodes.find? (fun n => decide (n.id = id)) with
    | none => rfl
    | some n => simp only [Option.map_some, (hf n).2]
theorem buildNodes_relabel (nodes : List LayoutNode) (f : LayoutNode → LayoutNode) (hf : ∀ n, (f n).id = n.id ∧ (f n).size = n.size)
    (ch : FMap Str (List Str)) : ∀ (fuel : Nat) (ids : List Str), buildNodes (nodes.map f) ch fuel ids = buildNodes nodes ch fuel ids
  | fuel, [] => by rw [buildNodes, buildNodes]
  | fuel, id :: ids => by
    rw [buildNodes, buildNodes, buildNode_relabel nodes f hf ch fuel id, buildNodes_relabel nodes f hf ch fuel ids]
end

/-- What is missing from C68: no layout shows a label or a type of a node; whatever they are changed to, the layout is
the same. -/
theorem C68_label_witness (fuel : Nat) (dir : Direction) (nodes : List LayoutNode) (edges : List LayoutEdge) (cfg : LayoutConfig)
    (f : LayoutNode → LayoutNode) (hf : ∀ n, (f n).id = n.id ∧ (f n).size = n.size) :
    hierarchicalLayout fuel dir (nodes.map f) edges cfg = hierarchicalLayout fuel dir nodes edges cfg := by
  have hroots : ∀ hp : List Str, ((nodes.map f).filter fun n => n.id ∉ hp).map (·.id) = (nodes.filter fun n => n.id ∉ hp).map (·.id) := by
    intro hp
    rw [List.filter_map, List.map_map]
    have h1 : ((fun n : LayoutNode => decide (n.id ∉ hp)) ∘ f) = fun n => decide (n.id ∉ hp) := by
      funext n; rw [Function.comp_apply, (hf n).1]
    have h2 : ((fun n : LayoutNode => n.id) ∘ f) = fun n => n.id := by
      funext n; rw [Function.comp_apply, (hf n).1]
    rw [h1, h2]
  unfold hierarchicalLayout buildHierarchy
  generalize edgeMaps edges (FMap.empty, []) = st
  obtain ⟨ch, hp⟩ := st
  simp only [hroots, buildNodes_relabel nodes f hf, List.isEmpty_map]

/-- A change that `C68_label_witness` speaks of. -/
example : ∀ n : LayoutNode, ({ n with label := "other".toList } : LayoutNode).id = n.id ∧ ({ n with label := "other".toList } : LayoutNode).size = n.size :=
  fun _ => ⟨rfl, rfl⟩

/-- What is missing from C68: when every node has an edge into it, all nodes are left out. -/
theorem C68_cycle_witness (fuel : Nat) (dir : Direction) (nodes : List LayoutNode) (edges : List LayoutEdge) (cfg : LayoutConfig)
    (h : ∀ n ∈ nodes, ∃ e ∈ edges, e.dst = n.id) :
    ∃ l, hierarchicalLayout fuel dir nodes edges cfg = .ok l ∧ l.nodes = [] ∧ l.edges = [] := by
  have hno : ∀ es : List LayoutEdge, addRouted es Lay.new = Lay.new := by
    intro es
    induction es with
    | nil => rfl
    | cons e es ih => rw [addRouted]; exact ih
  refine ⟨Lay.new, ?_, rfl, rfl⟩
  have hb : buildHierarchy fuel nodes edges = .ok [] := by
    obtain ⟨_, h2⟩ := edgeMaps_spec edges FMap.empty []
    unfold buildHierarchy
    generalize edgeMaps edges (FMap.empty, []) = st at *
    obtain ⟨ch, hp⟩ := st
    simp only [] at *
    have : (nodes.filter fun n => decide (n.id ∉ hp)) = [] := by
      rw [List.filter_eq_nil_iff]
      intro n hn
      obtain ⟨e, he, hd⟩ := h n hn
      have : n.id ∈ hp := (h2 _).2 (Or.inr (List.mem_map.2 ⟨e, he, hd⟩))
      simpa using this
    rw [this, List.map_nil, buildNodes]
  unfold hierarchicalLayout
  split
  · rfl
  · rw [hb]
    cases dir <;> exact congrArg Except.ok (hno edges)

/-- A graph that `C68_cycle_witness` speaks of. -/
example : ∀ n ∈ sampleNodes, ∃ e ∈ ([⟨['a'], ['b'], none⟩, ⟨['b'], ['c'], none⟩, ⟨['c'], ['a'], none⟩] : List LayoutEdge), e.dst = n.id := by
  decide +kernel

/-- A cycle below a root. -/
def loopEdges : List LayoutEdge := [⟨['a'], ['b'], none⟩, ⟨['b'], ['c'], none⟩, ⟨['c'], ['b'], none⟩]

/-- What is missing from C68: a cycle below a root, and the layout does not end. -/
theorem C68_spin_witness (fuel : Nat) (dir : Direction) (cfg : LayoutConfig) :
    hierarchicalLayout fuel dir sampleNodes loopEdges cfg = .error .spin := by
  have hloop : ∀ fuel, buildNode sampleNodes (edgeMaps loopEdges (FMap.empty, [])).1 fuel (['b']) = .error .spin ∧
      buildNode sampleNodes (edgeMaps loopEdges (FMap.empty, [])).1 fuel (['c']) = .error .spin := by
    intro fuel
    induction fuel with
    | zero => exact ⟨by rw [buildNode], by rw [buildNode]⟩
    | succ fuel ih =>
      have c1 : ((edgeMaps loopEdges (FMap.empty, [])).1 (['b'])).getD [] = [['c']] := by decide +kernel
      have c2 : ((edgeMaps loopEdges (FMap.empty, [])).1 (['c'])).getD [] = [['b']] := by decide +kernel
      refine ⟨?_, ?_⟩
      · rw [buildNode, c1, buildNodes, ih.2]; rfl
      · rw [buildNode, c2, buildNodes, ih.1]; rfl
  have hb : buildHierarchy fuel sampleNodes loopEdges = .error .spin := by
    have hr : ((sampleNodes.filter fun n => n.id ∉ (edgeMaps loopEdges (FMap.empty, [])).2).map (·.id)) = [['a']] := by decide +kernel
    show buildNodes sampleNodes (edgeMaps loopEdges (FMap.empty, [])).1 fuel
      ((sampleNodes.filter fun n => n.id ∉ (edgeMaps loopEdges (FMap.empty, [])).2).map (·.id)) = _
    rw [hr, buildNodes]
    cases fuel with
    | zero => rw [buildNode]; rfl
    | succ fuel =>
      have c0 : ((edgeMaps loopEdges (FMap.empty, [])).1 (['a'])).getD [] = [['b']] := by decide +kernel
      rw [buildNode, c0, buildNodes.eq_2 _ _ fuel ['b'], (hloop fuel).1]; rfl
  unfold hierarchicalLayout
  rw [hb]; rfl

/-- What is missing from C68: an edge to a node that does not exist, and the layout panics. -/
theorem C68_unknown_witness (fuel : Nat) (dir : Direction) (cfg : LayoutConfig) :
    hierarchicalLayout (fuel + 2) dir sampleNodes [⟨['a'], ['z'], none⟩, ⟨['a'], ['b'], none⟩, ⟨['a'], ['c'], none⟩] cfg = .error .panic := by
  have hb : buildHierarchy (fuel + 2) sampleNodes [⟨['a'], ['z'], none⟩, ⟨['a'], ['b'], none⟩, ⟨['a'], ['c'], none⟩] = .error .panic := by
    generalize hes : ([⟨['a'], ['z'], none⟩, ⟨['a'], ['b'], none⟩, ⟨['a'], ['c'], none⟩] : List LayoutEdge) = es
    have hr : ((sampleNodes.filter fun n => n.id ∉ (edgeMaps es (FMap.empty, [])).2).map (·.id)) = [['a']] := by subst hes; decide +kernel
    have c0 : ((edgeMaps es (FMap.empty, [])).1 (['a'])).getD [] = [['z'], ['b'], ['c']] := by subst hes; decide +kernel
    show buildNodes sampleNodes (edgeMaps es (FMap.empty, [])).1 (fuel + 2)
      ((sampleNodes.filter fun n => n.id ∉ (edgeMaps es (FMap.empty, [])).2).map (·.id)) = _
    rw [hr, buildNodes, buildNode, c0, buildNodes.eq_2 _ _ (fuel + 1) ['z'], buildNode]; rfl
  unfold hierarchicalLayout
  rw [hb]; rfl

end Oaks.Viz.Props
