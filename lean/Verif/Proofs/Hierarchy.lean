import Verif.Spec.Hierarchy
import Verif.Proofs.TreeLayout
import Mathlib.Data.List.Count
import Mathlib.Data.List.Nodup

/-! Lemmas for the hierarchical layout. -/

namespace Oaks.Viz
open Oaks Oaks.Viz.Spec

mutual
/-- The ids of a hierarchy, a node before its children. -/
def hids : HNode → List Str
  | .mk id cs _ => id :: hidsAll cs
/-- The ids of several hierarchies. -/
def hidsAll : List HNode → List Str
  | [] => []
  | h :: hs => hids h ++ hidsAll hs
end

mutual
/-- The ids and sizes of a hierarchy. -/
def hsizes : HNode → List (Str × Sz)
  | .mk id cs s => (id, s) :: hsizesAll cs
/-- The ids and sizes of several hierarchies. -/
def hsizesAll : List HNode → List (Str × Sz)
  | [] => []
  | h :: hs => hsizes h ++ hsizesAll hs
end

mutual
/-- No size is negative. -/
def Sized : HNode → Prop
  | .mk _ cs s => (0 ≤ s.width ∧ 0 ≤ s.height) ∧ SizedAll cs
/-- No size of several hierarchies is negative. -/
def SizedAll : List HNode → Prop
  | [] => True
  | h :: hs => Sized h ∧ SizedAll hs
end

mutual
theorem td_node (cfg : LayoutConfig) (hv : 0 ≤ cfg.vertical) : ∀ (h : HNode) (x y : ℚ) (m : Entries Rct),
    Sized h → (m.map Prod.fst ++ hids h).Nodup →
    ∃ added, (topDownNode cfg h x (y, m)).2 = m ++ added ∧ y ≤ (topDownNode cfg h x (y, m)).1 ∧ added.map Prod.fst = hids h ∧
      added.map (fun e => (e.1, e.2.size)) = hsizes h ∧
      (∀ e ∈ added, y ≤ e.2.origin.y ∧ e.2.origin.y + e.2.size.height ≤ (topDownNode cfg h x (y, m)).1) ∧
      added.Pairwise (fun e f => e.2.origin.y + e.2.size.height ≤ f.2.origin.y)
  | .mk id cs size, x, y, m, hs, hn => by
    rw [Sized] at hs
    rw [hids] at hn
    have hnew : id ∉ m.map Prod.fst := by
      intro hm
      exact (List.nodup_append.1 hn).2.2 _ hm _ List.mem_cons_self rfl
    rw [topDownNode, putEntry_new _ _ _ hnew]
    obtain ⟨added, h1, h2, h3, h4, h5, h6⟩ := td_nodes cfg hv cs (x + cfg.horizontal) (y + (size.height + cfg.vertical))
      (m ++ [(id, (⟨⟨x, y⟩, size⟩ : Rct))]) hs.2 (by simpa using hn)
    refine ⟨(id, (⟨⟨x, y⟩, size⟩ : Rct)) :: added, by rw [h1]; simp, by linarith [hs.1.1, hs.1.2], by simp [hids, h3], by simp [hsizes, h4], ?_, ?_⟩
    · intro e he
      rcases List.mem_cons.1 he with rfl | he
      · exact ⟨le_refl _, by simp only []; linarith⟩
      · obtain ⟨g1, g2⟩ := h5 e he
        exact ⟨by linarith [hs.1.1, hs.1.2], g2⟩
    · rw [List.pairwise_cons]
      refine ⟨?_, h6⟩
      intro e he
      have := (h5 e he).1
      simp only []; linarith
theorem td_nodes (cfg : LayoutConfig) (hv : 0 ≤ cfg.vertical) : ∀ (hs : List HNode) (x y : ℚ) (m : Entries Rct),
    SizedAll hs → (m.map Prod.fst ++ hidsAll hs).Nodup →
    ∃ added, (topDownNodes cfg hs x (y, m)).2 = m ++ added ∧ y ≤ (topDownNodes cfg hs x (y, m)).1 ∧ added.map Prod.fst = hidsAll hs ∧
      added.map (fun e => (e.1, e.2.size)) = hsizesAll hs ∧
      (∀ e ∈ added, y ≤ e.2.origin.y ∧ e.2.origin.y + e.2.size.height ≤ (topDownNodes cfg hs x (y, m)).1) ∧
      added.Pairwise (fun e f => e.2.origin.y + e.2.size.height ≤ f.2.origin.y)
  | [], x, y, m, _, _ => ⟨[], by simp [topDownNodes], le_refl _, rfl, rfl, by simp, .nil⟩
  | h :: hs, x, y, m, hsz, hn => by
    rw [SizedAll] at hsz
    rw [hidsAll, ← List.append_assoc] at hn
    rw [topDownNodes]
    obtain ⟨a, a1, a2, a3, a4, a5, a6⟩ := td_node cfg hv h x y m hsz.1 (List.nodup_append.1 hn).1
    generalize topDownNode cfg h x (y, m) = st at *
    obtain ⟨y1, m1⟩ := st
    simp only [] at *
    subst a1
    obtain ⟨b, b1, b2, b3, b4, b5, b6⟩ := td_nodes cfg hv hs (x + (h.size.width + cfg.horizontal)) y1 (m ++ a) hsz.2 (by
      rw [List.map_append, a3]; exact hn)
    refine ⟨a ++ b, by rw [b1, List.append_assoc], le_trans a2 b2, by rw [List.map_append, a3, b3]; rfl, by rw [List.map_append, a4, b4]; rfl, ?_, ?_⟩
    · intro e he
      rcases List.mem_append.1 he with he | he
      · exact ⟨(a5 e he).1, le_trans (a5 e he).2 b2⟩
      · exact ⟨le_trans a2 (b5 e he).1, (b5 e he).2⟩
    · rw [List.pairwise_append]
      exact ⟨a6, b6, fun e he f hf => le_trans (a5 e he).2 (b5 f hf).1⟩
end

theorem td_roots (cfg : LayoutConfig) (hv : 0 ≤ cfg.vertical) : ∀ (hs : List HNode) (y : ℚ) (m : Entries Rct),
    SizedAll hs → (m.map Prod.fst ++ hidsAll hs).Nodup →
    ∃ added, (topDownRoots cfg hs (y, m)).2 = m ++ added ∧ y ≤ (topDownRoots cfg hs (y, m)).1 ∧ added.map Prod.fst = hidsAll hs ∧
      added.map (fun e => (e.1, e.2.size)) = hsizesAll hs ∧
      (∀ e ∈ added, y ≤ e.2.origin.y) ∧
      added.Pairwise (fun e f => e.2.origin.y + e.2.size.height ≤ f.2.origin.y)
  | [], y, m, _, _ => ⟨[], by simp [topDownRoots], le_refl _, rfl, rfl, by simp, .nil⟩
  | h :: hs, y, m, hsz, hn => by
    rw [SizedAll] at hsz
    rw [hidsAll, ← List.append_assoc] at hn
    rw [topDownRoots]
    obtain ⟨a, a1, a2, a3, a4, a5, a6⟩ := td_node cfg hv h cfg.margin y m hsz.1 (List.nodup_append.1 hn).1
    generalize topDownNode cfg h cfg.margin (y, m) = st at *
    obtain ⟨y1, m1⟩ := st
    simp only [] at *
    subst a1
    obtain ⟨b, b1, b2, b3, b4, b5, b6⟩ := td_roots cfg hv hs (y1 + cfg.vertical) (m ++ a) hsz.2 (by
      rw [List.map_append, a3]; exact hn)
    refine ⟨a ++ b, by rw [b1, List.append_assoc], by linarith, by rw [List.map_append, a3, b3]; rfl, by rw [List.map_append, a4, b4]; rfl, ?_, ?_⟩
    · intro e he
      rcases List.mem_append.1 he with he | he
      · exact (a5 e he).1
      · have := b5 e he; linarith
    · rw [List.pairwise_append]
      exact ⟨a6, b6, fun e he f hf => by have := (a5 e he).2; have := b5 f hf; linarith⟩

mutual
theorem lr_node (cfg : LayoutConfig) (hv : 0 ≤ cfg.horizontal) : ∀ (h : HNode) (x y : ℚ) (m : Entries Rct),
    Sized h → (m.map Prod.fst ++ hids h).Nodup →
    ∃ added, (leftRightNode cfg h x (y, m)).2 = m ++ added ∧ y ≤ (leftRightNode cfg h x (y, m)).1 ∧ added.map Prod.fst = hids h ∧
      added.map (fun e => (e.1, e.2.size)) = hsizes h ∧
      (∀ e ∈ added, y ≤ e.2.origin.x ∧ e.2.origin.x + e.2.size.width ≤ (leftRightNode cfg h x (y, m)).1) ∧
      added.Pairwise (fun e f => e.2.origin.x + e.2.size.width ≤ f.2.origin.x)
  | .mk id cs size, x, y, m, hs, hn => by
    rw [Sized] at hs
    rw [hids] at hn
    have hnew : id ∉ m.map Prod.fst := by
      intro hm
      exact (List.nodup_append.1 hn).2.2 _ hm _ List.mem_cons_self rfl
    rw [leftRightNode, putEntry_new _ _ _ hnew]
    obtain ⟨added, h1, h2, h3, h4, h5, h6⟩ := lr_nodes cfg hv cs (x + cfg.vertical) (y + (size.width + cfg.horizontal))
      (m ++ [(id, (⟨⟨y, x⟩, size⟩ : Rct))]) hs.2 (by simpa using hn)
    refine ⟨(id, (⟨⟨y, x⟩, size⟩ : Rct)) :: added, by rw [h1]; simp, by linarith [hs.1.1, hs.1.2], by simp [hids, h3], by simp [hsizes, h4], ?_, ?_⟩
    · intro e he
      rcases List.mem_cons.1 he with rfl | he
      · exact ⟨le_refl _, by simp only []; linarith⟩
      · obtain ⟨g1, g2⟩ := h5 e he
        exact ⟨by linarith [hs.1.1, hs.1.2], g2⟩
    · rw [List.pairwise_cons]
      refine ⟨?_, h6⟩
      intro e he
      have := (h5 e he).1
      simp only []; linarith
theorem lr_nodes (cfg : LayoutConfig) (hv : 0 ≤ cfg.horizontal) : ∀ (hs : List HNode) (x y : ℚ) (m : Entries Rct),
    SizedAll hs → (m.map Prod.fst ++ hidsAll hs).Nodup →
    ∃ added, (leftRightNodes cfg hs x (y, m)).2 = m ++ added ∧ y ≤ (leftRightNodes cfg hs x (y, m)).1 ∧ added.map Prod.fst = hidsAll hs ∧
      added.map (fun e => (e.1, e.2.size)) = hsizesAll hs ∧
      (∀ e ∈ added, y ≤ e.2.origin.x ∧ e.2.origin.x + e.2.size.width ≤ (leftRightNodes cfg hs x (y, m)).1) ∧
      added.Pairwise (fun e f => e.2.origin.x + e.2.size.width ≤ f.2.origin.x)
  | [], x, y, m, _, _ => ⟨[], by simp [leftRightNodes], le_refl _, rfl, rfl, by simp, .nil⟩
  | h :: hs, x, y, m, hsz, hn => by
    rw [SizedAll] at hsz
    rw [hidsAll, ← List.append_assoc] at hn
    rw [leftRightNodes]
    obtain ⟨a, a1, a2, a3, a4, a5, a6⟩ := lr_node cfg hv h x y m hsz.1 (List.nodup_append.1 hn).1
    generalize leftRightNode cfg h x (y, m) = st at *
    obtain ⟨y1, m1⟩ := st
    simp only [] at *
    subst a1
    obtain ⟨b, b1, b2, b3, b4, b5, b6⟩ := lr_nodes cfg hv hs (x + (h.size.height + cfg.vertical)) y1 (m ++ a) hsz.2 (by
      rw [List.map_append, a3]; exact hn)
    refine ⟨a ++ b, by rw [b1, List.append_assoc], le_trans a2 b2, by rw [List.map_append, a3, b3]; rfl, by rw [List.map_append, a4, b4]; rfl, ?_, ?_⟩
    · intro e he
      rcases List.mem_append.1 he with he | he
      · exact ⟨(a5 e he).1, le_trans (a5 e he).2 b2⟩
      · exact ⟨le_trans a2 (b5 e he).1, (b5 e he).2⟩
    · rw [List.pairwise_append]
      exact ⟨a6, b6, fun e he f hf => le_trans (a5 e he).2 (b5 f hf).1⟩
end

theorem lr_roots (cfg : LayoutConfig) (hv : 0 ≤ cfg.horizontal) : ∀ (hs : List HNode) (y : ℚ) (m : Entries Rct),
    SizedAll hs → (m.map Prod.fst ++ hidsAll hs).Nodup →
    ∃ added, (leftRightRoots cfg hs (y, m)).2 = m ++ added ∧ y ≤ (leftRightRoots cfg hs (y, m)).1 ∧ added.map Prod.fst = hidsAll hs ∧
      added.map (fun e => (e.1, e.2.size)) = hsizesAll hs ∧
      (∀ e ∈ added, y ≤ e.2.origin.x) ∧
      added.Pairwise (fun e f => e.2.origin.x + e.2.size.width ≤ f.2.origin.x)
  | [], y, m, _, _ => ⟨[], by simp [leftRightRoots], le_refl _, rfl, rfl, by simp, .nil⟩
  | h :: hs, y, m, hsz, hn => by
    rw [SizedAll] at hsz
    rw [hidsAll, ← List.append_assoc] at hn
    rw [leftRightRoots]
    obtain ⟨a, a1, a2, a3, a4, a5, a6⟩ := lr_node cfg hv h cfg.margin y m hsz.1 (List.nodup_append.1 hn).1
    generalize leftRightNode cfg h cfg.margin (y, m) = st at *
    obtain ⟨y1, m1⟩ := st
    simp only [] at *
    subst a1
    obtain ⟨b, b1, b2, b3, b4, b5, b6⟩ := lr_roots cfg hv hs (y1 + cfg.horizontal) (m ++ a) hsz.2 (by
      rw [List.map_append, a3]; exact hn)
    refine ⟨a ++ b, by rw [b1, List.append_assoc], by linarith, by rw [List.map_append, a3, b3]; rfl, by rw [List.map_append, a4, b4]; rfl, ?_, ?_⟩
    · intro e he
      rcases List.mem_append.1 he with he | he
      · exact (a5 e he).1
      · have := b5 e he; linarith
    · rw [List.pairwise_append]
      exact ⟨a6, b6, fun e he f hf => by have := (a5 e he).2; have := b5 f hf; linarith⟩

/-! ## The hierarchy of a forest -/

/-- The id of a hierarchy. -/
def hid : HNode → Str
  | .mk id _ _ => id

/-- The targets of the edges from a node, in order. -/
def targets (edges : List LayoutEdge) (id : Str) : List Str := (edges.filter fun e => e.src = id).map (·.dst)

theorem edgeMaps_spec : ∀ (es : List LayoutEdge) (ch : FMap Str (List Str)) (hp : List Str),
    (∀ id, ((edgeMaps es (ch, hp)).1 id).getD [] = (ch id).getD [] ++ targets es id) ∧
    (∀ id, id ∈ (edgeMaps es (ch, hp)).2 ↔ id ∈ hp ∨ id ∈ es.map (·.dst))
  | [], ch, hp => by simp [edgeMaps, targets]
  | e :: es, ch, hp => by
    rw [edgeMaps]
    obtain ⟨h1, h2⟩ := edgeMaps_spec es (ch.insert e.src ((ch e.src).getD [] ++ [e.dst])) (e.dst :: hp)
    refine ⟨?_, ?_⟩
    · intro id
      rw [h1, FMap.insert_get]
      unfold targets
      by_cases h : id = e.src
      · subst h; simp
      · rw [if_neg h, List.filter_cons_of_neg (by simpa using fun h' => h h'.symm)]
    · intro id
      rw [h2]
      simp only [List.mem_cons, List.map_cons]
      tauto

mutual
/-- The hierarchy has the children and the sizes it should have. -/
def Built (nodes : List LayoutNode) (edges : List LayoutEdge) : HNode → Prop
  | .mk id cs s => cs.map hid = targets edges id ∧ (∃ n ∈ nodes, n.id = id ∧ n.size = s) ∧ BuiltAll nodes edges cs
/-- All hierarchies have the children and the sizes they should have. -/
def BuiltAll (nodes : List LayoutNode) (edges : List LayoutEdge) : List HNode → Prop
  | [] => True
  | h :: hs => Built nodes edges h ∧ BuiltAll nodes edges hs
end

theorem buildNodes_ok (nodes : List LayoutNode) (edges : List LayoutEdge) (ch : FMap Str (List Str)) (fuel : Nat) :
    ∀ ids : List Str, (∀ id ∈ ids, ∃ h, buildNode nodes ch fuel id = .ok h ∧ hid h = id ∧ Built nodes edges h) →
    ∃ hs, buildNodes nodes ch fuel ids = .ok hs ∧ hs.map hid = ids ∧ BuiltAll nodes edges hs
  | [], _ => ⟨[], by rw [buildNodes], rfl, by rw [BuiltAll]; trivial⟩
  | id :: ids, h => by
    obtain ⟨t, t1, t2, t3⟩ := h id List.mem_cons_self
    obtain ⟨hs, s1, s2, s3⟩ := buildNodes_ok nodes edges ch fuel ids (fun i hi => h i (List.mem_cons_of_mem _ hi))
    refine ⟨t :: hs, ?_, by rw [List.map_cons, t2, s2], by rw [BuiltAll]; exact ⟨t3, s3⟩⟩
    rw [buildNodes, t1, s1]
    rfl

theorem buildNode_ok (rank : Str → Nat) (nodes : List LayoutNode) (edges : List LayoutEdge) (hf : Forest rank nodes edges)
    (ch : FMap Str (List Str)) (hch : ∀ id, (ch id).getD [] = targets edges id) (B : Nat) (hB : ∀ n ∈ nodes, rank n.id < B) :
    ∀ (fuel : Nat) (id : Str), (∃ n ∈ nodes, n.id = id) → B ≤ fuel + rank id →
    ∃ h, buildNode nodes ch fuel id = .ok h ∧ hid h = id ∧ Built nodes edges h
  | 0, id, ⟨n, hn, e⟩, hb => by
    have := hB n hn; rw [e] at this; omega
  | fuel + 1, id, ⟨n, hn, e⟩, hb => by
    rw [buildNode]
    have hfind : ∃ n', nodes.find? (fun n => n.id = id) = some n' := by
      rw [← Option.isSome_iff_exists, List.find?_isSome]
      exact ⟨n, hn, by simpa using e⟩
    obtain ⟨n', hn'⟩ := hfind
    have hmem := List.mem_of_find?_eq_some hn'
    have hid' : n'.id = id := by simpa using List.find?_some hn'
    rw [hn', hch]
    obtain ⟨cs, c1, c2, c3⟩ := buildNodes_ok nodes edges ch fuel (targets edges id) (by
      intro c hc
      unfold targets at hc
      obtain ⟨ed, hed, rfl⟩ := List.mem_map.1 hc
      rw [List.mem_filter] at hed
      have hs : ed.src = id := by simpa using hed.2
      refine buildNode_ok rank nodes edges hf ch hch B hB fuel ed.dst (hf.known ed hed.1).2 ?_
      have := hf.rank ed hed.1
      rw [hs] at this
      omega)
    refine ⟨.mk id cs n'.size, ?_, rfl, ?_⟩
    · simp only [c1]; rfl
    · rw [Built]; exact ⟨c2, ⟨n', hmem, hid', rfl⟩, c3⟩

mutual
theorem hids_perm (nodes : List LayoutNode) (edges : List LayoutEdge) : ∀ h : HNode, Built nodes edges h →
    (hids h).Perm (hid h :: (hids h).flatMap (targets edges))
  | .mk id cs s, hb => by
    rw [Built] at hb
    rw [hids, hid, List.flatMap_cons, ← hb.1]
    exact (hidsAll_perm nodes edges cs hb.2.2).cons _
theorem hidsAll_perm (nodes : List LayoutNode) (edges : List LayoutEdge) : ∀ hs : List HNode, BuiltAll nodes edges hs →
    (hidsAll hs).Perm (hs.map hid ++ (hidsAll hs).flatMap (targets edges))
  | [], _ => by rw [hidsAll]; simp
  | h :: hs, hb => by
    rw [BuiltAll] at hb
    have h1 := hids_perm nodes edges h hb.1
    have h2 := hidsAll_perm nodes edges hs hb.2
    rw [hidsAll, List.map_cons, List.flatMap_append]
    refine (h1.append h2).trans ?_
    rw [List.cons_append, List.cons_append]
    refine List.Perm.cons _ ?_
    rw [← List.append_assoc, ← List.append_assoc]
    exact List.perm_append_comm.append_right _
end

mutual
theorem hsizes_spec (nodes : List LayoutNode) (edges : List LayoutEdge) : ∀ h : HNode, Built nodes edges h →
    (hsizes h).map Prod.fst = hids h ∧ ∀ p ∈ hsizes h, ∃ n ∈ nodes, n.id = p.1 ∧ n.size = p.2
  | .mk id cs s, hb => by
    rw [Built] at hb
    obtain ⟨h1, h2⟩ := hsizesAll_spec nodes edges cs hb.2.2
    rw [hsizes, hids]
    refine ⟨by rw [List.map_cons, h1], ?_⟩
    intro p hp
    rcases List.mem_cons.1 hp with rfl | hp
    · exact hb.2.1
    · exact h2 p hp
theorem hsizesAll_spec (nodes : List LayoutNode) (edges : List LayoutEdge) : ∀ hs : List HNode, BuiltAll nodes edges hs →
    (hsizesAll hs).map Prod.fst = hidsAll hs ∧ ∀ p ∈ hsizesAll hs, ∃ n ∈ nodes, n.id = p.1 ∧ n.size = p.2
  | [], _ => by rw [hsizesAll, hidsAll]; simp
  | h :: hs, hb => by
    rw [BuiltAll] at hb
    obtain ⟨a1, a2⟩ := hsizes_spec nodes edges h hb.1
    obtain ⟨b1, b2⟩ := hsizesAll_spec nodes edges hs hb.2
    rw [hsizesAll, hidsAll]
    refine ⟨by rw [List.map_append, a1, b1], ?_⟩
    intro p hp
    rcases List.mem_append.1 hp with hp | hp
    · exact a2 p hp
    · exact b2 p hp
end

mutual
theorem sized_built (nodes : List LayoutNode) (edges : List LayoutEdge) (hn : ∀ n ∈ nodes, 0 ≤ n.size.width ∧ 0 ≤ n.size.height) :
    ∀ h : HNode, Built nodes edges h → Sized h
  | .mk id cs s, hb => by
    rw [Built] at hb
    rw [Sized]
    obtain ⟨n, hm, _, rfl⟩ := hb.2.1
    exact ⟨hn n hm, sizedAll_built nodes edges hn cs hb.2.2⟩
theorem sizedAll_built (nodes : List LayoutNode) (edges : List LayoutEdge) (hn : ∀ n ∈ nodes, 0 ≤ n.size.width ∧ 0 ≤ n.size.height) :
    ∀ hs : List HNode, BuiltAll nodes edges hs → SizedAll hs
  | [], _ => by rw [SizedAll]; trivial
  | h :: hs, hb => by
    rw [BuiltAll] at hb
    rw [SizedAll]
    exact ⟨sized_built nodes edges hn h hb.1, sizedAll_built nodes edges hn hs hb.2⟩
end

mutual
/-- A node stands before its children. -/
theorem hids_order (nodes : List LayoutNode) (edges : List LayoutEdge) : ∀ h : HNode, Built nodes edges h →
    ∀ e ∈ edges, e.src ∈ hids h → ∃ a b, hids h = a ++ e.src :: b ∧ e.dst ∈ b
  | .mk id cs s, hb => by
    rw [Built] at hb
    intro e he hm
    rw [hids] at hm ⊢
    by_cases h : e.src = id
    · refine ⟨[], hidsAll cs, by rw [h]; rfl, ?_⟩
      have hd : e.dst ∈ cs.map hid := by
        rw [hb.1]; unfold targets
        exact List.mem_map.2 ⟨e, List.mem_filter.2 ⟨he, by simpa using h⟩, rfl⟩
      exact (hidsAll_perm nodes edges cs hb.2.2).mem_iff.2 (List.mem_append_left _ hd)
    · have hm : e.src ∈ hidsAll cs := by
        rcases List.mem_cons.1 hm with h' | h'
        · exact absurd h' h
        · exact h'
      obtain ⟨a, b, h1, h2⟩ := hidsAll_order nodes edges cs hb.2.2 e he hm
      exact ⟨id :: a, b, by rw [h1]; rfl, h2⟩
theorem hidsAll_order (nodes : List LayoutNode) (edges : List LayoutEdge) : ∀ hs : List HNode, BuiltAll nodes edges hs →
    ∀ e ∈ edges, e.src ∈ hidsAll hs → ∃ a b, hidsAll hs = a ++ e.src :: b ∧ e.dst ∈ b
  | [], _ => by intro e _ h; rw [hidsAll] at h; simp at h
  | h :: hs, hb => by
    rw [BuiltAll] at hb
    intro e he hm
    rw [hidsAll] at hm ⊢
    rcases List.mem_append.1 hm with hm | hm
    · obtain ⟨a, b, h1, h2⟩ := hids_order nodes edges h hb.1 e he hm
      exact ⟨a, b ++ hidsAll hs, by rw [h1]; simp, List.mem_append_left _ h2⟩
    · obtain ⟨a, b, h1, h2⟩ := hidsAll_order nodes edges hs hb.2 e he hm
      exact ⟨hids h ++ a, b, by rw [h1]; simp, h2⟩
end

theorem count_flatMap_targets (edges : List LayoutEdge) (x : Str) : ∀ F : List Str,
    (F.flatMap (targets edges)).count x = (F.map fun p => (targets edges p).count x).sum
  | [] => rfl
  | p :: F => by rw [List.flatMap_cons, List.count_append, count_flatMap_targets edges x F]; rfl

theorem sum_indicator (p : Str) : ∀ F : List Str, (F.map fun q => if q = p then 1 else 0).sum = F.count p
  | [] => rfl
  | q :: F => by
    rw [List.map_cons, List.sum_cons, sum_indicator p F, List.count_cons]
    by_cases h : q = p
    · subst h; simp; omega
    · simp [h]

theorem targets_count (edges : List LayoutEdge) (hn : (edges.map (·.dst)).Nodup) (e : LayoutEdge) (he : e ∈ edges) (p : Str) :
    (targets edges p).count e.dst = if p = e.src then 1 else 0 := by
  have hsub : (targets edges p).Sublist (edges.map (·.dst)) := List.filter_sublist.map _
  have hnd := hsub.nodup hn
  rw [hnd.count]
  by_cases h : p = e.src
  · subst h
    rw [if_pos (show e.dst ∈ targets edges e.src from List.mem_map.2 ⟨e, List.mem_filter.2 ⟨he, by simp⟩, rfl⟩), if_pos rfl]
  · rw [if_neg h, if_neg]
    intro hm
    obtain ⟨e', he', hd⟩ := List.mem_map.1 hm
    rw [List.mem_filter] at he'
    have : e' = e := List.inj_on_of_nodup_map hn he'.1 he hd
    subst this
    exact h (by simpa using (of_decide_eq_true he'.2).symm)

theorem forest_ids (rank : Str → Nat) (nodes : List LayoutNode) (edges : List LayoutEdge) (hf : Forest rank nodes edges)
    (F : List Str) (hF : F.Perm (((nodes.filter fun n => n.id ∉ edges.map (·.dst)).map (·.id)) ++ F.flatMap (targets edges))) :
    F.Perm (nodes.map (·.id)) := by
  have hcount : ∀ x, F.count x = ((nodes.filter fun n => n.id ∉ edges.map (·.dst)).map (·.id)).count x + (F.map fun p => (targets edges p).count x).sum := by
    intro x; rw [hF.count_eq x, List.count_append, count_flatMap_targets]
  have hroots : ∀ x, ((nodes.filter fun n => n.id ∉ edges.map (·.dst)).map (·.id)).count x =
      if x ∉ edges.map (·.dst) ∧ x ∈ nodes.map (·.id) then 1 else 0 := by
    intro x
    have hsub : ((nodes.filter fun n => n.id ∉ edges.map (·.dst)).map (·.id)).Sublist (nodes.map (·.id)) := List.filter_sublist.map _
    rw [(hsub.nodup hf.ids).count]
    congr 1
    simp only [List.mem_map, List.mem_filter, decide_eq_true_eq, eq_iff_iff]
    constructor
    · rintro ⟨n, ⟨h1, h2⟩, rfl⟩; exact ⟨h2, n, h1, rfl⟩
    · rintro ⟨h1, n, h2, rfl⟩; exact ⟨n, ⟨h2, h1⟩, rfl⟩
  have key : ∀ r x, rank x ≤ r → F.count x = (nodes.map (·.id)).count x := by
    intro r
    induction r using Nat.strong_induction_on with
    | _ r ih =>
      intro x hx
      rw [hcount, hroots]
      by_cases hd : x ∈ edges.map (·.dst)
      · rw [if_neg (by simp only [hd]; simp)]
        obtain ⟨e, he, rfl⟩ := List.mem_map.1 hd
        simp only [targets_count edges hf.parent e he, sum_indicator]
        have hr := hf.rank e he
        rw [Nat.zero_add, ih (rank e.src) (by omega) e.src (le_refl _), hf.ids.count, hf.ids.count,
          if_pos (by obtain ⟨n, h1, h2⟩ := (hf.known e he).1; exact List.mem_map.2 ⟨n, h1, h2⟩),
          if_pos (by obtain ⟨n, h1, h2⟩ := (hf.known e he).2; exact List.mem_map.2 ⟨n, h1, h2⟩)]
      · have h0 : (F.map fun p => (targets edges p).count x).sum = 0 := by
          rw [List.sum_eq_zero_iff_forall_eq_nat]
          intro k hk
          obtain ⟨p, _, rfl⟩ := List.mem_map.1 hk
          rw [List.count_eq_zero]
          intro hm
          obtain ⟨e, he, rfl⟩ := List.mem_map.1 hm
          exact hd (List.mem_map.2 ⟨e, (List.mem_filter.1 he).1, rfl⟩)
        rw [h0, hf.ids.count, Nat.add_zero]
        simp only [hd, not_false_eq_true, true_and]
  rw [List.perm_iff_count]
  exact fun x => key _ x (le_refl _)

theorem buildHierarchy_ok (rank : Str → Nat) (nodes : List LayoutNode) (edges : List LayoutEdge) (hf : Forest rank nodes edges)
    (fuel : Nat) (hfuel : ∀ n ∈ nodes, rank n.id < fuel) :
    ∃ hs, buildHierarchy fuel nodes edges = .ok hs ∧ BuiltAll nodes edges hs ∧ (hidsAll hs).Perm (nodes.map (·.id)) := by
  obtain ⟨h1, h2⟩ := edgeMaps_spec edges FMap.empty []
  unfold buildHierarchy
  generalize edgeMaps edges (FMap.empty, []) = st at *
  obtain ⟨ch, hp⟩ := st
  simp only [] at *
  have hch : ∀ id, (ch id).getD [] = targets edges id := by
    intro id; rw [h1]; simp [FMap.empty]
  have hfil : (nodes.filter fun n => decide (n.id ∉ hp)) = nodes.filter fun n => decide (n.id ∉ edges.map (·.dst)) := by
    congr 1; funext n; simp [h2]
  rw [hfil]
  obtain ⟨hs, s1, s2, s3⟩ := buildNodes_ok nodes edges ch fuel ((nodes.filter fun n => n.id ∉ edges.map (·.dst)).map (·.id)) (by
    intro id hid'
    obtain ⟨n, hn, rfl⟩ := List.mem_map.1 hid'
    exact buildNode_ok rank nodes edges hf ch hch fuel hfuel fuel n.id ⟨n, (List.mem_filter.1 hn).1, rfl⟩ (by omega))
  refine ⟨hs, s1, s3, forest_ids rank nodes edges hf _ ?_⟩
  have := hidsAll_perm nodes edges hs s3
  rwa [s2] at this

/-! ## The layout -/

/-- The node of a layout for a rectangle. -/
def rectNode (e : Str × Rct) : Str × LNode := (e.1, ⟨e.1, e.2, .dflt⟩)

theorem addRects_spec : ∀ (ps : Entries Rct) (l : Lay), (l.nodes.map Prod.fst ++ ps.map Prod.fst).Nodup →
    (addRects ps l).nodes = l.nodes ++ ps.map rectNode ∧ (addRects ps l).edges = l.edges
  | [], l, _ => by simp [addRects]
  | (id, r) :: ps, l, h => by
    rw [addRects]
    have hnew : (l.addNode id id r .dflt).nodes = l.nodes ++ [rectNode (id, r)] := by
      unfold Lay.addNode
      rw [updateBounds_nodes]
      refine putEntry_new _ _ _ ?_
      intro hm
      exact (List.nodup_append.1 h).2.2 _ hm _ (by simp) rfl
    have hed : (l.addNode id id r .dflt).edges = l.edges := by
      unfold Lay.addNode
      rw [updateBounds_edges]
    obtain ⟨h1, h2⟩ := addRects_spec ps (l.addNode id id r .dflt) (by
      rw [hnew]
      simpa [rectNode] using h)
    rw [h1, h2, hnew, hed]
    simp

theorem getEntry_mem {V : Type} (k : Str) : ∀ m : Entries V, k ∈ m.map Prod.fst → ∃ v, getEntry k m = some v ∧ (k, v) ∈ m
  | [], h => by simp at h
  | (k', v') :: m, h => by
    rw [getEntry]
    by_cases hk : k' = k
    · subst hk; exact ⟨v', if_pos rfl, List.mem_cons_self⟩
    · rw [if_neg hk]
      have : k ∈ m.map Prod.fst := by
        rw [List.map_cons] at h
        rcases List.mem_cons.1 h with h | h
        · exact absurd h.symm hk
        · exact h
      obtain ⟨v, h1, h2⟩ := getEntry_mem k m this
      exact ⟨v, h1, List.mem_cons_of_mem _ h2⟩

/-- One edge is routed as it should be. -/
def RoutedOne (ns : Entries LNode) (e : LayoutEdge) (r : LEdge) : Prop :=
  r.src = e.src ∧ r.dst = e.dst ∧ r.label = e.label ∧
    ∃ a b, (e.src, a) ∈ ns ∧ (e.dst, b) ∈ ns ∧
      r.points = [⟨a.rect.origin.x + a.rect.size.width / 2, a.rect.origin.y + a.rect.size.height / 2⟩,
        ⟨b.rect.origin.x + b.rect.size.width / 2, b.rect.origin.y + b.rect.size.height / 2⟩]

theorem addRouted_spec : ∀ (es : List LayoutEdge) (l : Lay),
    (∀ e ∈ es, e.src ∈ l.nodes.map Prod.fst ∧ e.dst ∈ l.nodes.map Prod.fst) →
    (addRouted es l).nodes = l.nodes ∧ ∃ rs, (addRouted es l).edges = l.edges ++ rs ∧ List.Forall₂ (RoutedOne l.nodes) es rs
  | [], l, _ => ⟨rfl, [], by simp [addRouted], .nil⟩
  | e :: es, l, h => by
    obtain ⟨hs, hd⟩ := h e List.mem_cons_self
    obtain ⟨a, a1, a2⟩ := getEntry_mem e.src l.nodes hs
    obtain ⟨b, b1, b2⟩ := getEntry_mem e.dst l.nodes hd
    rw [addRouted, a1, b1]
    simp only []
    obtain ⟨h1, rs, h2, h3⟩ := addRouted_spec es (l.addEdge (routeEdge a.rect b.rect e.src e.dst e.label))
      (fun e' he' => h e' (List.mem_cons_of_mem _ he'))
    refine ⟨h1, routeEdge a.rect b.rect e.src e.dst e.label :: rs, ?_, ?_⟩
    · rw [h2]; unfold Lay.addEdge; simp
    · exact .cons ⟨rfl, rfl, rfl, a, b, a2, b2, rfl⟩ h3

theorem pair_split {α β : Type} (f : α → β) (R : α → α → Prop) (L : List α) (a b : List β) (x y : β)
    (hp : L.Pairwise R) (h : L.map f = a ++ x :: b) (hy : y ∈ b) : ∃ u v, u ∈ L ∧ v ∈ L ∧ f u = x ∧ f v = y ∧ R u v := by
  obtain ⟨l1, l2, rfl, h1, h2⟩ := List.map_eq_append_iff.1 h
  obtain ⟨u, l3, rfl, h3, h4⟩ := List.map_eq_cons_iff.1 h2
  rw [← h4] at hy
  obtain ⟨v, hv, rfl⟩ := List.mem_map.1 hy
  refine ⟨u, v, by simp, by simp [hv], h3, rfl, ?_⟩
  have := (List.pairwise_append.1 hp).2.1
  exact (List.pairwise_cons.1 this).1 v hv

theorem find_id (nodes : List LayoutNode) (h : (nodes.map (·.id)).Nodup) (n : LayoutNode) (hn : n ∈ nodes) (i : Str) (hi : n.id = i) :
    nodes.find? (fun m => m.id = i) = some n := by
  have : ∃ m, nodes.find? (fun m => m.id = i) = some m := by
    rw [← Option.isSome_iff_exists, List.find?_isSome]
    exact ⟨n, hn, by simpa using hi⟩
  obtain ⟨m, hm⟩ := this
  have h1 := List.mem_of_find?_eq_some hm
  have h2 : m.id = i := by simpa using List.find?_some hm
  rw [hm, List.inj_on_of_nodup_map h h1 hn (by rw [h2, hi])]

/-- Rectangles in a good order along an axis give a good layout. -/
theorem layout_good (R : Rct → Rct → Prop) (hR : ∀ r s, R r s → Apart r s) (nodes : List LayoutNode) (edges : List LayoutEdge)
    (hids : (nodes.map (·.id)).Nodup) (hknown : ∀ e ∈ edges, (∃ n ∈ nodes, n.id = e.src) ∧ ∃ n ∈ nodes, n.id = e.dst)
    (hs : List HNode) (hb : BuiltAll nodes edges hs) (hperm : (hidsAll hs).Perm (nodes.map (·.id)))
    (ps : Entries Rct) (h1 : ps.map Prod.fst = hidsAll hs) (h2 : ps.map (fun e => (e.1, e.2.size)) = hsizesAll hs)
    (h3 : ps.Pairwise fun e f => R e.2 f.2) :
    Places nodes (addRouted edges (addRects ps Lay.new)) ∧ Clear (addRouted edges (addRects ps Lay.new)) ∧
    Routed edges (addRouted edges (addRects ps Lay.new)) ∧
    ∀ e ∈ edges, ∃ a b, (e.src, a) ∈ (addRouted edges (addRects ps Lay.new)).nodes ∧ (e.dst, b) ∈ (addRouted edges (addRects ps Lay.new)).nodes ∧ R a.rect b.rect := by
  have hnd : (hidsAll hs).Nodup := hperm.nodup_iff.2 hids
  obtain ⟨n1, n2⟩ := addRects_spec ps Lay.new (by rw [h1]; exact hnd)
  have hn : (addRects ps Lay.new).nodes = ps.map rectNode := by rw [n1]; rfl
  have hkeys : (addRects ps Lay.new).nodes.map Prod.fst = hidsAll hs := by
    rw [hn, List.map_map, ← h1]; rfl
  obtain ⟨r1, rs, r2, r3⟩ := addRouted_spec edges (addRects ps Lay.new) (by
    intro e he
    rw [hkeys, hperm.mem_iff, hperm.mem_iff]
    obtain ⟨⟨n, a1, a2⟩, ⟨m, b1, b2⟩⟩ := hknown e he
    exact ⟨List.mem_map.2 ⟨n, a1, a2⟩, List.mem_map.2 ⟨m, b1, b2⟩⟩)
  have hed : (addRouted edges (addRects ps Lay.new)).edges = rs := by rw [r2, n2]; rfl
  obtain ⟨z1, z2⟩ := hsizesAll_spec nodes edges hs hb
  refine ⟨?_, ?_, ?_, ?_⟩
  · unfold Places
    rw [r1, hn, List.map_map]
    have : ((fun e : Str × LNode => (e.1, e.2.rect.size)) ∘ rectNode) = fun e => (e.1, e.2.size) := rfl
    rw [this, h2]
    have hz : hsizesAll hs = (hidsAll hs).map fun i => (i, ((nodes.find? fun n => n.id = i).map (·.size)).getD ⟨0, 0⟩) := by
      rw [← z1, List.map_map]
      conv_lhs => rw [← List.map_id (hsizesAll hs)]
      refine List.map_congr_left ?_
      intro p hp
      obtain ⟨n, hn, e1, e2⟩ := z2 p hp
      rw [Function.comp_apply, find_id nodes hids n hn p.1 e1, Option.map_some, Option.getD_some, e2]
      rfl
    have hz' : nodes.map (fun n => (n.id, n.size)) = (nodes.map (·.id)).map fun i => (i, ((nodes.find? fun n => n.id = i).map (·.size)).getD ⟨0, 0⟩) := by
      rw [List.map_map]
      refine List.map_congr_left ?_
      intro n hn
      rw [Function.comp_apply, find_id nodes hids n hn n.id rfl]
      rfl
    rw [hz, hz']
    exact hperm.map _
  · unfold Clear
    rw [r1, hn, List.map_map, List.pairwise_map]
    exact h3.imp fun h => hR _ _ h
  · unfold Routed
    rw [hed, r1]
    exact r3
  · intro e he
    rw [r1, hn]
    obtain ⟨a, b, o1, o2⟩ := hidsAll_order nodes edges hs hb e he (by
      rw [hperm.mem_iff]
      obtain ⟨⟨n, a1, a2⟩, _⟩ := hknown e he
      exact List.mem_map.2 ⟨n, a1, a2⟩)
    rw [← h1] at o1
    obtain ⟨u, v, u1, v1, rfl', hv, hr⟩ := pair_split Prod.fst _ ps a b e.src e.dst h3 o1 o2
    refine ⟨(rectNode u).2, (rectNode v).2, ?_, ?_, hr⟩
    · rw [← rfl']; exact List.mem_map.2 ⟨u, u1, rfl⟩
    · rw [← hv]; exact List.mem_map.2 ⟨v, v1, rfl⟩

end Oaks.Viz
