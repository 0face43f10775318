import Verif.Proofs.TreeLayout
import Mathlib.Data.List.Nodup

/-! # C65, C66: the layered and the compact tree layout -/

namespace Oaks.Viz.Props
open Oaks.Viz Oaks.Viz.Spec Oaks

theorem ofKind_nodeType (k : Str) : OfKind k (nodeType k) := by
  unfold nodeType
  split
  · assumption
  · split
    · assumption
    · split
      · assumption
      · exact ⟨by assumption, by assumption, by assumption⟩

/-- The layout made of places related to the nodes of a tree. -/
theorem shown (g : TreeCfg) (t : VTree) (its : List Item) (ps : Entries Place) (hn : (its.map Item.id).Nodup)
    (h : List.Forall₂ (CompactRel g) its ps) (hp : ps.Pairwise ApartPl) :
    Shows g its (addTreeEdges t (Lay.addPlaces ps Lay.new)) ∧ Clear (addTreeEdges t (Lay.addPlaces ps Lay.new)) := by
  have hids : ps.map Prod.fst = its.map Item.id := forall2_ids (fun _ _ h => h.1) h
  obtain ⟨h1, _⟩ := addPlaces_spec ps Lay.new (by simpa [Lay.new, hids] using hn)
  unfold Shows Clear
  rw [(treeEdges_spec t _).1, h1, Lay.new, List.nil_append, List.map_map]
  refine ⟨?_, ?_⟩
  · rw [List.forall₂_map_right_iff]
    refine h.imp ?_
    rintro i e ⟨e1, e2, e3, e4, e5⟩
    exact ⟨e1, e2, by rw [← e3]; exact ofKind_nodeType _, e4, e5⟩
  · rw [List.pairwise_map]
    exact hp

/-- Layered layout: every node is shown once, with its label, type and size, on the height of its level, and no two
nodes overlap, if the ids are distinct, the levels are far enough apart and the widths of nodes on one level
differ by at most twice the gap. Missing: trees whose widths differ more (`C65_layered_witness`). -/
theorem C65_layered_partial (g : TreeCfg) (t : VTree) (hn : ((items t 0).map Item.id).Nodup) (hd : 0 ≤ g.siblingDistance)
    (hs : ∀ a ∈ items t 0, 0 ≤ (itemSize g.nodeWidth g.nodeHeight a).width ∧
      0 ≤ (itemSize g.nodeWidth g.nodeHeight a).height ∧ (itemSize g.nodeWidth g.nodeHeight a).height ≤ g.levelDistance)
    (hw : ∀ a ∈ items t 0, ∀ b ∈ items t 0, a.level = b.level →
      (itemSize g.nodeWidth g.nodeHeight a).width ≤ (itemSize g.nodeWidth g.nodeHeight b).width + 2 * g.siblingDistance) :
    Shows g (items t 0) (layeredLayout g t) ∧ Clear (layeredLayout g t) := by
  have h := lay_fold g (levelWidths g t 0 FMap.empty) hd (items t 0) [] (FMap.empty, []) (by simpa using hn)
    (by simpa using items_root t) ⟨hs, hw⟩ ⟨.nil, .nil⟩
  rw [List.nil_append, ← layered_fold] at h
  refine shown g t _ _ hn (h.1.imp ?_) ?_
  · rintro i e ⟨e1, e2, e3, e4, e5, _⟩
    exact ⟨e1, e2, e3, e4, e5⟩
  · have := h.2
    rw [List.pairwise_map] at this
    exact this

/-- A wide and a narrow sibling overlap in the layered layout: the x of a node is its left edge, but it is computed
as if it were its centre. -/
theorem C65_layered_witness :
    ¬ Clear (layeredLayout TreeCfg.std (.mk "r".toList [] [] none
      [.mk "a".toList [] [] (some ⟨200, 40⟩) [], .mk "b".toList [] [] (some ⟨10, 40⟩) []])) := by
  unfold Clear
  simp only [layeredLayout, levelWidths, levelWidthsAll, positionLayered, positionLayeredAll]
  decide +kernel

/-- Compact layout: every node is shown once, with its label, type and size, on the height of its level, and no two
nodes overlap, if the ids are distinct, the levels are far enough apart and no node is wider than the trees below it
side by side. Missing: trees with wider nodes (`C65_compact_witness`). -/
theorem C65_compact_partial (g : TreeCfg) (t : VTree) (hn : ((items t 0).map Item.id).Nodup) (hd : 0 ≤ g.siblingDistance)
    (hs : ∀ a ∈ items t 0, 0 ≤ (itemSize g.nodeWidth g.nodeHeight a).width ∧
      0 ≤ (itemSize g.nodeWidth g.nodeHeight a).height ∧ (itemSize g.nodeWidth g.nodeHeight a).height ≤ g.levelDistance)
    (hr : Roomy g t) :
    Shows g (items t 0) (compactLayout g t) ∧ Clear (compactLayout g t) := by
  have h := compact_rel g t 0 0
  rw [show ((0 : Nat) : ℚ) * g.levelDistance = 0 by simp] at h
  unfold compactLayout
  have hids : (ptPlaces (positionCompact g t 0 0)).map Prod.fst = (items t 0).map Item.id := forall2_ids (fun _ _ h => h.1) h
  rw [extract_spec _ _ (by simpa [hids] using hn), List.nil_append]
  exact shown g t _ _ hn h (compact_clear g hd t 0 0 0 hs hr).2

/-- Two wide nodes over narrow children overlap in the compact layout. -/
theorem C65_compact_witness :
    ¬ Clear (compactLayout TreeCfg.std (.mk "r".toList [] [] none
      [.mk "a".toList [] [] (some ⟨200, 40⟩) [.mk "c".toList [] [] (some ⟨10, 40⟩) []],
       .mk "b".toList [] [] (some ⟨200, 40⟩) [.mk "d".toList [] [] (some ⟨10, 40⟩) []]])) := by
  unfold Clear
  decide +kernel

/-! ## Syntax trees -/

theorem nodeId_inj {m n : Nat} (h : nodeId m = nodeId n) : m = n := by
  unfold nodeId at h
  have h := List.append_cancel_left h
  rw [Nat.toString_eq_repr, Nat.toString_eq_repr, Nat.toList_repr, Nat.toList_repr] at h
  rw [← Nat.ofDigitChars_ten_toDigits (n := m), h, Nat.ofDigitChars_ten_toDigits]

mutual
theorem ofGreen_spec (name : Nat → Str) : ∀ (t : Green) (n level : Nat),
    (items (VTree.ofGreen name t n).1 level).map (fun i => (i.level, i.label, i.kind)) =
      (elements t level).map (fun e => (e.1, name e.2.1, if e.2.2 then "leaf".toList else "node".toList)) ∧
    (∀ i ∈ items (VTree.ofGreen name t n).1 level, i.size = none) ∧
    (items (VTree.ofGreen name t n).1 level).map Item.id = (List.range' n (elements t level).length).map nodeId ∧
    (VTree.ofGreen name t n).2 = n + (elements t level).length
  | .leaf k len md, n, level => by
    rw [VTree.ofGreen, elements, items, itemsAll]
    simp
  | .node k len cs, n, level => by
    rw [VTree.ofGreen, elements]
    simp only []
    rw [items]
    obtain ⟨h1, h2, h3, h4⟩ := ofGreens_spec name cs (n + 1) (level + 1)
    refine ⟨by simp [h1], ?_, ?_, ?_⟩
    · intro i hi
      rcases List.mem_cons.1 hi with rfl | hi
      · rfl
      · exact h2 i hi
    · rw [List.map_cons, h3, List.length_cons, List.range'_succ, List.map_cons]
    · rw [h4, List.length_cons]; omega
theorem ofGreens_spec (name : Nat → Str) : ∀ (ts : List Green) (n level : Nat),
    (itemsAll (VTree.ofGreens name ts n).1 level).map (fun i => (i.level, i.label, i.kind)) =
      (elementsAll ts level).map (fun e => (e.1, name e.2.1, if e.2.2 then "leaf".toList else "node".toList)) ∧
    (∀ i ∈ itemsAll (VTree.ofGreens name ts n).1 level, i.size = none) ∧
    (itemsAll (VTree.ofGreens name ts n).1 level).map Item.id = (List.range' n (elementsAll ts level).length).map nodeId ∧
    (VTree.ofGreens name ts n).2 = n + (elementsAll ts level).length
  | [], n, level => by rw [VTree.ofGreens, elementsAll, itemsAll]; simp
  | c :: cs, n, level => by
    rw [VTree.ofGreens, elementsAll]
    simp only []
    rw [itemsAll]
    obtain ⟨a1, a2, a3, a4⟩ := ofGreen_spec name c n level
    obtain ⟨b1, b2, b3, b4⟩ := ofGreens_spec name cs (VTree.ofGreen name c n).2 level
    refine ⟨by rw [List.map_append, List.map_append, a1, b1], ?_, ?_, ?_⟩
    · intro i hi
      rcases List.mem_append.1 hi with hi | hi
      · exact a2 i hi
      · exact b2 i hi
    · rw [List.map_append, a3, b3, a4, List.length_append, ← List.map_append, List.range'_append_1]
    · rw [b4, a4, List.length_append]; omega
end

/-- The tree to be drawn has the elements of the syntax tree in their places, with distinct ids. -/
theorem C65_shape (name : Nat → Str) (t : Green) (n : Nat) :
    (items (VTree.ofGreen name t n).1 0).map (fun i => (i.level, i.label, i.kind)) =
      (elements t 0).map (fun e => (e.1, name e.2.1, if e.2.2 then "leaf".toList else "node".toList)) ∧
    ((items (VTree.ofGreen name t n).1 0).map Item.id).Nodup := by
  obtain ⟨h1, _, h3, _⟩ := ofGreen_spec name t n 0
  refine ⟨h1, ?_⟩
  rw [h3]
  exact List.Nodup.map (fun _ _ h => nodeId_inj h) List.nodup_range'

mutual
theorem uniform_room (g : TreeCfg) (hd : 0 ≤ g.siblingDistance) (hw : 0 ≤ g.nodeWidth) : ∀ (t : VTree) (n : Nat),
    (∀ i ∈ items t n, i.size = none) → g.nodeWidth ≤ room g t ∧ Roomy g t
  | .mk a b k size [], n, h => by
    have h1 := h ⟨n, a, b, k, size, true⟩ (by simp [items])
    simp only [] at h1
    subst h1
    rw [Roomy, room, RoomyAll, ownWidth]
    simp
  | .mk a b k size (c :: cs), n, h => by
    have h1 := h ⟨n, a, b, k, size, false⟩ (by simp [items])
    simp only [] at h1
    subst h1
    rw [items, itemsAll] at h
    obtain ⟨a1, a2⟩ := uniform_room g hd hw c (n + 1) (fun i hi => h i (by simp [hi]))
    obtain ⟨b1, b2⟩ := uniform_roomAll g hd hw cs (n + 1) (fun i hi => h i (by simp [hi]))
    rw [Roomy, room, RoomyAll, ownWidth]
    exact ⟨by linarith, by linarith, a2, b2⟩
theorem uniform_roomAll (g : TreeCfg) (hd : 0 ≤ g.siblingDistance) (hw : 0 ≤ g.nodeWidth) : ∀ (ts : List VTree) (n : Nat),
    (∀ i ∈ itemsAll ts n, i.size = none) → 0 ≤ roomRest g ts ∧ RoomyAll g ts
  | [], _, _ => by rw [roomRest, RoomyAll]; simp
  | c :: cs, n, h => by
    rw [itemsAll] at h
    obtain ⟨a1, a2⟩ := uniform_room g hd hw c n (fun i hi => h i (by simp [hi]))
    obtain ⟨b1, b2⟩ := uniform_roomAll g hd hw cs n (fun i hi => h i (by simp [hi]))
    rw [roomRest, RoomyAll]
    exact ⟨by linarith, a2, b2⟩
end

/-- Every syntax tree, laid out by default, shows each element once and nothing overlaps, layered or compact. -/
theorem C65_syntax (name : Nat → Str) (t : Green) (n : Nat) :
    let v := (VTree.ofGreen name t n).1
    (Shows TreeCfg.std (items v 0) (layeredLayout TreeCfg.std v) ∧ Clear (layeredLayout TreeCfg.std v)) ∧
    (Shows TreeCfg.std (items v 0) (compactLayout TreeCfg.std v) ∧ Clear (compactLayout TreeCfg.std v)) := by
  have hn := (C65_shape name t n).2
  have hsz := (ofGreen_spec name t n 0).2.1
  have hd : (0 : ℚ) ≤ TreeCfg.std.siblingDistance := by decide +kernel
  have he : ∀ a ∈ items (VTree.ofGreen name t n).1 0, itemSize TreeCfg.std.nodeWidth TreeCfg.std.nodeHeight a = ⟨100, 40⟩ := by
    intro a ha; unfold itemSize; rw [hsz a ha]; rfl
  have hs : ∀ a ∈ items (VTree.ofGreen name t n).1 0, 0 ≤ (itemSize TreeCfg.std.nodeWidth TreeCfg.std.nodeHeight a).width ∧
      0 ≤ (itemSize TreeCfg.std.nodeWidth TreeCfg.std.nodeHeight a).height ∧
      (itemSize TreeCfg.std.nodeWidth TreeCfg.std.nodeHeight a).height ≤ TreeCfg.std.levelDistance := by
    intro a ha
    rw [he a ha]
    decide +kernel
  refine ⟨C65_layered_partial _ _ hn hd hs ?_, C65_compact_partial _ _ hn hd hs ?_⟩
  · intro a ha b hb _
    rw [he a ha, he b hb]
    decide +kernel
  · exact (uniform_room _ hd (by decide +kernel) _ 0 hsz).2

/-! ## Bounds, edges, counts -/

/-- The four numbers are the smallest and largest coordinates of the rectangles. -/
def Extremes (rs : List Rct) (q : ℚ × ℚ × ℚ × ℚ) : Prop :=
  ((∀ r ∈ rs, q.1 ≤ r.minX) ∧ ∃ r ∈ rs, q.1 = r.minX) ∧ ((∀ r ∈ rs, q.2.1 ≤ r.minY) ∧ ∃ r ∈ rs, q.2.1 = r.minY) ∧
  ((∀ r ∈ rs, r.maxX ≤ q.2.2.1) ∧ ∃ r ∈ rs, q.2.2.1 = r.maxX) ∧ ((∀ r ∈ rs, r.maxY ≤ q.2.2.2) ∧ ∃ r ∈ rs, q.2.2.2 = r.maxY)

theorem min_step {rs : List Rct} {r : Rct} {a : ℚ} (f : Rct → ℚ) (h : (∀ s ∈ rs, a ≤ f s) ∧ ∃ s ∈ rs, a = f s) :
    (∀ s ∈ rs ++ [r], min a (f r) ≤ f s) ∧ ∃ s ∈ rs ++ [r], min a (f r) = f s := by
  obtain ⟨h1, s, hs, h2⟩ := h
  refine ⟨?_, ?_⟩
  · intro u hu
    rcases List.mem_append.1 hu with hu | hu
    · exact le_trans (min_le_left _ _) (h1 u hu)
    · rw [List.mem_singleton.1 hu]; exact min_le_right _ _
  · rcases le_total a (f r) with h | h
    · exact ⟨s, by simp [hs], by rw [min_eq_left h, h2]⟩
    · exact ⟨r, by simp, min_eq_right h⟩

theorem max_step {rs : List Rct} {r : Rct} {a : ℚ} (f : Rct → ℚ) (h : (∀ s ∈ rs, f s ≤ a) ∧ ∃ s ∈ rs, a = f s) :
    (∀ s ∈ rs ++ [r], f s ≤ max a (f r)) ∧ ∃ s ∈ rs ++ [r], max a (f r) = f s := by
  obtain ⟨h1, s, hs, h2⟩ := h
  refine ⟨?_, ?_⟩
  · intro u hu
    rcases List.mem_append.1 hu with hu | hu
    · exact le_trans (h1 u hu) (le_max_left _ _)
    · rw [List.mem_singleton.1 hu]; exact le_max_right _ _
  · rcases le_total a (f r) with h | h
    · exact ⟨r, by simp, max_eq_right h⟩
    · exact ⟨s, by simp [hs], by rw [max_eq_left h, h2]⟩

theorem bounds_loop : ∀ (rs seen : List Rct) (q : ℚ × ℚ × ℚ × ℚ), Extremes seen q →
    ∃ q', boundsLoop (some q) rs = some q' ∧ Extremes (seen ++ rs) q'
  | [], seen, (_, _, _, _), h => ⟨_, rfl, by simpa using h⟩
  | r :: rs, seen, (a, b, c, d), h => by
    rw [boundsLoop]
    obtain ⟨q', h1, h2⟩ := bounds_loop rs (seen ++ [r]) (min a r.minX, min b r.minY, max c r.maxX, max d r.maxY)
      ⟨min_step Rct.minX h.1, min_step Rct.minY h.2.1, max_step Rct.maxX h.2.2.1, max_step Rct.maxY h.2.2.2⟩
    exact ⟨q', h1, by simpa using h2⟩

theorem bounds_start (rs : List Rct) (h : rs ≠ []) : ∃ q, boundsLoop none rs = some q ∧ Extremes rs q := by
  cases rs with
  | nil => exact absurd rfl h
  | cons r rs =>
    rw [boundsLoop]
    exact bounds_loop rs [r] _ (by simp [Extremes])

/-- The bounds `update_bounds` computes. -/
def boundsOf (m : Entries LNode) : Rct :=
  match boundsLoop none (m.map fun e => e.2.rect) with
  | none => Rct.dflt
  | some (a, b, c, d) => Rct.fromXywh a b (c - a) (d - b)

theorem addPlaces_bounds : ∀ (ps : Entries Place) (l : Lay), l.bounds = boundsOf l.nodes →
    (Lay.addPlaces ps l).bounds = boundsOf (Lay.addPlaces ps l).nodes
  | [], _, h => h
  | (id, p) :: ps, l, _ => by
    rw [Lay.addPlaces]
    refine addPlaces_bounds ps _ ?_
    unfold Lay.addNode
    rw [updateBounds_nodes]
    unfold Lay.updateBounds boundsOf
    simp only []
    cases boundsLoop none (List.map (fun e => e.2.rect)
        (putEntry id { label := p.label, rect := { origin := p.pos, size := p.size }, type := nodeType p.kind } l.nodes)) <;> rfl

theorem addPlaces_ne : ∀ (ps : Entries Place) (l : Lay), (ps ≠ [] ∨ l.nodes ≠ []) → (Lay.addPlaces ps l).nodes ≠ []
  | [], l, h => by
    rcases h with h | h
    · exact absurd rfl h
    · exact h
  | (id, p) :: ps, l, _ => by
    rw [Lay.addPlaces]
    refine addPlaces_ne ps _ (.inr ?_)
    unfold Lay.addNode
    rw [updateBounds_nodes]
    cases hm : l.nodes with
    | nil => simp [putEntry]
    | cons e m => obtain ⟨k, v⟩ := e; simp only [putEntry]; split <;> simp

theorem boundsOf_smallest (m : Entries LNode) (hne : m ≠ []) (hp : ∀ e ∈ m, Proper e.2.rect) :
    Proper (boundsOf m) ∧ Smallest (fun b => ∀ e ∈ m, Around b e.2.rect) (boundsOf m) := by
  obtain ⟨⟨a, b, c, d⟩, h1, ⟨⟨x1, r1, hr1, y1⟩, ⟨x2, r2, hr2, y2⟩, ⟨x3, r3, hr3, y3⟩, ⟨x4, r4, hr4, y4⟩⟩⟩ :=
    bounds_start (m.map fun e => e.2.rect) (by simpa using hne)
  unfold boundsOf
  rw [h1]
  simp only [] at *
  have mem : ∀ {r}, r ∈ m.map (fun e => e.2.rect) → ∃ e ∈ m, e.2.rect = r := fun h => by
    obtain ⟨e, he, rfl⟩ := List.mem_map.1 h; exact ⟨e, he, rfl⟩
  obtain ⟨e1, he1, rfl⟩ := mem hr1
  obtain ⟨e2, he2, rfl⟩ := mem hr2
  obtain ⟨e3, he3, rfl⟩ := mem hr3
  obtain ⟨e4, he4, rfl⟩ := mem hr4
  have p1 := hp e1 he1
  have p2 := hp e2 he2
  have p3 := hp e3 he3
  have p4 := hp e4 he4
  have q1 := x3 e1.2.rect hr1
  have q2 := x4 e2.2.rect hr2
  simp only [Rct.minX, Rct.maxX, Rct.minY, Rct.maxY, Proper] at *
  refine ⟨⟨?_, ?_⟩, ?_, ?_⟩
  · simp only [Rct.fromXywh]; linarith
  · simp only [Rct.fromXywh]; linarith
  · intro e he p hc
    have g1 := x1 _ (List.mem_map_of_mem he)
    have g2 := x2 _ (List.mem_map_of_mem he)
    have g3 := x3 _ (List.mem_map_of_mem he)
    have g4 := x4 _ (List.mem_map_of_mem he)
    obtain ⟨⟨c1, c2⟩, c3, c4⟩ := hc
    simp only [Covers, Rct.fromXywh]
    refine ⟨⟨?_, ?_⟩, ?_, ?_⟩ <;> linarith
  · intro f hf p hc
    simp only [Covers, Rct.fromXywh] at hc
    have k1 := hf e1 he1 ⟨e1.2.rect.origin.x, e1.2.rect.origin.y⟩ ⟨⟨le_refl _, by simp; linarith⟩, le_refl _, by simp; linarith⟩
    have k2 := hf e2 he2 ⟨e2.2.rect.origin.x, e2.2.rect.origin.y⟩ ⟨⟨le_refl _, by simp; linarith⟩, le_refl _, by simp; linarith⟩
    have k3 := hf e3 he3 ⟨e3.2.rect.origin.x + e3.2.rect.size.width, e3.2.rect.origin.y⟩ ⟨⟨by simp; linarith, le_refl _⟩, le_refl _, by simp; linarith⟩
    have k4 := hf e4 he4 ⟨e4.2.rect.origin.x, e4.2.rect.origin.y + e4.2.rect.size.height⟩ ⟨⟨le_refl _, by simp; linarith⟩, by simp; linarith, le_refl _⟩
    simp only [Covers] at k1 k2 k3 k4 ⊢
    refine ⟨⟨?_, ?_⟩, ?_, ?_⟩ <;> linarith

/-- The bounds of a layout are the smallest rectangle around its nodes, whichever nodes are added or overwritten. -/
theorem C66_bounds (ps : Entries Place) (hne : ps ≠ []) (hp : ∀ e ∈ (Lay.addPlaces ps Lay.new).nodes, Proper e.2.rect) :
    Proper (Lay.addPlaces ps Lay.new).bounds ∧
    Smallest (fun b => ∀ e ∈ (Lay.addPlaces ps Lay.new).nodes, Around b e.2.rect) (Lay.addPlaces ps Lay.new).bounds := by
  rw [addPlaces_bounds ps Lay.new rfl]
  exact boundsOf_smallest _ (addPlaces_ne ps _ (.inl hne)) hp

theorem extremes_unique {rs rs' : List Rct} (hm : ∀ r, r ∈ rs ↔ r ∈ rs') {q q' : ℚ × ℚ × ℚ × ℚ} (h : Extremes rs q) (h' : Extremes rs' q') : q = q' := by
  obtain ⟨⟨x1, r1, hr1, y1⟩, ⟨x2, r2, hr2, y2⟩, ⟨x3, r3, hr3, y3⟩, ⟨x4, r4, hr4, y4⟩⟩ := h
  obtain ⟨⟨u1, s1, hs1, v1⟩, ⟨u2, s2, hs2, v2⟩, ⟨u3, s3, hs3, v3⟩, ⟨u4, s4, hs4, v4⟩⟩ := h'
  obtain ⟨a, b, c, d⟩ := q
  obtain ⟨a', b', c', d'⟩ := q'
  simp only [Prod.mk.injEq] at *
  refine ⟨le_antisymm ?_ ?_, le_antisymm ?_ ?_, le_antisymm ?_ ?_, le_antisymm ?_ ?_⟩
  · rw [v1]; exact x1 _ ((hm _).2 hs1)
  · rw [y1]; exact u1 _ ((hm _).1 hr1)
  · rw [v2]; exact x2 _ ((hm _).2 hs2)
  · rw [y2]; exact u2 _ ((hm _).1 hr2)
  · rw [y3]; exact u3 _ ((hm _).1 hr3)
  · rw [v3]; exact x3 _ ((hm _).2 hs3)
  · rw [y4]; exact u4 _ ((hm _).1 hr4)
  · rw [v4]; exact x4 _ ((hm _).2 hs4)

/-- The order in which the map of positions is iterated does not matter: same nodes, same bounds. -/
theorem C66_order (ps qs : Entries Place) (h : ps.Perm qs) (hn : (ps.map Prod.fst).Nodup) :
    (Lay.addPlaces ps Lay.new).nodes.Perm (Lay.addPlaces qs Lay.new).nodes ∧
    (Lay.addPlaces ps Lay.new).bounds = (Lay.addPlaces qs Lay.new).bounds := by
  have h1 := (addPlaces_spec ps Lay.new (by simpa [Lay.new] using hn)).1
  have h2 := (addPlaces_spec qs Lay.new (by simpa [Lay.new] using (h.map Prod.fst).nodup_iff.1 hn)).1
  have hperm : (Lay.addPlaces ps Lay.new).nodes.Perm (Lay.addPlaces qs Lay.new).nodes := by
    rw [h1, h2]; exact (h.map nodeOf).append_left _
  refine ⟨hperm, ?_⟩
  rw [addPlaces_bounds ps Lay.new rfl, addPlaces_bounds qs Lay.new rfl]
  generalize (Lay.addPlaces ps Lay.new).nodes = m at *
  generalize (Lay.addPlaces qs Lay.new).nodes = m' at *
  by_cases hm : m = []
  · subst hm; rw [hperm.nil_eq]
  · have hm' : m' ≠ [] := fun e => hm (by subst e; exact hperm.eq_nil)
    obtain ⟨q, a1, a2⟩ := bounds_start (m.map fun e => e.2.rect) (by simpa using hm)
    obtain ⟨q', b1, b2⟩ := bounds_start (m'.map fun e => e.2.rect) (by simpa using hm')
    have := extremes_unique (fun r => (hperm.map _).mem_iff) a2 b2
    unfold boundsOf
    rw [a1, b1, this]

/-- The edges of both layouts are the pairs of parent and child, each once; the edges leave nodes and bounds alone. -/
theorem C66_edges (g : TreeCfg) (t : VTree) :
    (∃ es : List (Str × Str), es.Perm (links t) ∧ (layeredLayout g t).edges = es.map fun p => LEdge.new p.1 p.2) ∧
    (∃ es : List (Str × Str), es.Perm (links t) ∧ (compactLayout g t).edges = es.map fun p => LEdge.new p.1 p.2) := by
  have key : ∀ ps : Entries Place, (Lay.addPlaces ps Lay.new).edges = [] := by
    have : ∀ (ps : Entries Place) (l : Lay), (Lay.addPlaces ps l).edges = l.edges := by
      intro ps
      induction ps with
      | nil => intro l; rfl
      | cons e ps ih =>
        intro l; obtain ⟨id, p⟩ := e
        rw [Lay.addPlaces, ih]; unfold Lay.addNode; rw [updateBounds_edges]
    intro ps; rw [this]; rfl
  refine ⟨?_, ?_⟩
  · obtain ⟨_, _, es, h1, h2⟩ := treeEdges_spec t
      (Lay.addPlaces (positionLayered g (levelWidths g t 0 FMap.empty) t 0 (FMap.empty, [])).2 Lay.new)
    exact ⟨es, h1, by unfold layeredLayout; rw [h2, key]; rfl⟩
  · obtain ⟨_, _, es, h1, h2⟩ := treeEdges_spec t (Lay.addPlaces (extractPositions (positionCompact g t 0 0) []) Lay.new)
    exact ⟨es, h1, by unfold compactLayout; rw [h2, key]; rfl⟩

mutual
theorem counts : ∀ (t : VTree) (n : Nat), t.nodeCount = (items t n).length ∧ t.leafCount = ((items t n).filter (·.leaf)).length ∧
    (∃ i ∈ items t n, i.level + 1 = n + t.depth) ∧ ∀ i ∈ items t n, i.level + 1 ≤ n + t.depth
  | .mk a b k s [], n => by
    rw [items, itemsAll]
    simp [VTree.nodeCount, nodeCounts, VTree.leafCount, VTree.depth]
  | .mk a b k s (c :: cs), n => by
    obtain ⟨h1, h2, h3, h4⟩ := countsAll (c :: cs) (n + 1)
    rw [items, VTree.nodeCount, VTree.leafCount, VTree.depth]
    simp only [List.isEmpty_cons, Bool.false_eq_true, if_false]
    refine ⟨by rw [h1, List.length_cons]; omega, ?_, ?_, ?_⟩
    · rw [List.filter_cons]; simp only [Bool.false_eq_true, if_false]; exact h2
    · obtain ⟨i, hi, e⟩ := h3 (by simp); exact ⟨i, List.mem_cons_of_mem _ hi, by omega⟩
    · intro i hi
      rcases List.mem_cons.1 hi with rfl | hi
      · simp only []; omega
      · have := h4 i hi; omega
theorem countsAll : ∀ (cs : List VTree) (n : Nat), nodeCounts cs = (itemsAll cs n).length ∧
    leafCounts cs = ((itemsAll cs n).filter (·.leaf)).length ∧
    (cs ≠ [] → ∃ i ∈ itemsAll cs n, i.level + 1 = n + (depths cs).getD 0) ∧
    ∀ i ∈ itemsAll cs n, i.level + 1 ≤ n + (depths cs).getD 0
  | [], n => by rw [nodeCounts, leafCounts, itemsAll]; simp
  | c :: cs, n => by
    obtain ⟨h1, h2, ⟨i, hi, h3⟩, h4⟩ := counts c n
    obtain ⟨g1, g2, g3, g4⟩ := countsAll cs n
    rw [nodeCounts, leafCounts, itemsAll, depths]
    simp only [Option.getD_some]
    refine ⟨by rw [h1, g1, List.length_append], by rw [h2, g2, List.filter_append, List.length_append], ?_, ?_⟩
    · intro _
      rcases Nat.le_total ((depths cs).getD 0) c.depth with h | h
      · exact ⟨i, List.mem_append_left _ hi, by rw [Nat.max_eq_left h]; exact h3⟩
      · by_cases hc : cs = []
        · subst hc
          rw [depths] at h ⊢
          exact ⟨i, List.mem_append_left _ hi, by simpa using h3⟩
        · obtain ⟨j, hj, g3⟩ := g3 hc
          exact ⟨j, List.mem_append_right _ hj, by rw [Nat.max_eq_right h]; exact g3⟩
    · intro u hu
      rcases List.mem_append.1 hu with hu | hu
      · have := h4 u hu; omega
      · have := g4 u hu; omega
end

/-- `node_count`, `leaf_count` and `depth` are the number of nodes, of nodes without children, and of levels. -/
theorem C66_counts (t : VTree) : t.nodeCount = (items t 0).length ∧ t.leafCount = ((items t 0).filter (·.leaf)).length ∧
    (∃ i ∈ items t 0, i.level + 1 = t.depth) ∧ ∀ i ∈ items t 0, i.level < t.depth := by
  obtain ⟨h1, h2, ⟨i, hi, h3⟩, h4⟩ := counts t 0
  exact ⟨h1, h2, ⟨i, hi, by omega⟩, fun i hi => by have := h4 i hi; omega⟩

/-- A tree with three nodes: the layered layout as computed. -/
example : (layeredLayout TreeCfg.std (.mk "r".toList [] [] none
      [.mk "a".toList [] [] none [], .mk "b".toList [] "function".toList none []])).nodes.map (fun e => (e.2.rect.origin, e.2.type)) =
    [(⟨0, 0⟩, .dflt), (⟨-70, 80⟩, .dflt), (⟨50, 80⟩, .function)] := by
  simp only [layeredLayout, levelWidths, levelWidthsAll, positionLayered, positionLayeredAll]
  decide +kernel

example : (compactLayout TreeCfg.std (.mk "r".toList [] [] none
      [.mk "a".toList [] [] none [], .mk "b".toList [] [] none []])).nodes.map (fun e => e.2.rect.origin) =
    [⟨60, 0⟩, ⟨0, 80⟩, ⟨120, 80⟩] := by decide +kernel

end Oaks.Viz.Props
