import Verif.Spec.TreeLayout
import Mathlib.Tactic.Linarith
import Mathlib.Tactic.Ring
import Mathlib.Data.List.Forall2

/-! Lemmas for the tree layouts. -/

namespace Oaks.Viz
open Oaks.Viz.Spec Oaks

theorem putEntry_new {V : Type} (k : Str) (v : V) : ∀ m : Entries V, k ∉ m.map Prod.fst → putEntry k v m = m ++ [(k, v)]
  | [], _ => rfl
  | (k', v') :: m, h => by
    simp only [List.map_cons, List.mem_cons, not_or] at h
    rw [putEntry, if_neg (Ne.symm h.1), putEntry_new k v m h.2]; rfl

theorem sizeOf_item (g : TreeCfg) (i : Item) : g.sizeOf i.size = itemSize g.nodeWidth g.nodeHeight i := by
  unfold TreeCfg.sizeOf itemSize
  cases i.size <;> rfl

/-! ## Layered -/

/-- One node of the layered layout. -/
def layStep (g : TreeCfg) (widths : FMap Nat ℚ) (st : FMap Nat ℚ × Entries Place) (i : Item) : FMap Nat ℚ × Entries Place :=
  let sz := g.sizeOf i.size
  let levelWidth := (widths i.level).getD 0
  let currentX := (st.1 i.level).getD (-levelWidth / 2)
  let x := if i.level = 0 then 0 else currentX + sz.width / 2
  let y := (i.level : ℚ) * g.levelDistance
  (st.1.insert i.level (currentX + sz.width + g.siblingDistance), putEntry i.id ⟨⟨x, y⟩, sz, i.label, i.kind⟩ st.2)

mutual
theorem layered_fold (g : TreeCfg) (w : FMap Nat ℚ) : ∀ (t : VTree) (level : Nat) (st : FMap Nat ℚ × Entries Place),
    positionLayered g w t level st = (items t level).foldl (layStep g w) st
  | .mk id label kind size cs, level, st => by
    rw [positionLayered, items, List.foldl_cons, layered_foldAll g w cs]; rfl
theorem layered_foldAll (g : TreeCfg) (w : FMap Nat ℚ) : ∀ (ts : List VTree) (level : Nat) (st : FMap Nat ℚ × Entries Place),
    positionLayeredAll g w ts level st = (itemsAll ts level).foldl (layStep g w) st
  | [], _, _ => rfl
  | c :: cs, level, st => by
    rw [positionLayeredAll, itemsAll, List.foldl_append, layered_foldAll g w cs, layered_fold g w c]
end

/-- What holds of the state after the nodes `seen`. -/
def LayInv (g : TreeCfg) (seen : List Item) (st : FMap Nat ℚ × Entries Place) : Prop :=
  List.Forall₂ (fun i e => e.1 = i.id ∧ e.2.label = i.label ∧ e.2.kind = i.kind ∧
    e.2.size = itemSize g.nodeWidth g.nodeHeight i ∧ e.2.pos.y = i.level * g.levelDistance ∧
    (i.level ≠ 0 → ∃ c, st.1 i.level = some c ∧ e.2.pos.x + e.2.size.width / 2 + g.siblingDistance ≤ c)) seen st.2 ∧
  (st.2.map fun e => (⟨e.2.pos, e.2.size⟩ : Rct)).Pairwise Apart

theorem forall2_ids {P : Item → Str × Place → Prop} (h : ∀ i e, P i e → e.1 = i.id) :
    ∀ {is : List Item} {es : Entries Place}, List.Forall₂ P is es → es.map Prod.fst = is.map Item.id
  | _, _, .nil => rfl
  | _, _, .cons h1 h2 => by rw [List.map_cons, List.map_cons, h _ _ h1, forall2_ids h h2]

theorem forall2_mem_right {A B : Type} {P : A → B → Prop} : ∀ {is : List A} {es : List B}, List.Forall₂ P is es →
    ∀ e ∈ es, ∃ i ∈ is, P i e
  | _, _, .nil => by simp
  | _, _, .cons h1 h2 => by
    intro e he
    rcases List.mem_cons.1 he with rfl | he
    · exact ⟨_, List.mem_cons_self, h1⟩
    · obtain ⟨i, hi, hp⟩ := forall2_mem_right h2 e he
      exact ⟨i, List.mem_cons_of_mem _ hi, hp⟩

/-- The widths of nodes on one level do not differ too much, and the levels are far enough apart. -/
def LayOk (g : TreeCfg) (its : List Item) : Prop :=
  (∀ a ∈ its, 0 ≤ (itemSize g.nodeWidth g.nodeHeight a).width ∧ 0 ≤ (itemSize g.nodeWidth g.nodeHeight a).height ∧
    (itemSize g.nodeWidth g.nodeHeight a).height ≤ g.levelDistance) ∧
  (∀ a ∈ its, ∀ b ∈ its, a.level = b.level →
    (itemSize g.nodeWidth g.nodeHeight a).width ≤ (itemSize g.nodeWidth g.nodeHeight b).width + 2 * g.siblingDistance)

theorem level_apart {L : ℚ} (hL : 0 ≤ L) {a b : Nat} (h : a < b) {ha : ℚ} (hh : ha ≤ L) : (a : ℚ) * L + ha ≤ b * L := by
  have : ((a + 1 : Nat) : ℚ) * L ≤ (b : ℚ) * L := mul_le_mul_of_nonneg_right (by exact_mod_cast h) hL
  push_cast at this
  linarith [add_mul (a : ℚ) 1 L]

theorem lay_step (g : TreeCfg) (w : FMap Nat ℚ) (hd : 0 ≤ g.siblingDistance) (seen : List Item) (i : Item)
    (st : FMap Nat ℚ × Entries Place)
    (hn : i.id ∉ seen.map Item.id) (hz : ∀ a ∈ seen, i.level = 0 → a.level ≠ 0) (hok : LayOk g (seen ++ [i]))
    (h : LayInv g seen st) : LayInv g (seen ++ [i]) (layStep g w st i) := by
  obtain ⟨h1, h2⟩ := h
  obtain ⟨k1, k2⟩ := hok
  have hids : st.2.map Prod.fst = seen.map Item.id := forall2_ids (fun _ _ h => h.1) h1
  have hi := k1 i (by simp)
  have hL : 0 ≤ g.levelDistance := le_trans hi.2.1 hi.2.2
  unfold layStep
  simp only [sizeOf_item]
  rw [putEntry_new _ _ _ (by rw [hids]; exact hn)]
  generalize hc : (st.1 i.level).getD (-(w i.level).getD 0 / 2) = c
  refine ⟨?_, ?_⟩
  · refine List.rel_append ?_ ?_
    · refine h1.imp ?_
      rintro a e ⟨e1, e2, e3, e4, e5, e6⟩
      refine ⟨e1, e2, e3, e4, e5, ?_⟩
      intro hl
      obtain ⟨c', hc', hle⟩ := e6 hl
      by_cases heq : a.level = i.level
      · refine ⟨_, by rw [heq]; exact FMap.insert_self _ _ _, ?_⟩
        rw [heq] at hc'
        rw [hc'] at hc
        simp only [Option.getD_some] at hc
        subst hc
        linarith [hi.1]
      · exact ⟨c', by simp only [FMap.insert_ne _ _ heq]; exact hc', hle⟩
    · refine .cons ⟨rfl, rfl, rfl, rfl, rfl, ?_⟩ .nil
      intro hl
      refine ⟨_, FMap.insert_self _ _ _, ?_⟩
      simp only [if_neg hl]
      linarith
  · rw [List.map_append, List.pairwise_append]
    refine ⟨h2, by simp, ?_⟩
    intro r hr s hs
    simp only [List.map_cons, List.map_nil, List.mem_singleton] at hs
    subst hs
    obtain ⟨e, he, rfl⟩ := List.mem_map.1 hr
    obtain ⟨a, ha, e1, e2, e3, e4, e5, e6⟩ := forall2_mem_right h1 e he
    have hka := k1 a (by simp [ha])
    unfold Apart
    simp only [e4, e5]
    rcases Nat.lt_trichotomy a.level i.level with hlt | heq | hgt
    · exact .inr (.inr (.inl (level_apart hL hlt hka.2.2)))
    · have hl : i.level ≠ 0 := by
        intro h0
        exact hz a ha h0 (by omega)
      obtain ⟨c', hc', hle⟩ := e6 (by omega)
      rw [heq] at hc'
      rw [hc'] at hc
      simp only [Option.getD_some] at hc
      subst hc
      rw [e4] at hle
      have hw := k2 a (by simp [ha]) i (by simp) heq
      left
      simp only [if_neg hl]
      linarith
    · exact .inr (.inr (.inr (level_apart hL hgt hi.2.2)))

theorem lay_fold (g : TreeCfg) (w : FMap Nat ℚ) (hd : 0 ≤ g.siblingDistance) : ∀ (its seen : List Item)
    (st : FMap Nat ℚ × Entries Place), ((seen ++ its).map Item.id).Nodup →
    (seen ++ its).Pairwise (fun a b => b.level = 0 → a.level ≠ 0) → LayOk g (seen ++ its) →
    LayInv g seen st → LayInv g (seen ++ its) (its.foldl (layStep g w) st)
  | [], seen, st, _, _, _, h => by simpa using h
  | i :: its, seen, st, hn, hz, hok, h => by
    have e : seen ++ i :: its = (seen ++ [i]) ++ its := by simp
    rw [List.foldl_cons, e]
    refine lay_fold g w hd its (seen ++ [i]) _ (by rw [← e]; exact hn) (by rw [← e]; exact hz) (by rw [← e]; exact hok) ?_
    refine lay_step g w hd seen i st ?_ ?_ ?_ h
    · rw [List.map_append, List.map_cons] at hn
      intro hm
      exact (List.nodup_append.1 hn).2.2 _ hm _ List.mem_cons_self rfl
    · intro a ha
      exact (List.pairwise_append.1 hz).2.2 a ha i List.mem_cons_self
    · exact ⟨fun a ha => hok.1 a (by simp at ha ⊢; tauto), fun a ha b hb => hok.2 a (by simp at ha ⊢; tauto) b (by simp at hb ⊢; tauto)⟩

mutual
theorem items_level : ∀ (t : VTree) (level : Nat), ∀ i ∈ items t level, level ≤ i.level
  | .mk _ _ _ _ cs, level => by
    intro i hi
    rw [items] at hi
    rcases List.mem_cons.1 hi with rfl | hi
    · exact le_refl _
    · have := itemsAll_level cs (level + 1) i hi; omega
theorem itemsAll_level : ∀ (ts : List VTree) (level : Nat), ∀ i ∈ itemsAll ts level, level ≤ i.level
  | [], _ => by simp [itemsAll]
  | c :: cs, level => by
    intro i hi
    rw [itemsAll] at hi
    rcases List.mem_append.1 hi with hi | hi
    · exact items_level c level i hi
    · exact itemsAll_level cs level i hi
end

theorem items_root (t : VTree) : (items t 0).Pairwise (fun a b => b.level = 0 → a.level ≠ 0) := by
  obtain ⟨id, label, kind, size, cs⟩ := t
  rw [items]
  have h := itemsAll_level cs 1
  rw [List.pairwise_cons]
  refine ⟨fun b hb h0 => ?_, ?_⟩
  · have := h b hb; omega
  · exact List.Pairwise.imp_of_mem (R := fun _ _ => True) (fun ha hb _ h0 => by have := h _ hb; omega)
      (by simp [List.pairwise_iff_forall_sublist])

/-! ## From places to a layout -/

theorem updateBounds_nodes (l : Lay) : l.updateBounds.nodes = l.nodes := by
  unfold Lay.updateBounds; split <;> rfl
theorem updateBounds_edges (l : Lay) : l.updateBounds.edges = l.edges := by
  unfold Lay.updateBounds; split <;> rfl

/-- The node of a layout for a place. -/
def nodeOf (e : Str × Place) : Str × LNode := (e.1, ⟨e.2.label, ⟨e.2.pos, e.2.size⟩, nodeType e.2.kind⟩)

theorem addPlaces_spec : ∀ (ps : Entries Place) (l : Lay), (l.nodes.map Prod.fst ++ ps.map Prod.fst).Nodup →
    (Lay.addPlaces ps l).nodes = l.nodes ++ ps.map nodeOf ∧ (Lay.addPlaces ps l).edges = l.edges
  | [], l, _ => by simp [Lay.addPlaces]
  | (id, p) :: ps, l, h => by
    rw [Lay.addPlaces]
    have hnew : (l.addNode id p.label ⟨p.pos, p.size⟩ (nodeType p.kind)).nodes = l.nodes ++ [nodeOf (id, p)] := by
      unfold Lay.addNode
      rw [updateBounds_nodes]
      refine putEntry_new _ _ _ ?_
      intro hm
      exact (List.nodup_append.1 h).2.2 _ hm _ List.mem_cons_self rfl
    obtain ⟨h1, h2⟩ := addPlaces_spec ps (l.addNode id p.label ⟨p.pos, p.size⟩ (nodeType p.kind)) (by
      rw [hnew]; simpa [nodeOf] using h)
    refine ⟨by rw [h1, hnew]; simp, ?_⟩
    rw [h2]; unfold Lay.addNode; rw [updateBounds_edges]

mutual
theorem treeEdges_spec : ∀ (t : VTree) (l : Lay), (addTreeEdges t l).nodes = l.nodes ∧ (addTreeEdges t l).bounds = l.bounds ∧
    ∃ es : List (Str × Str), es.Perm (links t) ∧ (addTreeEdges t l).edges = l.edges ++ es.map fun p => LEdge.new p.1 p.2
  | .mk id _ _ _ cs, l => by
    rw [addTreeEdges, links]
    exact treeEdgesAll_spec id cs l
theorem treeEdgesAll_spec (id : Str) : ∀ (ts : List VTree) (l : Lay),
    (addTreeEdgesAll id ts l).nodes = l.nodes ∧ (addTreeEdgesAll id ts l).bounds = l.bounds ∧
    ∃ es : List (Str × Str), es.Perm (ts.map (fun c => (id, c.id)) ++ linksAll ts) ∧
      (addTreeEdgesAll id ts l).edges = l.edges ++ es.map fun p => LEdge.new p.1 p.2
  | [], l => ⟨rfl, rfl, [], by simp [linksAll], by simp [addTreeEdgesAll]⟩
  | c :: cs, l => by
    rw [addTreeEdgesAll]
    obtain ⟨a1, a2, es, a3, a4⟩ := treeEdges_spec c (l.addEdge (LEdge.new id c.id))
    obtain ⟨b1, b2, fs, b3, b4⟩ := treeEdgesAll_spec id cs (addTreeEdges c (l.addEdge (LEdge.new id c.id)))
    refine ⟨by rw [b1, a1]; rfl, by rw [b2, a2]; rfl, (id, c.id) :: (es ++ fs), ?_, ?_⟩
    · rw [List.map_cons, List.cons_append, linksAll]
      refine List.Perm.cons _ ?_
      refine (a3.append b3).trans ?_
      rw [← List.append_assoc, ← List.append_assoc]
      exact List.perm_append_comm.append_right _
    · rw [b4, a4]; simp [Lay.addEdge]
end

/-! ## Compact -/

mutual
/-- The places of a positioned tree. -/
def ptPlaces : PTree → Entries Place
  | .mk id label kind pos size _ cs => (id, ⟨pos, size, label, kind⟩) :: ptPlacesAll cs
/-- The places of several positioned trees. -/
def ptPlacesAll : List PTree → Entries Place
  | [] => []
  | c :: cs => ptPlaces c ++ ptPlacesAll cs
end

mutual
theorem extract_spec : ∀ (p : PTree) (m : Entries Place), ((m ++ ptPlaces p).map Prod.fst).Nodup → extractPositions p m = m ++ ptPlaces p
  | .mk id label kind pos size _ cs, m, h => by
    rw [extractPositions, ptPlaces]
    rw [ptPlaces] at h
    have hn : id ∉ m.map Prod.fst := by
      rw [List.map_append, List.map_cons] at h
      intro hm
      exact (List.nodup_append.1 h).2.2 _ hm _ List.mem_cons_self rfl
    rw [putEntry_new _ _ _ hn, extractAll_spec cs _ (by simpa using h)]
    simp
theorem extractAll_spec : ∀ (ps : List PTree) (m : Entries Place), ((m ++ ptPlacesAll ps).map Prod.fst).Nodup →
    extractAll ps m = m ++ ptPlacesAll ps
  | [], m, _ => by simp [extractAll, ptPlacesAll]
  | c :: cs, m, h => by
    rw [ptPlacesAll, ← List.append_assoc] at h
    rw [extractAll, ptPlacesAll, extract_spec c m (by rw [List.map_append] at h; exact (List.nodup_append.1 h).1), extractAll_spec cs _ h]
    simp
end

@[simp] theorem subtreeWidth_mk (a b k : Str) (p : Pt) (s : Sz) (w : ℚ) (cs : List PTree) :
    (PTree.mk a b k p s w cs).subtreeWidth = w := rfl

theorem compactAll_length (g : TreeCfg) : ∀ (ts : List VTree) (x y : ℚ), (positionCompactAll g ts x y).length = ts.length
  | [], _, _ => rfl
  | c :: cs, x, y => by rw [positionCompactAll, List.length_cons, List.length_cons, compactAll_length g cs]

theorem width_of (g : TreeCfg) (size : Option Sz) :
    (g.sizeOf size).width = ownWidth g size := by
  cases size <;> rfl

mutual
theorem compact_width (g : TreeCfg) : ∀ (t : VTree) (x y : ℚ), (positionCompact g t x y).subtreeWidth = room g t
  | .mk a b k size [], x, y => by
    rw [positionCompact, positionCompactAll, room]
    exact width_of g size
  | .mk a b k size (c :: cs), x, y => by
    rw [positionCompact, positionCompactAll, room]
    have h := compactAll_width g cs (x + ((positionCompact g c x (y + g.levelDistance)).subtreeWidth + g.siblingDistance)) (y + g.levelDistance)
    have hl := compactAll_length g cs (x + ((positionCompact g c x (y + g.levelDistance)).subtreeWidth + g.siblingDistance)) (y + g.levelDistance)
    simp only [subtreeWidth_mk, List.isEmpty_cons, Bool.false_eq_true, if_false, List.map_cons, List.sum_cons,
      List.length_cons, Nat.add_sub_cancel, hl]
    have hc := compact_width g c x (y + g.levelDistance)
    linarith
theorem compactAll_width (g : TreeCfg) : ∀ (ts : List VTree) (x y : ℚ),
    ((positionCompactAll g ts x y).map PTree.subtreeWidth).sum + (ts.length : ℚ) * g.siblingDistance = roomRest g ts
  | [], x, y => by simp [positionCompactAll, roomRest]
  | c :: cs, x, y => by
    rw [positionCompactAll, roomRest, List.map_cons, List.sum_cons, compact_width g c,
      ← compactAll_width g cs (x + (room g c + g.siblingDistance)) y, List.length_cons]
    push_cast
    ring
end

mutual
theorem room_nonneg (g : TreeCfg) (hd : 0 ≤ g.siblingDistance) : ∀ (t : VTree) (n : Nat),
    (∀ i ∈ items t n, 0 ≤ (itemSize g.nodeWidth g.nodeHeight i).width) → 0 ≤ room g t
  | .mk a b k size [], n, h => by
    have := h ⟨n, a, b, k, size, true⟩ (by simp [items])
    rw [room]
    cases size <;> exact this
  | .mk a b k size (c :: cs), n, h => by
    rw [room]
    rw [items, itemsAll] at h
    have h1 := room_nonneg g hd c (n + 1) (fun i hi => h i (by simp [hi]))
    have h2 := roomRest_nonneg g hd cs (n + 1) (fun i hi => h i (by simp [hi]))
    linarith
theorem roomRest_nonneg (g : TreeCfg) (hd : 0 ≤ g.siblingDistance) : ∀ (ts : List VTree) (n : Nat),
    (∀ i ∈ itemsAll ts n, 0 ≤ (itemSize g.nodeWidth g.nodeHeight i).width) → 0 ≤ roomRest g ts
  | [], _, _ => by rw [roomRest]
  | c :: cs, n, h => by
    rw [roomRest]
    rw [itemsAll] at h
    have h1 := room_nonneg g hd c n (fun i hi => h i (by simp [hi]))
    have h2 := roomRest_nonneg g hd cs n (fun i hi => h i (by simp [hi]))
    linarith
end

/-- The relation between a node and its place in the compact layout. -/
def CompactRel (g : TreeCfg) (i : Item) (e : Str × Place) : Prop :=
  e.1 = i.id ∧ e.2.label = i.label ∧ e.2.kind = i.kind ∧ e.2.size = itemSize g.nodeWidth g.nodeHeight i ∧
    e.2.pos.y = i.level * g.levelDistance

mutual
theorem compact_rel (g : TreeCfg) : ∀ (t : VTree) (n : Nat) (x : ℚ),
    List.Forall₂ (CompactRel g) (items t n) (ptPlaces (positionCompact g t x (n * g.levelDistance)))
  | .mk a b k size cs, n, x => by
    rw [positionCompact, items, ptPlaces]
    refine .cons ⟨rfl, rfl, rfl, sizeOf_item g ⟨n, a, b, k, size, cs.isEmpty⟩, rfl⟩ ?_
    have h := compactAll_rel g cs (n + 1) x
    rwa [show ((n + 1 : Nat) : ℚ) * g.levelDistance = n * g.levelDistance + g.levelDistance by push_cast; ring] at h
theorem compactAll_rel (g : TreeCfg) : ∀ (ts : List VTree) (n : Nat) (x : ℚ),
    List.Forall₂ (CompactRel g) (itemsAll ts n) (ptPlacesAll (positionCompactAll g ts x (n * g.levelDistance)))
  | [], _, _ => by rw [itemsAll, positionCompactAll, ptPlacesAll]; exact .nil
  | c :: cs, n, x => by
    rw [itemsAll, positionCompactAll, ptPlacesAll]
    exact List.rel_append (compact_rel g c n x) (compactAll_rel g cs n _)
end

/-- The place lies between the verticals `a` and `b` and not above `y`. -/
def Within (a b y : ℚ) (e : Str × Place) : Prop := a ≤ e.2.pos.x ∧ e.2.pos.x + e.2.size.width ≤ b ∧ y ≤ e.2.pos.y

/-- The rectangles of two places are apart. -/
def ApartPl (e f : Str × Place) : Prop := Apart ⟨e.2.pos, e.2.size⟩ ⟨f.2.pos, f.2.size⟩

/-- The sizes are not negative and the levels are far enough apart. -/
def SizesOk (g : TreeCfg) (its : List Item) : Prop :=
  ∀ a ∈ its, 0 ≤ (itemSize g.nodeWidth g.nodeHeight a).width ∧ 0 ≤ (itemSize g.nodeWidth g.nodeHeight a).height ∧
    (itemSize g.nodeWidth g.nodeHeight a).height ≤ g.levelDistance

mutual
theorem compact_clear (g : TreeCfg) (hd : 0 ≤ g.siblingDistance) : ∀ (t : VTree) (n : Nat) (x y : ℚ), SizesOk g (items t n) → Roomy g t →
    (∀ e ∈ ptPlaces (positionCompact g t x y), Within x (x + room g t) y e) ∧
    (ptPlaces (positionCompact g t x y)).Pairwise ApartPl
  | .mk a b k size cs, n, x, y, hs, hr => by
    rw [Roomy] at hr
    obtain ⟨hr1, hr2⟩ := hr
    rw [← width_of] at hr1
    rw [items] at hs
    have hroot := hs ⟨n, a, b, k, size, cs.isEmpty⟩ List.mem_cons_self
    rw [← sizeOf_item] at hroot
    have hcs := compactAll_clear g hd cs (n + 1) x (y + g.levelDistance) (fun i hi => hs i (List.mem_cons_of_mem _ hi)) hr2
    have hw := compact_width g (.mk a b k size cs) x y
    rw [positionCompact] at hw ⊢
    simp only [subtreeWidth_mk] at hw
    rw [ptPlaces]
    simp only [hw]
    have hL : 0 ≤ g.levelDistance := le_trans hroot.2.1 hroot.2.2
    have hkids : ∀ e ∈ ptPlacesAll (positionCompactAll g cs x (y + g.levelDistance)),
        Within x (x + room g (.mk a b k size cs)) (y + g.levelDistance) e := by
      intro e he
      obtain ⟨w1, w2, w3⟩ := hcs.1 e he
      refine ⟨w1, le_trans w2 ?_, w3⟩
      cases cs with
      | nil => rw [positionCompactAll, ptPlacesAll] at he; simp at he
      | cons c cs => rw [room, roomRest]; linarith
    refine ⟨?_, ?_⟩
    · intro e he
      rcases List.mem_cons.1 he with rfl | he
      · refine ⟨?_, ?_, le_refl _⟩
        · simp only []
          split
          · exact le_refl _
          · linarith
        · simp only []
          split
          · linarith
          · linarith
      · obtain ⟨w1, w2, w3⟩ := hkids e he
        exact ⟨w1, w2, by linarith⟩
    · rw [List.pairwise_cons]
      refine ⟨?_, hcs.2⟩
      intro e he
      obtain ⟨_, _, w3⟩ := hkids e he
      refine .inr (.inr (.inl ?_))
      simp only []
      simp only [] at hroot
      linarith [hroot.2.2]
theorem compactAll_clear (g : TreeCfg) (hd : 0 ≤ g.siblingDistance) : ∀ (ts : List VTree) (n : Nat) (x y : ℚ), SizesOk g (itemsAll ts n) →
    RoomyAll g ts →
    (∀ e ∈ ptPlacesAll (positionCompactAll g ts x y), Within x (x + roomRest g ts - g.siblingDistance) y e) ∧
    (ptPlacesAll (positionCompactAll g ts x y)).Pairwise ApartPl
  | [], n, x, y, _, _ => by rw [positionCompactAll, ptPlacesAll]; simp
  | c :: cs, n, x, y, hs, hr => by
    rw [RoomyAll] at hr
    rw [itemsAll] at hs
    have h1 := compact_clear g hd c n x y (fun i hi => hs i (List.mem_append_left _ hi)) hr.1
    have h2 := compactAll_clear g hd cs n (x + (room g c + g.siblingDistance)) y (fun i hi => hs i (List.mem_append_right _ hi)) hr.2
    have hc := room_nonneg g hd c n (fun i hi => (hs i (List.mem_append_left _ hi)).1)
    have hcs := roomRest_nonneg g hd cs n (fun i hi => (hs i (List.mem_append_right _ hi)).1)
    rw [positionCompactAll, ptPlacesAll]
    simp only [compact_width]
    refine ⟨?_, ?_⟩
    · intro e he
      rw [roomRest]
      rcases List.mem_append.1 he with he | he
      · obtain ⟨w1, w2, w3⟩ := h1.1 e he
        exact ⟨w1, by linarith, w3⟩
      · obtain ⟨w1, w2, w3⟩ := h2.1 e he
        exact ⟨by linarith, by linarith, w3⟩
    · rw [List.pairwise_append]
      refine ⟨h1.2, h2.2, ?_⟩
      intro e he f hf
      obtain ⟨_, w2, _⟩ := h1.1 e he
      obtain ⟨v1, _, _⟩ := h2.1 f hf
      exact .inl (by simp only []; linarith)
end

end Oaks.Viz
