import Verif.Proofs.Tree
import Verif.Model.Arena

/-! # C16–C20: syntax trees -/

namespace Oaks.Props
open Oaks Oaks.Spec

/-- A small tree used in the examples: a root over a leaf, an empty node and a nested node. -/
def sampleTree : Green :=
  .node 0 6 [.leaf 1 2 none, .node 2 0 [], .node 3 4 [.leaf 4 0 none, .leaf 5 3 (some 1), .leaf 6 1 none]]

theorem sampleTree_built : Built sampleTree := by
  refine .node (k := 0) (cs := [.leaf 1 2 none, .node 2 0 [],
    .node 3 4 [.leaf 4 0 none, .leaf 5 3 (some 1), .leaf 6 1 none]]) ?_ rfl
  intro c hc
  simp at hc
  rcases hc with rfl | rfl | rfl
  · exact .leaf _ _ _ (by decide)
  · exact .node (k := 2) (cs := []) (by simp) rfl
  · refine .node (k := 3) (cs := [.leaf 4 0 none, .leaf 5 3 (some 1), .leaf 6 1 none]) ?_ rfl
    intro c hc
    simp at hc
    rcases hc with rfl | rfl | rfl <;> exact .leaf _ _ _ (by decide)

/-- The length of every element built with the public constructors is the total length of the leaves
below it. -/
theorem C16_len {g : Green} (h : Built g) : g.len = ((leavesOf g).map (·.2)).sum := h.len_eq.1

/-- Building a node succeeds exactly when the leaves below it fit in 32 bits. -/
theorem C16_constructible (k : Nat) (cs : List Green) (hc : ∀ c ∈ cs, Built c) :
    (∃ g, Green.mkNode k cs = .ok g) ↔ ((leavesOfList cs).map (·.2)).sum < 2 ^ 32 := by
  have hs := Built.lenSum_eq hc
  constructor
  · rintro ⟨g, hg⟩
    have := (mkNode_ok.1 hg).2
    rw [hs] at this; exact this
  · intro h
    exact ⟨.node k (lenSum cs) cs, mkNode_ok.2 ⟨rfl, by rw [hs]; exact h⟩⟩

theorem tiles_place (ls : List (Nat × Nat)) (o : Nat) :
    TilesSpan o (o + (ls.map (·.2)).sum) ((place o ls).map (·.2)) := by
  induction ls generalizing o with
  | nil => exact .nil o
  | cons x ls ih =>
    obtain ⟨k, n⟩ := x
    have := ih (o + n)
    simp [place]
    refine .cons (by omega) ?_
    simpa [Nat.add_assoc] using this

/-- The leaf spans of a red tree, read off in order, tile the root's span. -/
theorem C16_spans_tile (r : RedNode) (h : Built (.node r.kind r.textLen r.children)) :
    ∃ ls, walkLeaves (sizeOf' (.node r.kind r.textLen r.children)) r = .ok ls ∧
      TilesSpan r.span.1 r.span.2 (ls.map (·.2)) ∧
      ls.map (fun l => (l.1, l.2.2 - l.2.1)) = leavesOfList r.children := by
  refine ⟨_, walkLeaves_ok h r.kind r.textLen r.children r.offset _ rfl (Nat.le_refl _), ?_, ?_⟩
  · have := tiles_place (leavesOfList r.children) r.offset
    have hl := h.len_eq.1
    simp only [Green.len, bytesBelow_node, bytesBelowList] at hl
    simp only [RedNode.span]
    rw [hl]; exact this
  · generalize r.offset = o
    induction leavesOfList r.children generalizing o with
    | nil => rfl
    | cons x ls ih =>
      obtain ⟨k, n⟩ := x
      simp [place, ih]

/-- `child_at(i)` is the `i`-th child, starting after everything below its left siblings; out of
bounds it panics. -/
theorem C16_child_at (r : RedNode) (h : Built (.node r.kind r.textLen r.children)) (i : Nat) :
    r.childAt i = match r.children[i]? with
      | some c => .ok (Red.ofGreen c (r.offset + bytesBelowList (r.children.take i)))
      | none => .error .panic := by
  cases hi : r.children[i]? with
  | none => exact childAt_panic r i (by simpa using hi)
  | some c =>
    obtain ⟨hi', rfl⟩ := List.getElem?_eq_some_iff.1 hi
    rw [childAt_ok r i hi', Built.lenSum_eq (fun c hc => h.inv.1 c (List.mem_of_mem_take hc))]

/-- Iterating over the children visits exactly `child_at(0), child_at(1), …`. -/
theorem C16_children (r : RedNode) (i : Nat) :
    ∃ l, r.childIter.collect (r.children.length + 1) = .ok l ∧ l.length = r.children.length ∧
      ∀ x, l[i]? = some x → r.childAt i = .ok x := by
  have hlen : ∀ (cs : List Green) (o : Nat), (placeRow o cs).length = cs.length := by
    intro cs
    induction cs with
    | nil => intro o; rfl
    | cons c cs ih => intro o; simp [placeRow, ih]
  refine ⟨_, childIter_ok r, by simp [hlen], ?_⟩
  intro x hx
  simp only [List.getElem?_map, placeRow_getElem?, Option.map_map, Option.map_eq_some_iff] at hx
  obtain ⟨c, hc, rfl⟩ := hx
  obtain ⟨hi', rfl⟩ := List.getElem?_eq_some_iff.1 hc
  rw [childAt_ok r i hi']; rfl

/-- Non-vacuity. -/
example : walkLeaves 7 ⟨0, 6, childrenOf sampleTree, 10⟩ =
    .ok [(1, 10, 12), (4, 12, 12), (5, 12, 15), (6, 15, 16)] := by decide

/-- `leaf_at_offset` returns exactly the leaf of the tree whose span contains the offset: there is at
most one, it is returned, and nothing is returned only when there is none (which is when the offset is
outside the root's span). -/
theorem C17_leaf_at_offset (r : RedNode) (h : Built (.node r.kind r.textLen r.children)) (off : Nat) :
    ∃ res, r.leafAtOffset (sizeOf' (.node r.kind r.textLen r.children)) off = .ok res ∧
      (∀ x, res = some x ↔ x ∈ place r.offset (leavesOfList r.children) ∧ x.2.1 ≤ off ∧ off < x.2.2) ∧
      (res = none ↔ off < r.span.1 ∨ r.span.2 ≤ off) := by
  rcases leafAtOffset_ok h r.kind r.textLen r.children r.offset off _ rfl (Nat.le_refl _) with
    ⟨h1, h2⟩ | ⟨h1, h2, x, h3, h4, h5⟩
  · refine ⟨none, h2, ?_, by simpa [RedNode.span] using h1⟩
    intro x
    simp only [reduceCtorEq, false_iff]
    rintro ⟨hm, hx⟩
    have hb := place_bounds _ _ x hm
    have hl := h.len_eq.1
    simp only [Green.len, bytesBelow_node, bytesBelowList] at hl
    omega
  · refine ⟨some x, h3, ?_, ?_⟩
    · intro y
      constructor
      · intro hy; simp at hy; subst hy; exact ⟨h4, h5⟩
      · rintro ⟨hm, hy⟩
        rw [place_unique _ _ off x y h4 hm h5 hy]
    · simp [RedNode.span]; omega

/-- `child_index_at_offset` and `child_at_offset` find the direct child containing the offset. -/
theorem C17_child_at_offset (r : RedNode) (h : Built (.node r.kind r.textLen r.children)) (off : Nat) :
    (r.span.1 ≤ off ∧ off < r.span.2 → ∃ i c, r.childIndexAtOffset off = .ok (some i) ∧
      r.children[i]? = some c ∧
      r.childAtOffset off = .ok (some (Red.ofGreen c (r.offset + bytesBelowList (r.children.take i)))) ∧
      r.offset + bytesBelowList (r.children.take i) ≤ off ∧
      off < r.offset + bytesBelowList (r.children.take i) + bytesBelow c) ∧
    (off < r.span.1 ∨ r.span.2 ≤ off → r.childIndexAtOffset off = .ok none ∧ r.childAtOffset off = .ok none) := by
  simp only [RedNode.span]
  rcases childIndexAtOffset_ok r h off with ⟨h1, h2⟩ | ⟨h1, h2, j, hj, h3, h4, h5⟩
  · refine ⟨fun hh => by omega, fun _ => ⟨h2, ?_⟩⟩
    unfold RedNode.childAtOffset; rw [h2]; rfl
  · refine ⟨fun _ => ?_, fun hh => by omega⟩
    have hs := Built.lenSum_eq (cs := r.children.take j) (fun c hc => h.inv.1 c (List.mem_of_mem_take hc))
    have hl := (h.inv.1 _ (List.getElem_mem hj)).len_eq.1
    refine ⟨j, r.children[j], h3, by simp [hj], ?_, by omega, by omega⟩
    unfold RedNode.childAtOffset
    rw [h3]; simp [childAt_ok r j hj, hs]

example : (RedNode.mk 0 6 (childrenOf sampleTree) 10).leafAtOffset 7 12 = .ok (some (5, 12, 15)) := by decide
example : (RedNode.mk 0 6 (childrenOf sampleTree) 10).leafAtOffset 7 16 = .ok none := by decide

/-- After any sequence of cursor operations the cursor stands on an element of the tree, and its
offset is the number of bytes before that element. -/
theorem C18_offsets {root : Green} (h : Built root) (ops : List TreeOp) :
    ∃ path, atPath root path =
      some ((ops.foldl TreeCur.apply (TreeCur.new root)).current, (ops.foldl TreeCur.apply (TreeCur.new root)).offset) := by
  obtain ⟨q, hq⟩ := (Focus.top (root := root)).applyAll h ops
  exact ⟨q, hq.atPath_eq⟩

/-- In every reachable state, the moves that succeed go to the first child, the next sibling and the
parent of the current element, and they succeed exactly when there is one. -/
theorem C18_moves {root : Green} (h : Built root) (ops : List TreeOp) :
    let c := ops.foldl TreeCur.apply (TreeCur.new root)
    ∃ path, atPath root path = some (c.current, c.offset) ∧
      c.stepInto.map (fun d => (d.current, d.offset)) = atPath root (path ++ [0]) ∧
      (∀ q i, path = q ++ [i] →
        c.stepOver.map (fun d => (d.current, d.offset)) = atPath root (q ++ [i + 1]) ∧
        c.stepOut.map (fun d => (d.current, d.offset)) = atPath root q) ∧
      (path = [] → c.stepOver.isNone ∧ c.stepOut.isNone) := by
  intro c
  have hfail : ∀ (p : List Nat) (e : Green) (o i : Nat), atPath root p = some (e, o) →
      (childrenOf e)[i]? = none → atPath root (p ++ [i]) = none := by
    intro p
    have gen : ∀ (p : List Nat) (g e : Green) (o i : Nat), atPath g p = some (e, o) →
        (childrenOf e)[i]? = none → atPath g (p ++ [i]) = none := by
      intro p
      induction p with
      | nil =>
        intro g e o i h1 h2
        simp [atPath] at h1
        obtain ⟨rfl, rfl⟩ := h1
        simp [atPath, h2]
      | cons j p ih =>
        intro g e o i h1 h2
        simp only [List.cons_append, atPath] at h1 ⊢
        cases hj : (childrenOf g)[j]? with
        | none => simp
        | some d =>
          rw [hj] at h1
          simp only at h1 ⊢
          cases hd : atPath d p with
          | none => rw [hd] at h1; simp at h1
          | some r =>
            obtain ⟨e', o'⟩ := r
            rw [hd] at h1
            simp at h1
            obtain ⟨rfl, rfl⟩ := h1
            rw [ih d _ _ _ hd h2]
    exact gen p root
  obtain ⟨q, hq⟩ := (Focus.top (root := root)).applyAll h ops
  have hat := hq.atPath_eq
  refine ⟨q, hat, ?_, ?_, ?_⟩
  · cases hs : c.stepInto with
    | some d => exact (hq.stepInto hs).1.atPath_eq.symm
    | none =>
      have := stepInto_none hs
      rw [hfail q _ _ 0 hat (by
        have h2 : childrenOf (List.foldl TreeCur.apply { current := root, offset := 0, stack := [] } ops).current = [] := this
        rw [h2]; rfl)]; rfl
  · intro q' i hqi
    constructor
    · cases hs : c.stepOver with
      | some d =>
        obtain ⟨⟨q'', j, hqj, hf⟩, _⟩ := hq.stepOver h hs
        have := hqi.symm.trans hqj
        have h2 := List.append_inj' this (by simp)
        simp at h2
        obtain ⟨rfl, rfl⟩ := h2
        exact hf.atPath_eq.symm
      | none =>
        have hq2 : Focus root c q := hq
        clear_value c
        cases hq2 with
        | top => simp at hqi
        | @down k n cs o st p j g h0 hj =>
          have h2 := List.append_inj' hqi (by simp)
          simp at h2
          obtain ⟨rfl, rfl⟩ := h2
          have hd := stepOver_none (c := ⟨g, o + bytesBelowList (cs.take j), ⟨k, n, cs, j, o⟩ :: st⟩) rfl hs
          simp only [List.drop_eq_nil_iff] at hd
          rw [hfail p _ _ (j + 1) h0.atPath_eq (by simpa [childrenOf] using hd)]; rfl
    · have hq2 : Focus root c q := hq
      clear_value c
      cases hq2 with
      | top => simp at hqi
      | @down k n cs o st p j g h0 hj =>
        have h2 := List.append_inj' hqi (by simp)
        simp at h2
        obtain ⟨rfl, rfl⟩ := h2
        rw [h0.atPath_eq]; rfl
  · intro hqe
    have hq2 : Focus root c q := hq
    clear_value c
    cases hq2 with
    | top => simp [TreeCur.stepOver, TreeCur.stepOut]
    | down h0 hj => simp at hqe

/-- Stepping from the root visits every element once, in preorder with its true offset, then reports
the end and stands on the root again. -/
theorem C18_preorder {root : Green} (h : Built root) :
    ∃ vs, (TreeCur.new root).visit (sizeOf' root) = .ok (vs, TreeCur.new root) ∧
      (root, 0) :: vs = preorder 0 root := by
  have hlen : ∀ g : Green, ∀ o, (preorder o g).length = sizeOf' g := by
    intro g
    induction g using Green.rec (motive_2 := fun gs => ∀ o, (preorderList o gs).length = sizeList gs) with
    | node k n cs ih => intro o; simp [preorder, sizeOf', ih]; omega
    | leaf k n m => intro o; simp [preorder, sizeOf']
    | nil => rename_i o; simp [preorderList, sizeList]
    | cons g gs ih1 ih2 => rename_i o; simp [preorderList, sizeList, ih1, ih2]
  have hp := preorder_beneath 0 root
  have hl := hlen root 0
  have := visit_spec h (beneath 0 root).length (Focus.top (root := root)) (by simp [later]) (sizeOf' root) (by
    rw [hp] at hl; simp at hl; omega)
  refine ⟨beneath 0 root, ?_, hp.symm⟩
  simpa [later, TreeCur.new] using this

/-- From any reachable state, `step_next` moves to the element that follows the current subtree in
preorder; it reports the end exactly when there is none. -/
theorem C18_step_next {root : Green} (h : Built root) (ops : List TreeOp) :
    let c := ops.foldl TreeCur.apply (TreeCur.new root)
    ∃ before after, preorder 0 root = before ++ preorder c.offset c.current ++ after ∧
      after.head? = (if c.stepNext.1 then some (c.stepNext.2.current, c.stepNext.2.offset) else none) := by
  intro c
  obtain ⟨q, hq⟩ := (Focus.top (root := root)).applyAll h ops
  obtain ⟨b, hb⟩ := hq.split
  refine ⟨b, later c.stack, hb, ?_⟩
  have := stepNext_spec h hq
  split at this <;> rename_i c' hc
  · show (later (List.foldl TreeCur.apply (TreeCur.new root) ops).stack).head? = _
    have hc' : c.stepNext = (true, c') := hc
    rw [hc']
    have h2 := this.2
    rw [preorder_beneath] at h2
    simp only [TreeCur.new] at h2 ⊢
    rw [h2]; simp
  · have hc' : c.stepNext = (false, c') := hc
    rw [hc']
    have h2 := this.2
    show (later (List.foldl TreeCur.apply (TreeCur.new root) ops).stack).head? = _
    simp only [TreeCur.new] at h2 ⊢
    rw [h2]; simp

example : (preorder 0 sampleTree).map (·.2) = [0, 0, 2, 2, 2, 2, 5] := by decide

/-- The preorder iterator yields exactly the elements of the tree in preorder, each with its true
absolute start (and hence span). -/
theorem C19_preorder_iter {g : Green} (h : Built g) (o : Nat) :
    preCollect (sizeOf' g + 1) [Red.ofGreen g o] =
      .ok ((preorder o g).map (fun x => Red.ofGreen x.1 x.2)) := by
  have hlen : ∀ g : Green, ∀ o, (preorder o g).length = sizeOf' g := by
    intro g
    induction g using Green.rec (motive_2 := fun gs => ∀ o, (preorderList o gs).length = sizeList gs) with
    | node k n cs ih => intro o; simp [preorder, sizeOf', ih]; omega
    | leaf k n m => intro o; simp [preorder, sizeOf']
    | nil => rename_i o; simp [preorderList, sizeList]
    | cons g gs ih1 ih2 => rename_i o; simp [preorderList, sizeList, ih1, ih2]
  have := preCollect_ok (sizeOf' g) [(g, o)] (by simpa using h) (by simp [hlen]) (sizeOf' g + 1) (by omega)
  simpa using this

/-- Every element met in preorder from `o` starts at `o` plus the bytes before it, for some path to it,
and its red span has the length of the leaves below it. -/
theorem C19_true_spans {g : Green} (h : Built g) (o : Nat) :
    ∀ x ∈ preorder o g, (Red.ofGreen x.1 x.2).span = (x.2, x.2 + bytesBelow x.1) := by
  have key : ∀ {g : Green}, Built g → ∀ o, ∀ x ∈ preorder o g, Built x.1 := by
    intro g hg
    refine Built.rec' (P := fun g => ∀ o, ∀ x ∈ preorder o g, Built x.1) ?_ ?_ hg
    · intro k n m hn o x hx
      simp [preorder] at hx; subst hx; exact .leaf _ _ _ hn
    · intro k cs hb ih hlt o x hx
      simp only [preorder, List.mem_cons] at hx
      rcases hx with rfl | hx
      · exact .node hb (mkNode_ok.2 ⟨rfl, hlt⟩)
      · clear hlt
        induction cs generalizing o with
        | nil => simp [preorderList] at hx
        | cons c cs ihc =>
          simp only [preorderList, List.mem_append] at hx
          rcases hx with hx | hx
          · exact ih c (by simp) o x hx
          · exact ihc (fun d hd => hb d (by simp [hd])) (fun d hd => ih d (by simp [hd])) _ hx
  intro x hx
  have := (key h o x hx).len_eq.1
  obtain ⟨e, p⟩ := x
  cases e with
  | leaf k n m => simp [Red.ofGreen, Red.span]
  | node k n cs => simp [Green.len] at this; simp [Red.ofGreen, Red.span, RedNode.span, this]

/-- The default visitor walk delivers the leaves in source order with their true spans. -/
theorem C19_visitor (r : RedNode) (h : Built (.node r.kind r.textLen r.children)) :
    walkLeaves (sizeOf' (.node r.kind r.textLen r.children)) r = .ok (place r.offset (leavesOfList r.children)) :=
  walkLeaves_ok h r.kind r.textLen r.children r.offset _ rfl (Nat.le_refl _)

example : preCollect 8 [Red.ofGreen sampleTree 10] =
    .ok ((preorder 10 sampleTree).map (fun x => Red.ofGreen x.1 x.2)) := C19_preorder_iter sampleTree_built 10

/-- A deep clone is equal to the original in kinds, lengths, shape and metadata indices, and cloning
never fails. -/
theorem C20_clone {g : Green} (h : Built g) : deepClone g = .ok g := deepClone_ok h

/-- Provenance stays readable if the new arena's store extends the old one. Missing for the full
property: the code gives no such guarantee (see `C20_provenance_lost`). -/
theorem C20_provenance_partial {P : Type} {g g' : Green} (h : Built g) (hc : deepClone g = .ok g')
    (old new extra : List P) (hnew : new = old ++ extra) :
    ∀ e ∈ elementsOf g', ∀ i, metaOf e = some i → 0 < i → ∀ p, getMetadata old i = some p →
      e ∈ elementsOf g ∧ getMetadata new i = some p := by
  rw [C20_clone h] at hc
  simp at hc
  subst hc
  intro e he i _ hi p hp
  refine ⟨he, ?_⟩
  subst hnew
  unfold getMetadata at *
  have := (List.getElem?_eq_some_iff.1 hp).1
  rw [List.getElem?_append_left this, hp]

/-- The full property fails: after promoting a tree to a fresh arena, provenance that was recorded for
a token can no longer be read through the new arena. -/
theorem C20_provenance_lost {P : Type} (p : P) :
    ∃ (old : List P) (i : Nat) (g g' : Green), addMetadata [] p = .ok (old, i) ∧ Built g ∧
      deepClone g = .ok g' ∧ (∃ e ∈ elementsOf g', metaOf e = some i) ∧
      getMetadata old i = some p ∧ getMetadata ([] : List P) i = none := by
  have hb : Built (.node 0 1 [.leaf 1 1 (some 1)]) :=
    .node (k := 0) (cs := [.leaf 1 1 (some 1)]) (by
      intro c hc; simp at hc; subst hc; exact .leaf _ _ _ (by decide)) rfl
  refine ⟨[p], 1, .node 0 1 [.leaf 1 1 (some 1)], _, rfl, hb, C20_clone hb, ?_, rfl, rfl⟩
  exact ⟨.leaf 1 1 (some 1), by simp [elementsOf, preorder, preorderList], rfl⟩

example : deepClone sampleTree = .ok sampleTree := C20_clone sampleTree_built

end Oaks.Props
