import Verif.Spec.Chunks
import Verif.Proofs.Visit
import Verif.Proofs.Formatter

/-!
C71: chunks of code for the search.
-/
namespace Oaks

open Spec in
/-- The elements of a tree that stands on a text stand on pieces of it. -/
theorem preorder_fits {src : Str} {g : Green} (hb : Built g) : ∀ (pre t post : Str), src = pre ++ t ++ post →
    LeavesWrite (leavesOf g) t → ∀ x ∈ preorder (blen pre) g,
      ∃ u, strGet src x.2 (x.2 + bytesBelow x.1) = some u ∧ blen u = bytesBelow x.1 := by
  have self : ∀ (g : Green) (pre t post : Str), src = pre ++ t ++ post → LeavesWrite (leavesOf g) t →
      ∃ u, strGet src (blen pre) (blen pre + bytesBelow g) = some u ∧ blen u = bytesBelow g := by
    intro g pre t post hs hw
    refine ⟨t, ?_, hw.blen⟩
    rw [strGet_eq_some]
    exact ⟨pre, post, hs, rfl, by rw [bytesBelow, ← hw.blen]⟩
  refine Built.rec' (P := fun g => ∀ (pre t post : Str), src = pre ++ t ++ post → LeavesWrite (leavesOf g) t →
    ∀ x ∈ preorder (blen pre) g, ∃ u, strGet src x.2 (x.2 + bytesBelow x.1) = some u ∧ blen u = bytesBelow x.1)
    ?_ ?_ hb
  · intro k n m _ pre t post hs hw x hx
    simp only [preorder, List.mem_singleton] at hx
    subst hx
    exact self _ pre t post hs hw
  · intro k cs hbs ih hlt pre t post hs hw x hx
    clear hbs hlt
    simp only [preorder, List.mem_cons] at hx
    rcases hx with rfl | hx
    · exact self _ pre t post hs hw
    · simp only [leavesOf] at hw
      clear self hb
      induction cs generalizing pre t with
      | nil => simp [preorderList] at hx
      | cons c cs ihc =>
        simp only [leavesOfList] at hw
        obtain ⟨t1, t2, rfl, h1, h2⟩ := hw.split
        simp only [preorderList, List.mem_append] at hx
        rcases hx with hx | hx
        · exact ih c (by simp) pre t1 (t2 ++ post) (by simp [hs]) h1 x hx
        · have hl : blen (pre ++ t1) = blen pre + bytesBelow c := by
            rw [blen_append, bytesBelow, ← h1.blen]
          rw [← hl] at hx
          exact ihc (fun d hd => ih d (by simp [hd])) (pre ++ t1) t2 (by simp [hs]) h2 hx

open Spec in
theorem preorder_built {g : Green} (h : Built g) (o : Nat) : ∀ x ∈ preorder o g, Built x.1 := by
  refine Built.rec' (P := fun g => ∀ o, ∀ x ∈ preorder o g, Built x.1) ?_ ?_ h o
  · intro k n m hn o x hx
    simp [preorder] at hx; subst hx; exact .leaf _ _ _ hn
  · intro k cs hb ih hlt o x hx
    simp only [preorder, List.mem_cons] at hx
    rcases hx with rfl | hx
    · exact .node hb (mkNode_ok.2 ⟨rfl, hlt⟩)
    · clear hlt
      induction cs generalizing o with
      | nil => simp [preorderList] at hx
      | cons c cs ihc =>
        simp only [preorderList, List.mem_append] at hx
        rcases hx with hx | hx
        · exact ih c (by simp) o x hx
        · exact ihc (fun d hd => hb d (by simp [hd])) (fun d hd => ih d (by simp [hd])) _ hx

open Spec in
theorem node_span {k n : Nat} {cs : List Green} (h : Built (.node k n cs)) (o : Nat) :
    (RedNode.mk k n cs o).span = (o, o + bytesBelow (.node k n cs)) := by
  have := h.len_eq.1
  simp only [Green.len] at this
  show (o, o + n) = _
  rw [← this]

open Spec in
theorem chunk_fold {roleOf : Nat → Option Str} {src : Str} (xs : List (Green × Nat)) (s : List CodeChunk)
    (hb : ∀ x ∈ xs, Built x.1)
    (hf : ∀ x ∈ xs, ∃ u, strGet src x.2 (x.2 + bytesBelow x.1) = some u ∧ blen u = bytesBelow x.1) :
    ∃ cs, xs.foldlM (visitOne (enterChunk roleOf src) (fun _ s => .ok s)) s = .ok (s ++ cs) ∧
      cs.map (fun c => (c.start, c.stop, c.role)) = xs.filterMap (worth roleOf) ∧
      ∀ c ∈ cs, strGet src c.start c.stop = some c.text ∧ 20 < blen c.text := by
  induction xs generalizing s with
  | nil => exact ⟨[], by simp, by simp, by simp⟩
  | cons x xs ih =>
    obtain ⟨g, o⟩ := x
    have ih := fun s => ih s (fun x hx => hb x (by simp [hx])) (fun x hx => hf x (by simp [hx]))
    rw [List.foldlM_cons]
    cases g with
    | leaf k n m =>
      obtain ⟨cs, h1, h2, h3⟩ := ih s
      exact ⟨cs, h1, by rw [List.filterMap_cons]; simpa only [worth] using h2, h3⟩
    | node k n gs =>
      have hsp := node_span (hb _ List.mem_cons_self) o
      obtain ⟨u, hu, hl⟩ := hf _ List.mem_cons_self
      have hv : visitOne (enterChunk roleOf src) (fun _ s => .ok s) s (.node k n gs, o) =
          enterChunk roleOf src ⟨k, n, gs, o⟩ s := rfl
      rw [hv, enterChunk, hsp]
      simp only
      cases hr : roleOf k with
      | none =>
        obtain ⟨cs, h1, h2, h3⟩ := ih s
        exact ⟨cs, h1, by rw [List.filterMap_cons]; simpa [worth, hr] using h2, h3⟩
      | some role =>
        simp only at hu hl
        simp only [hu]
        by_cases h20 : blen u > 20
        · rw [if_pos h20]
          obtain ⟨cs, h1, h2, h3⟩ := ih (s ++ [⟨u, o, o + bytesBelow (.node k n gs), role⟩])
          refine ⟨⟨u, o, o + bytesBelow (.node k n gs), role⟩ :: cs, ?_, ?_, ?_⟩
          · rw [run_bind_ok, h1]; simp
          · rw [List.filterMap_cons]
            simp only [worth, hr, ← hl, if_pos (show 20 < blen u from h20), Option.map_some, List.map_cons, h2]
          · intro c hc
            simp only [List.mem_cons] at hc
            rcases hc with rfl | hc
            · exact ⟨hu, h20⟩
            · exact h3 c hc
        · rw [if_neg h20]
          obtain ⟨cs, h1, h2, h3⟩ := ih s
          refine ⟨cs, h1, ?_, h3⟩
          rw [List.filterMap_cons]
          simp only [worth, hr, ← hl, if_neg (show ¬ 20 < blen u from h20), h2]

end Oaks

namespace Oaks.Props
open Spec

/-- A tree that stands on its source is cut into the chunks worth finding, in the order of the tree:
each definition, statement or documentation of more than twenty bytes once, with its true place and its
text. -/
theorem C71_chunks (roleOf : Nat → Option Str) {src t : Str} {r : RedNode} (h : StandsOn src r t) :
    ∃ cs, collectChunks roleOf src (sizeOf' (.node r.kind r.textLen r.children)) r = .ok cs ∧
      cs.map (fun c => (c.start, c.stop, c.role)) =
        (preorder r.offset (.node r.kind r.textLen r.children)).filterMap (worth roleOf) ∧
      ∀ c ∈ cs, strGet src c.start c.stop = some c.text ∧ 20 < blen c.text := by
  obtain ⟨hb, hw, pre, post, hs, ho⟩ := h
  obtain ⟨k, n, cs, o⟩ := r
  simp only at hb hw ho
  subst ho
  unfold collectChunks
  rw [visitWith_ok _ _ hb k n cs _ _ _ rfl (Nat.le_refl _)]
  have := chunk_fold (roleOf := roleOf) (preorder (blen pre) (.node k n cs)) [] (preorder_built hb _)
    (preorder_fits hb pre t post hs hw)
  simpa using this

/-- A tree that does not fit the source it is indexed with is not refused: a node of one of the roles
whose span is not within the source makes the call panic. -/
theorem C71_crash (roleOf : Nat → Option Str) {src : Str} {r : RedNode}
    (hb : Built (.node r.kind r.textLen r.children)) {k n o : Nat} {gs : List Green}
    (hx : (.node k n gs, o) ∈ preorder r.offset (.node r.kind r.textLen r.children))
    (hk : roleOf k ≠ none) (hbad : strGet src o (o + bytesBelow (.node k n gs)) = none) (sr : Searcher) :
    sr.indexCode roleOf src (sizeOf' (.node r.kind r.textLen r.children)) r = .error .panic := by
  have key : ∀ (xs : List (Green × Nat)) (s : List CodeChunk), (∀ x ∈ xs, Built x.1) → (.node k n gs, o) ∈ xs →
      xs.foldlM (visitOne (enterChunk roleOf src) (fun _ s => .ok s)) s = .error .panic := by
    intro xs
    induction xs with
    | nil => intro s _ h; simp at h
    | cons x xs ih =>
      intro s hbx hm
      rw [List.foldlM_cons]
      by_cases hxe : x = (.node k n gs, o)
      · subst hxe
        have hv : visitOne (enterChunk roleOf src) (fun _ s => .ok s) s (.node k n gs, o) =
            enterChunk roleOf src ⟨k, n, gs, o⟩ s := rfl
        rw [hv, enterChunk, node_span (hbx _ List.mem_cons_self) o]
        simp only
        cases hr : roleOf k with
        | none => exact absurd hr hk
        | some role => simp only [hbad]; rfl
      · have hm' : (.node k n gs, o) ∈ xs := by
          simp only [List.mem_cons] at hm
          rcases hm with hm | hm
          · exact absurd hm.symm hxe
          · exact hm
        obtain ⟨g, o'⟩ := x
        cases g with
        | leaf k' n' m' => exact ih s (fun x hx => hbx x (by simp [hx])) hm'
        | node k' n' gs' =>
          have hv : visitOne (enterChunk roleOf src) (fun _ s => .ok s) s (.node k' n' gs', o') =
              enterChunk roleOf src ⟨k', n', gs', o'⟩ s := rfl
          rw [hv, enterChunk]
          cases roleOf k' with
          | none => exact ih s (fun x hx => hbx x (by simp [hx])) hm'
          | some role =>
            simp only
            cases strGet src (RedNode.mk k' n' gs' o').span.1 (RedNode.mk k' n' gs' o').span.2 with
            | none => rfl
            | some u =>
              simp only
              split
              · exact ih _ (fun x hx => hbx x (by simp [hx])) hm'
              · exact ih _ (fun x hx => hbx x (by simp [hx])) hm'
  obtain ⟨k', n', cs, o'⟩ := r
  unfold Searcher.indexCode collectChunks
  rw [visitWith_ok _ _ hb k' n' cs _ _ _ rfl (Nat.le_refl _), key _ _ (preorder_built hb _) hx]

/-- The search finds nothing, whatever was indexed. -/
theorem C71_never_found (roleOf : Nat → Option Str) {src t : Str} {r : RedNode} (h : StandsOn src r t) (sr : Searcher) :
    ∃ sr', sr.indexCode roleOf src (sizeOf' (.node r.kind r.textLen r.children)) r = .ok sr' ∧
      ∀ q limit, sr'.search q limit = [] := by
  obtain ⟨cs, h1, _⟩ := C71_chunks roleOf h
  exact ⟨sr, by rw [Searcher.indexCode, h1], fun _ _ => rfl⟩

/-! A definition of 22 bytes with a short statement in it. -/

def demoChunkSrc : Str := "fn main() { return 1 }".toList
def demoChunkTree : RedNode := ⟨7, 22, [.leaf 1 12 none, .node 8 8 [.leaf 2 8 none], .leaf 3 2 none], 0⟩
def demoChunkRole (k : Nat) : Option Str :=
  if k = 7 then some "Definition".toList else if k = 8 then some "Statement".toList else none

theorem demoChunk_stands : StandsOn demoChunkSrc demoChunkTree demoChunkSrc := by
  refine ⟨.node (k := 7) (cs := [.leaf 1 12 none, .node 8 8 [.leaf 2 8 none], .leaf 3 2 none]) ?_ rfl,
    ⟨["fn main() { ".toList, "return 1".toList, " }".toList], by decide, by decide⟩, [], [], by simp, rfl⟩
  intro c hc
  simp only [List.mem_cons, List.not_mem_nil, or_false] at hc
  rcases hc with rfl | rfl | rfl
  · exact .leaf _ _ _ (by decide)
  · refine .node (k := 8) (cs := [.leaf 2 8 none]) ?_ rfl
    intro c hc
    simp only [List.mem_cons, List.not_mem_nil, or_false] at hc
    subst hc
    exact .leaf _ _ _ (by decide)
  · exact .leaf _ _ _ (by decide)

example : collectChunks demoChunkRole demoChunkSrc 5 demoChunkTree =
    .ok [⟨demoChunkSrc, 0, 22, "Definition".toList⟩] := by decide +kernel

example : (⟨⟩ : Searcher).indexCode demoChunkRole "fn main()".toList 5 demoChunkTree = .error .panic :=
  C71_crash demoChunkRole demoChunk_stands.1 (k := 7) (n := 22) (o := 0)
    (gs := [.leaf 1 12 none, .node 8 8 [.leaf 2 8 none], .leaf 3 2 none]) List.mem_cons_self (by decide) (by decide) ⟨⟩

end Oaks.Props
