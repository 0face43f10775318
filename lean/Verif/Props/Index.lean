import Verif.Proofs.Index

/-! # C42, C43, C44: references, document symbols, workspace index -/

namespace Oaks.Props
open Oaks Oaks.Spec

/-! ## C42 -/

/-- `SimpleReferenceFinder::find` returns, in source order, exactly the spans of the name leaves with
the requested text; it panics exactly when some name leaf does not lie on character boundaries of the
source. -/
theorem C42_references (isName : Nat → Bool) (name source : Str) (r : RedNode)
    (h : Built (.node r.kind r.textLen r.children)) :
    ((∀ l ∈ place r.offset (leavesOfList r.children), isName l.1 = true → ∃ m, IsSlice source l.2.1 l.2.2 m) →
      findReferences isName name source (sizeOf' (.node r.kind r.textLen r.children)) r =
        .ok (((place r.offset (leavesOfList r.children)).filter fun l =>
          isName l.1 && decide (strGet source l.2.1 l.2.2 = some name)).map (·.2))) ∧
    ((∃ l ∈ place r.offset (leavesOfList r.children), isName l.1 = true ∧ ¬ ∃ m, IsSlice source l.2.1 l.2.2 m) →
      findReferences isName name source (sizeOf' (.node r.kind r.textLen r.children)) r = .error .panic) := by
  obtain ⟨k, n, cs, o⟩ := r
  simp only [] at h ⊢
  have hsl : ∀ a b m, strGet source a b = some m ↔ IsSlice source a b m := fun a b m => strGet_eq_some
  constructor
  · intro hn
    unfold findReferences
    rw [visitTokens_ok _ h, refFold]
    · simp
    · intro l hl hk
      obtain ⟨m, hm⟩ := hn l hl hk
      rw [(hsl _ _ m).2 hm]; rfl
  · rintro ⟨l, hl, hk, hm⟩
    unfold findReferences
    rw [visitTokens_ok _ h]
    refine refFold_panic _ _ _ _ _ ⟨l, hl, hk, ?_⟩
    cases hg : strGet source l.2.1 l.2.2 with
    | none => rfl
    | some m => exact absurd ⟨m, (hsl _ _ m).1 hg⟩ hm

/-- What the filter in `C42_references` selects: `strGet source a b = some name` says that the text
between the two offsets is the name. -/
theorem C42_selected (source name : Str) (a b : Nat) : strGet source a b = some name ↔ IsSlice source a b name :=
  strGet_eq_some

example : findReferences (· == 1) "é".toList "é=é+e".toList 10
    ⟨0, 7, [.leaf 1 2 none, .leaf 2 1 none, .node 3 4 [.leaf 1 2 none, .leaf 2 1 none, .leaf 1 1 none]], 0⟩ =
    .ok [(0, 2), (3, 5)] := by decide +kernel

/-! ## C43 -/

/-- `document_symbols` lists exactly the definitions of the tree, in preorder, each with its name, its
span and the name of the nearest definition around it; for every kind of source (`Lawful`). -/
theorem C43_symbols (R : Roles) (src : Source) (text uri : Str) (hs : Lawful src text) (r : RedNode)
    (h : Built (.node r.kind r.textLen r.children))
    (hn : ∀ l ∈ place r.offset (leavesOfList r.children), R.isName l.1 = true → ∃ m, IsSlice text l.2.1 l.2.2 m) :
    documentSymbols R src uri (sizeOf' (.node r.kind r.textLen r.children)) r =
      .ok ((enclosed [] r.offset (.node r.kind r.textLen r.children)).filterMap (symbolOf R text uri)) := by
  obtain ⟨k, n, cs, o⟩ := r
  simp only [] at h hn ⊢
  unfold documentSymbols
  rw [symbols_ok R src text uri hs h k n cs o _ [] none [] rfl (Nat.le_refl _) rfl]
  · simp
  · intro l hl hk
    obtain ⟨m, hm⟩ := hn l (by simpa [leavesOf] using hl) hk
    have : strGet text l.2.1 l.2.2 = some m := strGet_eq_some.2 hm
    rw [this]; rfl

/-- The elements considered in `C43_symbols` are all elements, each once, in preorder. -/
theorem C43_all_elements (g : Green) (o : Nat) : (enclosed [] o g).map (·.2) = preorder o g := enclosed_preorder g [] o

/-- A definition in a definition, the outer one named after its first own name leaf. -/
example : documentSymbols ⟨fun k => k == 9, fun k => k == 1, fun _ => "X".toList⟩ (strSource "m{f g{}h{}}".toList) [] 20
    ⟨9, 11, [.leaf 1 1 none, .leaf 2 1 none,
      .node 5 3 [.leaf 1 1 none, .leaf 2 1 none, .leaf 1 1 none],
      .node 9 2 [.leaf 2 2 none], .node 9 3 [.leaf 1 1 none, .leaf 2 2 none], .leaf 2 1 none], 0⟩ =
    .ok [⟨"m".toList, [], 0, 11, none⟩, ⟨"<X>".toList, [], 5, 7, some "m".toList⟩, ⟨"h".toList, [], 7, 10, some "m".toList⟩] := by
  decide +kernel

/-! ## C44 -/

/-- The query for a file returns the list of its last update. -/
theorem C44_query_file (h : SymHistory) (uri : Str) : (tableAfter h).queryFile uri = latest h uri := files_get h uri

/-- Whatever is found under a name is in the latest list of some file, and has that name: nothing
stale, nothing misfiled. -/
theorem C44_sound (h : SymHistory) (fqn : Str) (s : SymInfo) (hl : (tableAfter h).lookup fqn = some s) :
    IsQualified s fqn ∧ ∃ uri, s ∈ latest h uri := by
  obtain ⟨h1, h2⟩ := lookup_sound h fqn s hl
  exact ⟨(isQualified_iff s fqn).2 h1, h2⟩

/-- If at no time two files defined the name, a definition in a current file is found, and it is the
last one of the name in that file. Missing for the full property: names that two files defined at some
time, where the index loses definitions (`C44_lost`). -/
theorem C44_complete_partial (h : SymHistory) (fqn : Str)
    (huniq : ∀ p, p <+: h → ∀ u v, (∃ s ∈ latest p u, IsQualified s fqn) → (∃ s ∈ latest p v, IsQualified s fqn) → u = v)
    (uri : Str) (hu : ∃ s ∈ latest h uri, IsQualified s fqn) :
    ∃ s before after, (tableAfter h).lookup fqn = some s ∧ latest h uri = before ++ s :: after ∧ IsQualified s fqn ∧
      ∀ s' ∈ after, ¬ IsQualified s' fqn := by
  simp only [isQualified_iff] at huniq hu ⊢
  rw [lookup_complete h fqn huniq uri hu]
  obtain ⟨s, hs, hq⟩ := hu
  have : ((latest h uri).reverse.find? fun s => qualifiedName s = fqn).isSome := by
    rw [List.find?_isSome]
    exact ⟨s, by simpa using hs, by simpa using hq⟩
  obtain ⟨y, hy⟩ := Option.isSome_iff_exists.1 this
  obtain ⟨h1, as, bs, h2, h3⟩ := List.find?_eq_some_iff_append.1 hy
  refine ⟨y, bs.reverse, as.reverse, hy, ?_, by simpa using h1, ?_⟩
  · have := congrArg List.reverse h2
    simpa using this
  · intro s' hs'
    have := h3 s' (by simpa using hs')
    simpa using this

/-- Counterexample to the full property: two files define `f`; after the first one drops it, the
index no longer finds the second file's `f`. -/
theorem C44_lost :
    let f : SymInfo := ⟨"f".toList, "b".toList, 0, 1, none⟩
    let h : SymHistory := [("a".toList, [⟨"f".toList, "a".toList, 0, 1, none⟩]), ("b".toList, [f]), ("a".toList, [])]
    f ∈ latest h "b".toList ∧ (tableAfter h).lookup "f".toList = none := by decide +kernel

/-- `query` returns exactly the symbols found under names that contain the text, one per name. -/
theorem C44_query (h : SymHistory) (q : Str) :
    ∃ names : List Str, names.Nodup ∧
      (∀ f, f ∈ names ↔ (∃ s, (tableAfter h).lookup f = some s) ∧ q <:+: f) ∧
      ((tableAfter h).query q).map some = names.map (tableAfter h).lookup := by
  have hd := qualified_distinct h
  generalize tableAfter h = t at hd ⊢
  refine ⟨(t.qualified.filter fun x => strContains q x.1).map (·.1), ?_, ?_, ?_⟩
  · exact List.Nodup.sublist (List.Sublist.map _ List.filter_sublist) hd
  · intro f
    simp only [List.mem_map, List.mem_filter, strContains_iff]
    constructor
    · rintro ⟨x, ⟨h1, h2⟩, rfl⟩
      exact ⟨⟨x.2, (dmGet_iff hd _ _).2 h1⟩, h2⟩
    · rintro ⟨⟨s, hs⟩, h2⟩
      exact ⟨(f, s), ⟨(dmGet_iff hd _ _).1 hs, h2⟩, rfl⟩
  · unfold SymTable.query
    rw [List.map_map, List.map_map]
    refine List.map_congr_left fun x hx => ?_
    exact ((dmGet_iff hd x.1 x.2).2 (List.mem_filter.1 hx).1).symm

example : ((tableAfter [("a".toList, [⟨"f".toList, "a".toList, 0, 1, some "m".toList⟩]),
    ("b".toList, [⟨"g".toList, "b".toList, 0, 1, none⟩])]).query "::".toList) =
    [⟨"f".toList, "a".toList, 0, 1, some "m".toList⟩] := by decide +kernel

end Oaks.Props
