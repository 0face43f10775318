import Verif.Spec.Definition
import Verif.Spec.Source
import Verif.Proofs.Tree
import Verif.Proofs.TextIn
import Verif.Proofs.Index
import Verif.Props.Lsp

/-! # C60, C61: resolving imports and going to definitions -/

namespace Oaks.Props
open Oaks Oaks.Spec

/-! ## C60 -/

/-- `Path::join`, as the candidates are made. -/
theorem C60_candidates (dir imp p : Str) : SeenFrom dir imp p ↔ p = pathJoin dir imp := by
  unfold pathJoin
  constructor
  · intro h
    have hd : ∀ q : Str, (∀ rest, q ≠ '/' :: rest) → q.head? ≠ some '/' := by
      intro q hq hh
      cases q with
      | nil => cases hh
      | cons c q => cases hh; exact hq _ rfl
    cases h with
    | absolute => simp
    | root hq hd' => rw [if_neg (hd _ hq), if_pos (.inr (by rw [hd']; simp))]
    | empty hq hd' => rw [if_neg (hd _ hq), if_pos (.inl hd'), hd']; rfl
    | relative hq hd' hc =>
      rw [if_neg (hd _ hq), if_neg]
      · simp
      · rw [hd']; simp [hc]
  · rintro rfl
    by_cases h1 : imp.head? = some '/'
    · rw [if_pos h1]
      obtain ⟨rest, rfl⟩ : ∃ rest, imp = '/' :: rest := by
        cases imp with
        | nil => cases h1
        | cons c q => cases h1; exact ⟨q, rfl⟩
      exact .absolute
    · rw [if_neg h1]
      have hq : ∀ rest, imp ≠ '/' :: rest := by rintro rest rfl; exact h1 rfl
      cases hl : dir.getLast? with
      | none =>
        rw [List.getLast?_eq_none_iff] at hl
        subst hl
        rw [if_pos (.inl rfl)]
        exact .empty hq rfl
      | some c =>
        obtain ⟨d, hd⟩ := List.getLast?_eq_some_iff.1 hl
        by_cases hc : c = '/'
        · subst hc
          rw [if_pos (.inr rfl)]
          exact .root hq hd
        · rw [if_neg]
          · simpa using SeenFrom.relative hq hd hc
          · rintro (h | h)
            · rw [h] at hd; simp at hd
            · simp at h; exact hc h

theorem resolveRoots_first (W : FileWorld) (imp : Str) (roots : List Str) :
    ((∀ r ∈ roots, W.exist (pathJoin r imp) = false) ∧ resolveRoots W imp roots = none) ∨
    ∃ c, FirstExisting W.exist (roots.map fun r => pathJoin r imp) c ∧ resolveRoots W imp roots = W.toUrl c := by
  induction roots with
  | nil => left; exact ⟨by simp, rfl⟩
  | cons r rs ih =>
    rw [resolveRoots]
    by_cases h : W.exist (pathJoin r imp) = true
    · right
      rw [if_pos h]
      exact ⟨_, ⟨[], _, rfl, h, by simp⟩, rfl⟩
    · rw [if_neg h]
      have h' : W.exist (pathJoin r imp) = false := by simpa using h
      rcases ih with ⟨h1, h2⟩ | ⟨c, ⟨b, a, h1, h2, h3⟩, h4⟩
      · left; exact ⟨by simpa [h'] using h1, h2⟩
      · right
        refine ⟨c, ⟨pathJoin r imp :: b, a, by rw [List.map_cons, h1]; rfl, h2, ?_⟩, h4⟩
        intro x hx
        rcases List.mem_cons.1 hx with rfl | hx
        · exact h'
        · exact h3 x hx

/-- Where an import is looked for: beside the importing file when that is a file with a directory, then
in each root in order. The first candidate that exists is the answer, and there is no answer when none
exists. Missing for the full property: an importing file without a directory
(`C60_no_directory_witness`), and candidates that have no URL (`C60_relative_root_witness`). -/
theorem C60_first_partial (W : FileWorld) (roots : List Str) (base imp : Str) (dir : Option Str)
    (hd : (∃ p d, W.toPath base = some p ∧ W.parent p = some d ∧ dir = some d) ∨ (W.toPath base = none ∧ dir = none)) :
    ((∀ d ∈ dir.toList ++ roots, W.exist (pathJoin d imp) = false) ∧ resolveImport W roots base imp = none) ∨
    ∃ c, FirstExisting W.exist ((dir.toList ++ roots).map fun r => pathJoin r imp) c ∧
      resolveImport W roots base imp = W.toUrl c := by
  rcases hd with ⟨p, d, h1, h2, rfl⟩ | ⟨h1, rfl⟩
  · simp only [resolveImport, h1, h2, Option.toList_some, List.singleton_append]
    have := resolveRoots_first W imp (d :: roots)
    simpa only [resolveRoots] using this
  · simp only [resolveImport, h1, Option.toList_none, List.nil_append]
    exact resolveRoots_first W imp roots

/-- A small world: URLs are `f:` and an absolute path, the directory of a path is given for two files. -/
def demoWorld (files : List Str) : FileWorld where
  toPath u := if "f:".toList.isPrefixOf u then some (u.drop 2) else none
  parent p := if p = "/".toList then none else if p = "/w/a".toList then some "/w".toList else some "/".toList
  toUrl p := if p.head? = some '/' then some ("f:".toList ++ p) else none
  exist p := files.contains p

/-- Counterexample: the importing URI names the root directory; the roots are not looked at. -/
theorem C60_no_directory_witness :
    resolveImport (demoWorld ["/lib/m".toList]) ["/lib".toList] "f:/".toList "m".toList = none ∧
    resolveImport (demoWorld ["/lib/m".toList]) ["/lib".toList] "x:y".toList "m".toList = some "f:/lib/m".toList := by
  decide +kernel

/-- Counterexample: the file exists below a relative root, which has no URL; a later root that has the
file is not looked at. -/
theorem C60_relative_root_witness :
    resolveImport (demoWorld ["lib/m".toList, "/lib/m".toList]) ["lib".toList, "/lib".toList] "f:/w/a".toList "m".toList = none := by
  decide +kernel

/-- Right after initialisation the directories looked in are those of the folders given, in order. -/
theorem C60_initialize (toPath : Str → Option Str) (w : Workspace) (rootUri : Option Str) (uris : List Str) :
    (w.initialize toPath rootUri uris).roots = (rootUri.toList ++ uris).filterMap toPath := by
  unfold Workspace.initialize
  simp only []
  generalize rootUri.toList ++ uris = l
  have : ∀ (l : List Str) (s : Folders × List Str), (l.foldl (initFolder toPath) s).2 = s.2 ++ l.filterMap toPath := by
    intro l
    induction l with
    | nil => intro s; simp
    | cons u l ih =>
      intro s
      rw [List.foldl_cons, ih, initFolder, List.filterMap_cons]
      cases toPath u with
      | none => rfl
      | some p => simp
  rw [this]
  rfl

/-- Counterexample to imports following the workspace: a folder added after initialisation is part of
the workspace, but imports are not looked for in it; and one removed is still looked in. -/
theorem C60_added_folder_witness :
    let W := demoWorld ["/lib/m".toList, "/old/n".toList]
    let w := ((Workspace.new.initialize W.toPath (some "f:/old".toList) []).add W.toPath "f:/lib".toList).remove "f:/old".toList
    isWithinWorkspace W.toPath w.folders "f:/lib/m".toList = true ∧
    resolveImport W w.roots "f:/w/a".toList "m".toList = none ∧
    isWithinWorkspace W.toPath w.folders "f:/old/n".toList = false ∧
    resolveImport W w.roots "f:/w/a".toList "n".toList = some "f:/old/n".toList := by
  decide +kernel

example : resolveImport (demoWorld ["/w/m".toList, "/lib/m".toList]) ["/lib".toList] "f:/w/a".toList "m".toList =
    some "f:/w/m".toList := by decide +kernel

/-! ## C61 -/

theorem childOver_unique {r : RedNode} {off : Nat} {c c' : Green} {o o' : Nat} (h : ChildOver r off c o)
    (h' : ChildOver r off c' o') : c = c' ∧ o = o' := by
  obtain ⟨a, b, h1, rfl, h2, h3⟩ := h
  obtain ⟨a', b', h1', rfl, h2', h3'⟩ := h'
  rw [h1] at h1'
  rcases List.append_eq_append_iff.1 h1' with ⟨t, e1, e2⟩ | ⟨t, e1, e2⟩
  · cases t with
    | nil => simp at e1 e2; subst e1; exact ⟨e2.1, rfl⟩
    | cons x t =>
      simp at e2
      obtain ⟨rfl, _⟩ := e2
      rw [e1, bytesBelowList_append, bytesBelowList_cons] at h2'
      omega
  · cases t with
    | nil => simp at e1 e2; subst e1; exact ⟨e2.1.symm, rfl⟩
    | cons x t =>
      simp at e2
      obtain ⟨rfl, _⟩ := e2
      rw [e1, bytesBelowList_append, bytesBelowList_cons] at h2
      omega

theorem childOver_found {r : RedNode} (hr : Built (.node r.kind r.textLen r.children)) {off : Nat} {c : Green} {o : Nat}
    (h : ChildOver r off c o) : r.childAtOffset off = .ok (some (Red.ofGreen c o)) := by
  obtain ⟨hb, hn, _⟩ := hr.inv
  have hl : ∀ l : List Green, (∀ c ∈ l, c ∈ r.children) → lenSum l = bytesBelowList l := fun l hl =>
    Built.lenSum_eq fun c hc => hb c (hl c hc)
  rcases childAtOffset_ok r hr off with ⟨h1, _⟩ | ⟨_, _, j, hj, h2, h3, h4⟩
  · obtain ⟨a, b, e1, rfl, e2, e3⟩ := h
    rw [hn, hl _ fun c h => h, e1, bytesBelowList_append, bytesBelowList_cons] at h1
    omega
  · have hlt := hl (r.children.take j) fun c hc => List.mem_of_mem_take hc
    have hlen := (hb r.children[j] (List.getElem_mem _)).len_eq.1
    have h' : ChildOver r off r.children[j] (r.offset + lenSum (r.children.take j)) :=
      ⟨r.children.take j, r.children.drop (j + 1), by simp, by rw [hlt], by omega, by omega⟩
    obtain ⟨rfl, rfl⟩ := childOver_unique h h'
    exact h2

/-- Going to the definition at a place inside the file: on a top-level node that is a reference, the
symbol of that name in the index, else the file of that name, else nothing; on any other top-level node
nothing; on a top-level token, the token itself. Missing for the full property: references that are not
top-level nodes, which are not looked at (`C61_nested_witness`). -/
theorem C61_top_level_partial (isRef : Nat → Bool) (lookup : Str → Option SymInfo) (resolve : Str → Option Str) (uri : Str)
    (root : RedNode) (hr : Built (.node root.kind root.textLen root.children)) (src : Source) (text : Str)
    (hs : Lawful src text) (start : Nat) (c : Green) (o : Nat) (hc : ChildOver root start c o) :
    (∀ k n m, c = .leaf k n m → definition isRef lookup resolve uri (some root) (some src) start = .ok [⟨uri, o, o + n⟩]) ∧
    (∀ k n cs, c = .node k n cs → isRef k = false →
      definition isRef lookup resolve uri (some root) (some src) start = .ok []) ∧
    (∀ k n cs name, c = .node k n cs → isRef k = true → IsSlice text o (o + n) name →
      (∀ s, lookup name = some s →
        definition isRef lookup resolve uri (some root) (some src) start = .ok [⟨s.uri, s.start, s.stop⟩]) ∧
      (lookup name = none → ∀ u, resolve name = some u →
        definition isRef lookup resolve uri (some root) (some src) start = .ok [⟨u, 0, 0⟩]) ∧
      (lookup name = none → resolve name = none →
        definition isRef lookup resolve uri (some root) (some src) start = .ok [])) := by
  have hf := childOver_found hr hc
  refine ⟨?_, ?_, ?_⟩
  · rintro k n m rfl
    simp only [definition, hf, run_bind_ok, Red.ofGreen, run_pure]
  · rintro k n cs rfl hk
    simp only [definition, hf, run_bind_ok, Red.ofGreen, definitionOf, hk, Bool.false_eq_true, if_false]
  · rintro k n cs name rfl hk hn
    have ht := hs.textIn _ _ _ hn
    simp only [definition, hf, run_bind_ok, Red.ofGreen, definitionOf, hk, if_true, RedNode.span, ht]
    refine ⟨?_, ?_, ?_⟩
    · intro s h; rw [h]; rfl
    · intro h u hu; rw [h, hu]; rfl
    · intro h h'; rw [h, h']; rfl

/-- Counterexample to the full property: a name that is in the index is referenced inside a statement
(kind 4) and right at the top (kind 9): only the second is resolved. And on a name token the answer is
the token itself. -/
theorem C61_nested_witness :
    let lookup := (tableAfter [("m".toList, [⟨"f".toList, "m".toList, 7, 8, none⟩])]).lookup
    let root : RedNode := ⟨0, 3, [.node 4 1 [.node 9 1 [.leaf 1 1 none]], .node 9 1 [.leaf 1 1 none], .leaf 1 1 none], 0⟩
    let ask := definition (· == 9) lookup (fun _ => none) "u".toList (some root) (some (strSource "fff".toList))
    ask 0 = .ok [] ∧ ask 1 = .ok [⟨"m".toList, 7, 8⟩] ∧ ask 2 = .ok [⟨"u".toList, 2, 3⟩] := by
  decide +kernel

/-- The outline of a file is the list of its last indexing, when its text and tree are at hand. Missing
for the full property: files that were not indexed, whose definitions are not listed
(`C61_outline_witness`). -/
theorem C61_outline_partial (h : SymHistory) (uri : Str) :
    documentSymbolsRequest (tableAfter h) uri true true = latest h uri := by
  unfold documentSymbolsRequest
  rw [files_get h uri]
  cases latest h uri <;> rfl

/-- Counterexample to the full property: a file with a definition that was not indexed has an empty
outline, although the documentation of `document_symbols` promises to parse it then. -/
theorem C61_outline_witness :
    documentSymbols ⟨(· == 9), (· == 1), fun _ => []⟩ (strSource "f".toList) "u".toList 5
      ⟨0, 1, [.node 9 1 [.leaf 1 1 none]], 0⟩ = .ok [⟨"f".toList, "u".toList, 0, 1, none⟩] ∧
    documentSymbolsRequest SymTable.new "u".toList true true = [] := by
  decide +kernel

end Oaks.Props
