import Verif.Proofs.Lsp

/-! # C52, C53: workspace roots and file listings -/

namespace Oaks.Props
open Oaks Oaks.Spec

/-! ## C52 -/

/-- `find_root` gives a registered folder that contains the file, by path components; it gives
nothing exactly when the URI has no path or no registered folder contains it. For every table and
every order of it. -/
theorem C52_contains (toPath : Str → Option Str) (fs : Folders) (uri : Str) :
    (∀ r, findRoot toPath fs uri = some r → ∃ path folder, toPath uri = some path ∧ (r, folder) ∈ fs ∧
      components folder <+: components path) ∧
    (findRoot toPath fs uri = none ↔
      ∀ path, toPath uri = some path → ∀ f ∈ fs, ¬ components f.2 <+: components path) ∧
    isWithinWorkspace toPath fs uri = (findRoot toPath fs uri).isSome := by
  refine ⟨?_, ?_, rfl⟩
  · intro r hr
    unfold findRoot at hr
    cases hp : toPath uri with
    | none => rw [hp] at hr; simp at hr
    | some path =>
      rw [hp] at hr
      simp only [Option.bind_eq_bind, Option.bind_some, Option.map_eq_some_iff] at hr
      obtain ⟨⟨u, n⟩, h1, rfl⟩ := hr
      rcases (findRootLoop_some h1).1 with h | ⟨p, h2, h3, _⟩
      · cases h
      · exact ⟨path, p, rfl, h2, by simpa [pathStartsWith] using h3⟩
  · unfold findRoot
    cases hp : toPath uri with
    | none => simp
    | some path =>
      simp only [Option.bind_eq_bind, Option.bind_some, Option.map_eq_none_iff, findRootLoop_none,
        true_and, Option.some.injEq, forall_eq', pathStartsWith]
      constructor
      · intro h f hf hpre
        have := h f hf
        rw [List.isPrefixOf_iff_prefix.2 hpre] at this; cases this
      · intro h f hf
        cases hb : (components f.2).isPrefixOf (components path) with
        | false => rfl
        | true => exact absurd (List.isPrefixOf_iff_prefix.1 hb) (h f hf)

/-- When the registered folders are written without doubled slashes, the folder given is the
innermost: every registered folder that contains the file leads to it. Missing for the full
property: folders written with doubled slashes, for which it is false (`C52_not_innermost`). -/
theorem C52_innermost_partial (toPath : Str → Option Str) (fs : Folders) (uri : Str) (r : Str)
    (hfs : ∀ f ∈ fs, ∃ names, Leads f.2 names) (hr : findRoot toPath fs uri = some r) :
    ∃ path folder, toPath uri = some path ∧ (r, folder) ∈ fs ∧ components folder <+: components path ∧
      ∀ f ∈ fs, components f.2 <+: components path → components f.2 <+: components folder := by
  unfold findRoot at hr
  cases hp : toPath uri with
  | none => rw [hp] at hr; simp at hr
  | some path =>
    rw [hp] at hr
    simp only [Option.bind_eq_bind, Option.bind_some, Option.map_eq_some_iff] at hr
    obtain ⟨⟨u, n⟩, h1, rfl⟩ := hr
    obtain ⟨h2, _, h3⟩ := findRootLoop_some h1
    rcases h2 with h | ⟨p, h4, h5, h6⟩
    · cases h
    · have hpre : components p <+: components path := by simpa [pathStartsWith] using h5
      refine ⟨path, p, rfl, h4, hpre, ?_⟩
      intro f hf hfp
      rcases List.prefix_or_prefix_of_prefix hfp hpre with h | h
      · exact h
      · by_cases he : components p = components f.2
        · rw [he]; exact List.prefix_refl _
        · exfalso
          obtain ⟨ns, hn⟩ := hfs _ h4
          obtain ⟨ms, hm⟩ := hfs _ hf
          have hle := h3 f hf (by simpa [pathStartsWith] using hfp)
          have c1 := components_leads hn
          have c2 := components_leads hm
          simp only at c1 hn
          rw [c1, c2] at h he
          have := leads_len hn hm h he
          omega

/-- For such folders the result does not depend on the order of the table: it is always the same
folder (possibly under another URI when two URIs name the same folder). -/
theorem C52_order_partial (toPath : Str → Option Str) (fs fs' : Folders) (hperm : fs.Perm fs')
    (uri : Str) (hfs : ∀ f ∈ fs, ∃ names, Leads f.2 names) :
    (findRoot toPath fs uri = none ↔ findRoot toPath fs' uri = none) ∧
    (∀ r r', findRoot toPath fs uri = some r → findRoot toPath fs' uri = some r' →
      ∃ p p', (r, p) ∈ fs ∧ (r', p') ∈ fs ∧ components p = components p') := by
  refine ⟨?_, ?_⟩
  · rw [(C52_contains toPath fs uri).2.1, (C52_contains toPath fs' uri).2.1]
    constructor <;> intro h path hp f hf
    · exact h path hp f (hperm.mem_iff.2 hf)
    · exact h path hp f (hperm.mem_iff.1 hf)
  · intro r r' h1 h2
    obtain ⟨path, p, a1, a2, a3, a4⟩ := C52_innermost_partial toPath fs uri r hfs h1
    obtain ⟨path', p', b1, b2, b3, b4⟩ := C52_innermost_partial toPath fs' uri r'
      (fun f hf => hfs f (hperm.mem_iff.2 hf)) h2
    rw [a1] at b1; cases b1
    have b2' := hperm.mem_iff.2 b2
    refine ⟨p, p', a2, b2', ?_⟩
    have x := a4 _ b2' b3
    have y := b4 _ (hperm.mem_iff.1 a2) a3
    exact y.eq_of_length (Nat.le_antisymm y.length_le x.length_le)

/-- The innermost folder is chosen by the length of its text, so a folder registered with extra
slashes beats a deeper one. -/
theorem C52_not_innermost :
    findRoot (fun u => some u) [("/a/b".toList, "/a/b".toList), ("/a///".toList, "/a///".toList)]
      "/a/b/x".toList = some "/a///".toList := by decide

/-- With two URIs for the same folder, which of them comes back depends on the order of the table. -/
theorem C52_order_dependent :
    findRoot (fun u => if u = "f".toList then some "/a/x".toList else some "/a".toList)
        [("u".toList, "/a".toList), ("v".toList, "/a".toList)] "f".toList = some "u".toList ∧
      findRoot (fun u => if u = "f".toList then some "/a/x".toList else some "/a".toList)
        [("v".toList, "/a".toList), ("u".toList, "/a".toList)] "f".toList = some "v".toList := by
  decide

/-- Registering a folder makes it count, and removing it makes it not count. -/
theorem C52_register (toPath : Str → Option Str) (fs : Folders) (uri path file : Str)
    (h1 : toPath uri = some path) (h2 : toPath file = some path) :
    isWithinWorkspace toPath (addFolder toPath fs uri) file = true ∧
      (∀ r, findRoot toPath (removeFolder fs uri) file = some r → r ≠ uri) := by
  constructor
  · cases hr : findRoot toPath (addFolder toPath fs uri) file with
    | some r => simp [isWithinWorkspace, hr]
    | none =>
      rw [(C52_contains _ _ _).2.1] at hr
      exact absurd (List.prefix_refl _) (hr path h2 (uri, path) (by simp [addFolder, h1]))
  · intro r hr
    obtain ⟨p, folder, _, hm, _⟩ := (C52_contains toPath _ file).1 r hr
    simp [removeFolder] at hm
    exact hm.2

example : Leads "/a/b".toList ["a".toList, "b".toList] :=
  ⟨by intro n hn; simp at hn; rcases hn with rfl | rfl <;> exact ⟨by decide, by decide, by decide⟩,
    false, by decide⟩
example : findRoot (fun u => some u)
    [("/a".toList, "/a".toList), ("/a/b/".toList, "/a/b/".toList), ("/ab".toList, "/ab".toList)]
    "/a/b/x".toList = some "/a/b/".toList := by decide

/-! ## C53 -/

/-- For every finite directory tree shown by the file system, `list_all_files` ends after at most as
many rounds as the tree has nodes and gives every file below the root exactly as often as the tree
has it, in some order, and nothing else. -/
theorem C53_lists_tree (fs : FsView) (tree : FsTree) (h : Shows fs tree) :
    ∃ out, listAllFiles fs tree.size tree.uri = .ok out ∧ out.Perm tree.files := by
  obtain ⟨out, h1, h2⟩ := listLoop_spec fs tree.size [tree] ⟨h, trivial⟩ (by simp [sizeOfTrees])
  exact ⟨out, h1, by simpa [filesOf] using h2⟩

/-- Each file once, when the tree has no URI twice. -/
theorem C53_once (fs : FsView) (tree : FsTree) (h : Shows fs tree) (hd : tree.files.Nodup) :
    ∃ out, listAllFiles fs tree.size tree.uri = .ok out ∧ out.Nodup ∧ ∀ u, u ∈ out ↔ u ∈ tree.files := by
  obtain ⟨out, h1, h2⟩ := C53_lists_tree fs tree h
  exact ⟨out, h1, h2.nodup_iff.2 hd, fun u => h2.mem_iff⟩

/-- On the in-memory file system `list_all_files` finds nothing below any root: it never reports a
directory (memory.rs:119-122). Only a root that is itself a file comes back. -/
theorem C53_memory_finds_nothing (m : MemFs) (keys : List Str) (root : Str) (fuel : Nat) :
    listAllFiles (m.view keys) (fuel + 1) root = .ok (if m.exist root then [root] else []) := by
  simp only [listAllFiles, listLoop, MemFs.view]
  cases m.exist root <;> simp [listLoop]

example : Shows ⟨fun u => u = ['f'] ∨ u = ['g'], fun u => u = ['d'] ∨ u = ['e'],
      fun u => if u = ['d'] then some [['f'], ['e']] else if u = ['e'] then some [['g']] else none⟩
    (.dir ['d'] [.file ['f'], .dir ['e'] [.file ['g']]]) := by
  simp [Shows, ShowsAll, FsTree.uri]

end Oaks.Props
