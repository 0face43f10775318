import Verif.Proofs.DiskVfs
import Mathlib.Data.List.Infix

/-!
C70: what is written to disk through `DiskVfs` can be read back.
-/
namespace Oaks.Dsk.Props
open Oaks.Spec Spec

/-- A write to a place where a file can be: the text is there afterwards, under every URI that names
the place; the directories on the way are there; everything else on the disk is as before. -/
theorem C70_write {v : DiskVfs} {d : Disk} (g : Good v d) {u c : Str} {p : Place} (h : FileName v u p)
    (ho : Open d p) :
    Good v (v.writeFile d u c) ∧
    (∀ u', FileName v u' p → v.getSource (v.writeFile d u c) u' = some c ∧
      v.metadata (v.writeFile d u c) u' = some (false, blen c)) ∧
    (∀ q, q <+: p → q ≠ p → look (v.writeFile d u c) q = some .dir) ∧
    ∀ q, ¬ q <+: p → look (v.writeFile d u c) q = look d q := by
  obtain ⟨g', h1, _⟩ := writeFile_facts (c := c) g h
  have h1 := h1 ho
  refine ⟨g', ?_, ?_, ?_⟩
  · intro u' hu'
    have : v.stat (v.writeFile d u c) (v.path u') = some (.text c) := by
      rw [stat_file g' hu', h1, if_pos rfl]
    simp [DiskVfs.getSource, DiskVfs.metadata, this]
  · intro q hq hne
    rw [h1, if_neg hne, if_pos hq]
  · intro q hq
    rw [h1, if_neg (by rintro rfl; exact hq (List.prefix_refl _)), if_neg hq]

/-- Where a file cannot be (a directory is there, or a file is on the way) a write changes nothing,
and the caller does not learn of it: the URI still does not give the text. -/
theorem C70_refused {v : DiskVfs} {d : Disk} (g : Good v d) {u c : Str} {p : Place} (h : FileName v u p)
    (ho : ¬ Open d p) :
    (∀ q, look (v.writeFile d u c) q = look d q) ∧ v.getSource (v.writeFile d u c) u = none := by
  obtain ⟨g', _, h1⟩ := writeFile_facts (c := c) g h
  have h1 := h1 ho
  refine ⟨h1, ?_⟩
  have hs : v.stat (v.writeFile d u c) (v.path u) = look d p := by rw [stat_file g' h, h1]
  have hl : ∀ s, look d p ≠ some (.text s) := by
    intro s hl
    rcases open_or (d := d) p with h | h | ⟨y, hy1, hy2, e, he, hed⟩
    · exact ho h
    · rw [hl] at h; cases h
    · have := dir_above g (by rw [hl]; simp) hy1 hy2
      rw [he] at this
      exact hed (by simpa using this)
  unfold DiskVfs.getSource
  rw [hs]
  cases hp : look d p with
  | none => rfl
  | some e =>
    cases e with
    | text s => exact absurd hp (hl s)
    | binary n => rfl
    | dir => rfl

/-- A removal takes the file away and nothing else; directories stay. -/
theorem C70_remove {v : DiskVfs} {d : Disk} (g : Good v d) {u : Str} {p : Place} (h : FileName v u p) :
    Good v (v.removeFile d u) ∧
    (IsFile d p → ∀ u', FileName v u' p → v.exist (v.removeFile d u) u' = false) ∧
    (look d p = some .dir → look (v.removeFile d u) p = some .dir) ∧
    ∀ q, q ≠ p → look (v.removeFile d u) q = look d q := by
  obtain ⟨g', h1⟩ := removeFile_facts g h
  refine ⟨g', ?_, ?_, ?_⟩
  · intro hf u' hu'
    simp [DiskVfs.exist, stat_file g' hu', h1, hf]
  · intro hd
    rw [h1, if_neg, hd]
    rintro ⟨_, e, he, hed⟩
    rw [hd] at he
    exact hed (by simpa using he.symm)
  · intro q hq
    rw [h1, if_neg (by simp [hq])]

/-- What the questions about a URI answer, on any disk: they agree with each other and with what is at
the place. -/
theorem C70_questions {v : DiskVfs} {d : Disk} (g : Good v d) {u : Str} {p : Place} (h : FileName v u p) :
    v.getSource d u = textAt d p ∧
    (v.exist d u = true ↔ look d p ≠ none) ∧
    ((∃ n, v.metadata d u = some (true, n)) ↔ look d p = some .dir) ∧
    ((∃ n, v.metadata d u = some (false, n)) ↔ IsFile d p) ∧
    ((v.readDir d u).isSome = true ↔ look d p = some .dir) := by
  have hs := stat_file g h
  have hr : (v.readDir d u).isSome = true ↔ look d p = some .dir := by
    constructor
    · intro hx
      unfold DiskVfs.readDir at hx
      unfold DiskVfs.stat at hs
      cases hl : v.locate d (v.path u) with
      | none => simp [hl] at hx
      | some q =>
        simp only [hl] at hx hs
        split at hx
        · rename_i hq; rw [← hs, hq]
        · cases hx
    · intro hd
      unfold DiskVfs.readDir
      have hne : u ≠ [] := (endsInName_facts h.2).1
      rw [locate_dir g h.1 (.inl hne) hd]
      simp [hd]
  refine ⟨?_, ?_, ?_, ?_, hr⟩
  · unfold DiskVfs.getSource textAt; rw [hs]
    cases look d p with
    | none => rfl
    | some e => cases e <;> rfl
  · unfold DiskVfs.exist; rw [hs]; cases look d p <;> simp
  · unfold DiskVfs.metadata; rw [hs]
    cases look d p with
    | none => simp
    | some e => cases e <;> simp
  · unfold DiskVfs.metadata IsFile; rw [hs]
    cases look d p with
    | none => simp
    | some e => cases e <;> simp

/-- Listing a directory gives each entry once, by a URI that names it. -/
theorem C70_read_dir {v : DiskVfs} {d : Disk} (g : Good v d) {u : Str} {p : Place} (h : Names v u p)
    (hu : u ≠ [] ∨ v.root ≠ []) (hd : look d p = some .dir) :
    ∃ ns us, v.readDir d u = some us ∧ ns.Nodup ∧ (∀ n, n ∈ ns ↔ look d (p ++ [n]) ≠ none) ∧
      List.Forall₂ (fun n u' => FileName v u' (p ++ [n])) ns us := by
  refine ⟨namesIn d p, (namesIn d p).map fun n => v.uri (joinPath (v.path u) n), ?_, nodup_namesIn g.once p,
    fun n => mem_namesIn g, ?_⟩
  · unfold DiskVfs.readDir
    rw [locate_dir g h hu hd]
    simp [hd]
  · rw [List.forall₂_map_right_iff, List.forall₂_same]
    intro n hn
    rw [mem_namesIn g] at hn
    cases hl : look d (p ++ [n]) with
    | none => exact absurd hl hn
    | some e =>
      have := names_of_look g hl n (by simp)
      exact entry_uri h this.1 this.2

/-- After any number of writes and removals at places none of which lies below another, each place
has what the last call about it left, and no other file has changed. -/
theorem C70_history_partial {v : DiskVfs} {d : Disk} (g : Good v d) {ops : List Op} {f : Place → Option Str}
    {ps : List Place} (h : Left v (textAt d) ops f ps) (hap : Apart ps) (ho : ∀ p ∈ ps, Open d p) :
    Good v (ops.foldl (runOp v) d) ∧
    (∀ p ∈ ps, ∀ u, FileName v u p → v.getSource (ops.foldl (runOp v) d) u = f p) ∧
    ∀ q, q ∉ ps → (IsFile d q ∨ IsFile (ops.foldl (runOp v) d) q) → look (ops.foldl (runOp v) d) q = look d q := by
  have key : Good v (ops.foldl (runOp v) d) ∧
      (∀ p, textAt (ops.foldl (runOp v) d) p = f p) ∧
      (∀ q, q ∉ ps → (IsFile d q ∨ IsFile (ops.foldl (runOp v) d) q) → look (ops.foldl (runOp v) d) q = look d q) ∧
      (∀ q, look (ops.foldl (runOp v) d) q = some .dir → look d q = some .dir ∨ ∃ p ∈ ps, q <+: p ∧ q ≠ p) := by
    induction h with
    | nil => exact ⟨g, fun _ => rfl, fun _ _ _ => rfl, fun q hq => .inl hq⟩
    | @snoc ops f ps op p c hl hdo ih =>
      obtain ⟨g1, h1, h2, h3⟩ := ih (fun a ha b hb => hap a (by simp [ha]) b (by simp [hb]))
        (fun a ha => ho a (by simp [ha]))
      rw [List.foldl_append, List.foldl_cons, List.foldl_nil]
      generalize ops.foldl (runOp v) d = d1 at *
      have hop : Open d1 p := by
        constructor
        · intro hd
          rcases h3 p hd with hd | ⟨r, hr, hpr, hne⟩
          · exact (ho p (by simp)).1 hd
          · exact hne (hap p (by simp) r (by simp [hr]) hpr)
        · intro q hq hne hf
          by_cases hqs : q ∈ ps
          · exact hne (hap q (by simp [hqs]) p (by simp) hq)
          · obtain ⟨e, he, hed⟩ := hf
            have := h2 q hqs (.inr ⟨e, he, hed⟩)
            rw [he] at this
            exact (ho p (by simp)).2 q hq hne ⟨e, this.symm, hed⟩
      cases hdo with
      | @write u c p hfn =>
        obtain ⟨g2, hw, _⟩ := writeFile_facts (c := c) g1 hfn
        have hw := hw hop
        simp only [runOp]
        refine ⟨g2, ?_, ?_, ?_⟩
        · intro q
          by_cases hqp : q = p
          · simp [textAt, hw, hqp]
          · rw [if_neg hqp, ← h1 q]
            simp only [textAt, hw, if_neg hqp]
            split_ifs with hpre
            · have hnf := hop.2 q hpre hqp
              cases hlq : look d1 q with
              | none => rfl
              | some e =>
                cases e with
                | dir => rfl
                | text s => exact absurd ⟨_, hlq, by simp⟩ hnf
                | binary n => rfl
            · rfl
        · intro q hq hf
          simp only [List.mem_cons, not_or] at hq
          rw [hw, if_neg hq.1]
          split_ifs with hpre
          · exfalso
            rcases hf with hf | ⟨e, he, hed⟩
            · exact (ho p (by simp)).2 q hpre hq.1 hf
            · rw [hw, if_neg hq.1, if_pos hpre] at he
              exact hed (by simpa using he.symm)
          · refine h2 q hq.2 ?_
            rcases hf with hf | ⟨e, he, hed⟩
            · exact .inl hf
            · rw [hw, if_neg hq.1, if_neg hpre] at he
              exact .inr ⟨e, he, hed⟩
        · intro q hq
          rw [hw] at hq
          by_cases a : q = p
          · rw [if_pos a] at hq; cases hq
          rw [if_neg a] at hq
          by_cases b : q <+: p
          · exact .inr ⟨p, by simp, b, a⟩
          · rw [if_neg b] at hq
            rcases h3 q hq with h | ⟨r, hr, hx⟩
            · exact .inl h
            · exact .inr ⟨r, by simp [hr], hx⟩
      | @remove u p hfn =>
        obtain ⟨g2, hw⟩ := removeFile_facts g1 hfn
        simp only [runOp]
        refine ⟨g2, ?_, ?_, ?_⟩
        · intro q
          by_cases hqp : q = p
          · subst hqp
            simp only [textAt, hw, if_true, true_and]
            split_ifs with hf
            · rfl
            · cases hlq : look d1 q with
              | none => rfl
              | some e =>
                cases e with
                | dir => rfl
                | text s => exact absurd (show IsFile d1 q from ⟨_, hlq, by simp⟩) (by simpa using hf)
                | binary n => rfl
          · rw [if_neg hqp, ← h1 q]
            simp only [textAt, hw, hqp, false_and, if_false]
        · intro q hq hf
          simp only [List.mem_cons, not_or] at hq
          rw [hw, if_neg (by simp [hq.1])]
          refine h2 q hq.2 ?_
          rcases hf with hf | ⟨e, he, hed⟩
          · exact .inl hf
          · rw [hw, if_neg (by simp [hq.1])] at he
            exact .inr ⟨e, he, hed⟩
        · intro q hq
          rw [hw] at hq
          split_ifs at hq
          rcases h3 q hq with h | ⟨r, hr, hx⟩
          · exact .inl h
          · exact .inr ⟨r, by simp [hr], hx⟩
  refine ⟨key.1, ?_, key.2.2.1⟩
  intro p _ u hu
  rw [(C70_questions key.1 hu).1, key.2.1]

/-- The files of a disk never get an identifier: whatever was written and read before, `get_id` and
`get_uri` answer nothing. -/
theorem C70_no_ids {root : Str} {cwd : Place} {d : Disk} (g : Good (DiskVfs.new root cwd) d) {u c : Str} {p : Place}
    (h : FileName (DiskVfs.new root cwd) u p) (ho : Open d p) :
    let v := DiskVfs.new root cwd
    v.getSource (v.writeFile d u c) u = some c ∧ v.getId u = none ∧ ∀ id, v.getUri id = none :=
  ⟨((C70_write g h ho).2.1 u h).1, rfl, fun _ => rfl⟩

/-- `..` leads to what is next to a directory, and nowhere from anything else. -/
theorem C70_up {v : DiskVfs} {d : Disk} (g : Good v d) {u n : Str} {p : Place} (h : Names v u p) (hu : u ≠ []) (hn : IsName n)
    (hn2 : n ≠ ['.', '.']) :
    v.getSource d (u ++ "/../".toList ++ n) = (if look d p = some .dir then textAt d (p.dropLast ++ [n]) else none) ∧
    (v.exist d (u ++ "/../".toList ++ n) = true ↔ look d p = some .dir ∧ look d (p.dropLast ++ [n]) ≠ none) := by
  have hs := locate_up g h hu hn hn2
  unfold DiskVfs.getSource DiskVfs.exist
  rw [hs]
  by_cases hd : look d p = some .dir
  · rw [if_pos hd, if_pos hd]
    refine ⟨by unfold textAt; rfl, ?_⟩
    rw [Option.isSome_iff_ne_none]
    simp [hd]
  · rw [if_neg hd, if_neg hd]
    simp [hd]

/-- With a slash behind it the name of a file leads nowhere, the name of a directory to it; and nothing is written to such a
name. -/
theorem C70_slash {v : DiskVfs} {d : Disk} (g : Good v d) {u c : Str} {p : Place} (h : FileName v u p) :
    (v.exist d (u ++ ['/']) = true ↔ look d p = some .dir) ∧ v.getSource d (u ++ ['/']) = none ∧
    ∀ q e, e ≠ Entry.dir → (look (v.writeFile d (u ++ ['/']) c) q = some e ↔ look d q = some e) := by
  have hs := locate_slash g h
  refine ⟨?_, ?_, write_slash g h⟩
  · unfold DiskVfs.exist
    rw [hs]
    by_cases hd : look d p = some .dir <;> simp [hd]
  · unfold DiskVfs.getSource
    rw [hs]
    by_cases hd : look d p = some .dir <;> simp [hd]

/-! ### A disk with one directory and one file in it -/

def demoVfs : DiskVfs := DiskVfs.new ['p'] [['h']]
def demoDisk : Disk := [([['h'], ['f']], .text ['x']), ([['h']], .dir)]

theorem demoGood : Good demoVfs demoDisk := by
  constructor
  · decide
  · decide
  · intro e he n hn
    simp only [demoDisk, List.mem_cons, List.not_mem_nil, or_false] at he
    rcases he with rfl | rfl
    · simp only [List.mem_cons, List.not_mem_nil, or_false] at hn
      rcases hn with rfl | rfl <;> exact ⟨by unfold IsName; decide, by decide⟩
    · simp only [List.mem_cons, List.not_mem_nil, or_false] at hn
      subst hn
      exact ⟨by unfold IsName; decide, by decide⟩
  · decide

/-- `s/a.rs` below the root path `p` below the working directory `/h`. -/
theorem demoName : FileName demoVfs "s//./a".toList [['h'], ['p'], ['s'], ['a']] := by
  have h1 : Down "s//./a".toList [['s'], ['a']] := ⟨segs_all "s//./a".toList, by decide⟩
  have h2 : Down demoVfs.root [['p']] := ⟨segs_all ['p'], by decide⟩
  exact ⟨.relative (by decide) (by decide) h1 h2, "s//./".toList, ['a'], rfl, by unfold IsName; decide, by decide⟩

theorem demoOpen : Open demoDisk [['h'], ['p'], ['s'], ['a']] := by
  refine ⟨by decide, ?_⟩
  intro q hq hne ⟨e, he, hed⟩
  rw [← List.mem_inits] at hq
  simp only [List.inits, List.map_cons, List.map_nil, List.mem_cons, List.not_mem_nil, or_false] at hq
  rcases hq with rfl | rfl | rfl | rfl | rfl
  · simp at he; exact hed he.symm
  · have : look demoDisk [['h']] = some .dir := by decide
    rw [this] at he; simp at he; exact hed he.symm
  · have : look demoDisk [['h'], ['p']] = none := by decide
    rw [this] at he; cases he
  · have : look demoDisk [['h'], ['p'], ['s']] = none := by decide
    rw [this] at he; cases he
  · exact hne rfl

example : demoVfs.getSource (demoVfs.writeFile demoDisk "s//./a".toList ['o', 'k']) "/h/p/s/a".toList = some ['o', 'k'] :=
  ((C70_write demoGood demoName demoOpen).2.1 _
    ⟨.abs (by decide) ⟨segs_all "/h/p/s/a".toList, by decide⟩, "/h/p/s/".toList, ['a'], rfl, by unfold IsName; decide,
      by decide⟩).1

example : demoVfs.readDir (demoVfs.writeFile demoDisk "s/a".toList ['o', 'k']) "s/".toList = some ["s/a".toList] := by
  decide +kernel

/-- A file where a directory would be needed: the write is lost without a word. -/
example : demoVfs.getSource (demoVfs.writeFile demoDisk "../f/a".toList ['o', 'k']) "../f/a".toList = none := by
  decide +kernel

example : ∃ f ps, Left demoVfs (textAt demoDisk) [.write "s//./a".toList ['1'], .remove "s//./a".toList] f ps ∧
    ps = [[['h'], ['p'], ['s'], ['a']], [['h'], ['p'], ['s'], ['a']]] ∧ Apart ps := by
  refine ⟨_, _, .snoc (.snoc .nil (.write demoName)) (.remove demoName), rfl, ?_⟩
  intro p hp q hq _
  simp only [List.mem_cons, List.not_mem_nil, or_false, or_self] at hp hq
  rw [hp, hq]

example : demoVfs.getSource demoDisk "/h/../h/f".toList = some ['x'] ∧ demoVfs.exist demoDisk "/h/f/../f".toList = false ∧
    demoVfs.exist demoDisk "/h/f/".toList = false ∧ demoVfs.exist demoDisk "/h/".toList = true := by
  decide +kernel

end Oaks.Dsk.Props
