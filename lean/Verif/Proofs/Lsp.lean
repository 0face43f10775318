import Verif.Spec.Lsp

/-! Workspace folders and directory listings. -/

namespace Oaks
open Spec

theorem splitSlash_name {n : Str} (h : '/' ∉ n) : splitSlash n = [n] := by
  induction n with
  | nil => rfl
  | cons c n ih =>
    simp only [List.mem_cons, not_or] at h
    simp only [splitSlash, if_neg (Ne.symm h.1), ih h.2]

theorem splitSlash_slash (n rest : Str) (h : '/' ∉ n) : splitSlash (n ++ '/' :: rest) = n :: splitSlash rest := by
  induction n with
  | nil => simp [splitSlash]
  | cons c n ih =>
    simp only [List.mem_cons, not_or] at h
    simp only [List.cons_append, splitSlash, if_neg (Ne.symm h.1), ih h.2]

theorem splitSlash_pathText (ns : List Str) (h : ∀ n ∈ ns, '/' ∉ n) (slash : Bool) (m : Str) (hm : '/' ∉ m) :
    splitSlash (m ++ pathText ns slash) = m :: ns ++ if slash then [[]] else [] := by
  induction ns generalizing m with
  | nil =>
    cases slash
    · simp [pathText, splitSlash_name hm]
    · simp only [pathText, List.flatMap_nil, List.nil_append, if_true]
      rw [splitSlash_slash m [] hm]; rfl
  | cons n ns ih =>
    have hp : pathText (n :: ns) slash = '/' :: (n ++ pathText ns slash) := by simp [pathText]
    rw [hp, splitSlash_slash m _ hm, ih (fun x hx => h x (by simp [hx])) n (h n (by simp))]
    rfl

theorem components_leads {path : Str} {names : List Str} (h : Leads path names) :
    components path = names := by
  obtain ⟨h1, slash, rfl⟩ := h
  have := splitSlash_pathText names (fun n hn => (h1 n hn).2.2) slash [] (by simp)
  rw [List.nil_append] at this
  unfold components
  rw [this, List.cons_append, List.filter_cons_of_neg (by simp), List.filter_append]
  have hf : names.filter (fun c => decide (c ≠ [] ∧ c ≠ ['.'])) = names := by
    rw [List.filter_eq_self]
    intro n hn
    have := h1 n hn
    simp only [decide_eq_true_eq]
    exact ⟨this.1, this.2.1⟩
  rw [hf]
  cases slash <;> simp

theorem pathText_len (ns : List Str) (slash : Bool) :
    blen (pathText ns slash) = blen (pathText ns false) + if slash then 1 else 0 := by
  cases slash
  · simp [pathText]
  · simp only [pathText, blen_append, if_true, Bool.false_eq_true, if_false, blen_nil, Nat.add_zero]
    rfl

/-- A deeper folder has a longer path. -/
theorem leads_len {p q : Str} {ns ms : List Str} (hp : Leads p ns) (hq : Leads q ms)
    (h : ns <+: ms) (hne : ns ≠ ms) : blen p < blen q := by
  obtain ⟨h1, s1, rfl⟩ := hp
  obtain ⟨h2, s2, rfl⟩ := hq
  obtain ⟨ks, rfl⟩ := h
  cases ks with
  | nil => simp at hne
  | cons k ks =>
    rw [pathText_len ns, pathText_len (ns ++ k :: ks)]
    have hk := blen_pos (h2 k (by simp)).1
    have : blen (pathText (ns ++ k :: ks) false) =
        blen (pathText ns false) + (1 + blen k + blen (pathText ks false)) := by
      simp [pathText, show Char.utf8Size '/' = 1 from rfl]; omega
    cases s1 <;> cases s2 <;> simp <;> omega

theorem findRootLoop_none {path : Str} {fs : Folders} {best : Option (Str × Nat)} :
    findRootLoop path fs best = none ↔ best = none ∧ ∀ f ∈ fs, pathStartsWith path f.2 = false := by
  induction fs generalizing best with
  | nil => simp [findRootLoop]
  | cons f fs ih =>
    obtain ⟨u, p⟩ := f
    simp only [findRootLoop]
    cases hp : pathStartsWith path p with
    | true =>
      simp only [if_true]
      split
      · rw [ih]; simp [hp]
      · next hb =>
        rw [ih]
        cases best with
        | none => simp at hb
        | some b => simp
    | false => simp [ih, hp]

theorem findRootLoop_some {path : Str} {fs : Folders} {best : Option (Str × Nat)} {u : Str} {n : Nat}
    (h : findRootLoop path fs best = some (u, n)) :
    (best = some (u, n) ∨ ∃ p, (u, p) ∈ fs ∧ pathStartsWith path p = true ∧ blen p = n) ∧
      (∀ b, best = some b → b.2 ≤ n) ∧
      (∀ f ∈ fs, pathStartsWith path f.2 = true → blen f.2 ≤ n) := by
  induction fs generalizing best with
  | nil => simp only [findRootLoop] at h; subst h; simp
  | cons f fs ih =>
    obtain ⟨v, p⟩ := f
    simp only [findRootLoop] at h
    cases hp : pathStartsWith path p with
    | true =>
      rw [hp] at h
      simp only [if_true] at h
      split at h
      · next hb =>
        obtain ⟨g1, g2, g3⟩ := ih h
        have hn := g2 _ rfl
        refine ⟨.inr ?_, ?_, ?_⟩
        · rcases g1 with g1 | ⟨q, g1, g1', g1''⟩
          · cases g1; exact ⟨p, by simp, hp, rfl⟩
          · exact ⟨q, by simp [g1], g1', g1''⟩
        · intro b hbest
          subst hbest
          simp at hb
          simp at hn; omega
        · intro f hf hfp
          rcases List.mem_cons.1 hf with rfl | hf
          · exact hn
          · exact g3 f hf hfp
      · next hb =>
        obtain ⟨g1, g2, g3⟩ := ih h
        refine ⟨?_, g2, ?_⟩
        · rcases g1 with g1 | ⟨q, g1, g1'⟩
          · exact .inl g1
          · exact .inr ⟨q, by simp [g1], g1'⟩
        · intro f hf hfp
          rcases List.mem_cons.1 hf with rfl | hf
          · cases best with
            | none => simp at hb
            | some b =>
              simp at hb
              have := g2 b rfl
              simp; omega
          · exact g3 f hf hfp
    | false =>
      rw [hp] at h
      simp only [Bool.false_eq_true, if_false] at h
      obtain ⟨g1, g2, g3⟩ := ih h
      refine ⟨?_, g2, ?_⟩
      · rcases g1 with g1 | ⟨q, g1, g1'⟩
        · exact .inl g1
        · exact .inr ⟨q, by simp [g1], g1'⟩
      · intro f hf hfp
        rcases List.mem_cons.1 hf with rfl | hf
        · rw [hp] at hfp; cases hfp
        · exact g3 f hf hfp

/-! Directory listings. -/

theorem filesOf_append (a b : List FsTree) : filesOf (a ++ b) = filesOf a ++ filesOf b := by
  induction a with
  | nil => rfl
  | cons c a ih => simp [filesOf, ih]

theorem sizeOfTrees_append (a b : List FsTree) : sizeOfTrees (a ++ b) = sizeOfTrees a + sizeOfTrees b := by
  induction a with
  | nil => simp [sizeOfTrees]
  | cons c a ih => simp [sizeOfTrees, ih]; omega

theorem showsAll_iff (fs : FsView) (l : List FsTree) : ShowsAll fs l ↔ ∀ c ∈ l, Shows fs c := by
  induction l with
  | nil => simp [ShowsAll]
  | cons c l ih => simp [ShowsAll, ih]

theorem sizeOfTrees_reverse (a : List FsTree) : sizeOfTrees a.reverse = sizeOfTrees a := by
  induction a with
  | nil => rfl
  | cons c a ih => simp [sizeOfTrees_append, sizeOfTrees, ih]; omega

theorem filesOf_reverse (a : List FsTree) : (filesOf a.reverse).Perm (filesOf a) := by
  induction a with
  | nil => exact .refl _
  | cons c a ih =>
    rw [List.reverse_cons, filesOf_append]
    simp only [filesOf, List.append_nil]
    exact (List.perm_append_comm).trans (ih.append_left _)

theorem Spec.FsTree.size_pos (c : FsTree) : 0 < c.size := by cases c <;> simp [FsTree.size]; omega

theorem listLoop_spec (fs : FsView) (fuel : Nat) (l : List FsTree) (h : ShowsAll fs l)
    (hf : sizeOfTrees l ≤ fuel) :
    ∃ out, listLoop fs fuel (l.map FsTree.uri) = .ok out ∧ out.Perm (filesOf l) := by
  induction fuel generalizing l with
  | zero =>
    cases l with
    | nil => exact ⟨[], rfl, .refl _⟩
    | cons c l => have := c.size_pos; simp [sizeOfTrees] at hf; omega
  | succ fuel ih =>
    cases l with
    | nil => exact ⟨[], rfl, .refl _⟩
    | cons c l =>
      obtain ⟨h1, h2⟩ := h
      simp only [sizeOfTrees] at hf
      cases c with
      | file u =>
        obtain ⟨out, g1, g2⟩ := ih l h2 (by simp [FsTree.size] at hf; omega)
        simp only [Shows] at h1
        refine ⟨u :: out, ?_, ?_⟩
        · simp [listLoop, FsTree.uri, h1, g1]
        · simpa [filesOf, FsTree.files] using g2
      | dir u cs =>
        obtain ⟨a1, a2, a3, a4⟩ := h1
        have hcs : ShowsAll fs (cs.reverse ++ l) := by
          rw [showsAll_iff] at a4 h2 ⊢
          intro c hc
          rcases List.mem_append.1 hc with hc | hc
          · exact a4 c (by simpa using hc)
          · exact h2 c hc
        obtain ⟨out, g1, g2⟩ := ih (cs.reverse ++ l) hcs (by
          rw [sizeOfTrees_append, sizeOfTrees_reverse]; simp [FsTree.size] at hf; omega)
        refine ⟨out, ?_, ?_⟩
        · simpa [listLoop, FsTree.uri, a1, a2, a3] using g1
        · refine g2.trans ?_
          rw [filesOf_append]
          simp only [filesOf, FsTree.files]
          exact (filesOf_reverse cs).append_right _
      | locked u =>
        obtain ⟨out, g1, g2⟩ := ih l h2 (by simp [FsTree.size] at hf; omega)
        obtain ⟨a1, a2, a3⟩ := h1
        exact ⟨out, by simpa [listLoop, FsTree.uri, a1, a2, a3] using g1, by simpa [filesOf, FsTree.files] using g2⟩
      | other u =>
        obtain ⟨out, g1, g2⟩ := ih l h2 (by simp [FsTree.size] at hf; omega)
        obtain ⟨a1, a2⟩ := h1
        exact ⟨out, by simpa [listLoop, FsTree.uri, a1, a2] using g1, by simpa [filesOf, FsTree.files] using g2⟩

end Oaks
