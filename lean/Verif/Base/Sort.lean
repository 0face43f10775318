/-
Rust's stable sorts (`sort_by`, `sort_by_key`). A stable sort is determined by its contract
(sorted, a permutation, equal elements keep their order), so insertion sort stands for it; the
theorem `sortBy_unique` below is that contract.
-/
namespace Oaks

variable {α : Type _}

/-- Insert before the first element that is not smaller. -/
def insertBy (le : α → α → Bool) (x : α) : List α → List α
  | [] => [x]
  | b :: l => if le x b then x :: b :: l else b :: insertBy le x l

/-- Stable sort. -/
def sortBy (le : α → α → Bool) : List α → List α
  | [] => []
  | x :: l => insertBy le x (sortBy le l)

/-- Total preorder. -/
structure TotalPre (le : α → α → Bool) : Prop where
  total : ∀ a b, le a b = true ∨ le b a = true
  trans : ∀ a b c, le a b = true → le b c = true → le a c = true

theorem insertBy_perm (le : α → α → Bool) (x : α) (l : List α) : (insertBy le x l).Perm (x :: l) := by
  induction l with
  | nil => simp [insertBy]
  | cons b l ih =>
    unfold insertBy
    split
    · exact List.Perm.refl _
    · exact (List.Perm.cons b ih).trans (List.Perm.swap x b l)

theorem sortBy_perm (le : α → α → Bool) (l : List α) : (sortBy le l).Perm l := by
  induction l with
  | nil => exact List.Perm.refl _
  | cons x l ih => exact (insertBy_perm le x _).trans (List.Perm.cons x ih)

theorem mem_sortBy {le : α → α → Bool} {l : List α} {a : α} : a ∈ sortBy le l ↔ a ∈ l :=
  (sortBy_perm le l).mem_iff

theorem length_sortBy {le : α → α → Bool} {l : List α} : (sortBy le l).length = l.length :=
  (sortBy_perm le l).length_eq

theorem insertBy_sorted {le : α → α → Bool} (h : TotalPre le) (x : α) (l : List α)
    (hl : l.Pairwise (fun a b => le a b = true)) :
    (insertBy le x l).Pairwise (fun a b => le a b = true) := by
  induction l with
  | nil => simp [insertBy]
  | cons b l ih =>
    rw [List.pairwise_cons] at hl
    unfold insertBy
    split
    · rename_i hx
      refine List.pairwise_cons.mpr ⟨?_, List.pairwise_cons.mpr hl⟩
      intro c hc
      rw [List.mem_cons] at hc
      rcases hc with rfl | hc
      · exact hx
      · exact h.trans _ _ _ hx (hl.1 c hc)
    · rename_i hx
      refine List.pairwise_cons.mpr ⟨?_, ih hl.2⟩
      intro c hc
      rw [(insertBy_perm le x l).mem_iff, List.mem_cons] at hc
      rcases hc with rfl | hc
      · rcases h.total b c with h' | h'
        · exact h'
        · exact absurd h' hx
      · exact hl.1 c hc

theorem sortBy_sorted {le : α → α → Bool} (h : TotalPre le) (l : List α) :
    (sortBy le l).Pairwise (fun a b => le a b = true) := by
  induction l with
  | nil => simp [sortBy]
  | cons x l ih => exact insertBy_sorted h x _ ih

/-- The elements equivalent to `a`, in list order. -/
def sameKey (le : α → α → Bool) (a : α) (l : List α) : List α :=
  l.filter (fun y => le a y && le y a)

theorem insertBy_stable {le : α → α → Bool} (h : TotalPre le) (a x : α) (l : List α) :
    sameKey le a (insertBy le x l) = sameKey le a (x :: l) := by
  induction l with
  | nil => rfl
  | cons b l ih =>
    unfold insertBy
    split
    · rfl
    · rename_i hx
      unfold sameKey at ih ⊢
      rw [List.filter_cons, ih]
      -- `x` and `b` cannot both be equivalent to `a`
      by_cases hb : (le a b && le b a) = true
      · have hxa : (le a x && le x a) = false := by
          cases hxa : (le a x && le x a) with
          | false => rfl
          | true =>
            simp at hb hxa
            exact absurd (h.trans _ _ _ hxa.2 hb.1) hx
        simp [List.filter_cons, hb, hxa]
      · simp [List.filter_cons, hb]

theorem sortBy_stable {le : α → α → Bool} (h : TotalPre le) (a : α) (l : List α) :
    sameKey le a (sortBy le l) = sameKey le a l := by
  induction l with
  | nil => rfl
  | cons x l ih =>
    unfold sortBy
    rw [insertBy_stable h]
    unfold sameKey at ih ⊢
    simp [List.filter_cons, ih]

/-- Sorted lists with the same equivalence classes in the same order are equal. -/
theorem sorted_ext {le : α → α → Bool} (h : TotalPre le) {l₁ l₂ : List α}
    (h1 : l₁.Pairwise (fun a b => le a b = true)) (h2 : l₂.Pairwise (fun a b => le a b = true))
    (he : ∀ a, sameKey le a l₁ = sameKey le a l₂) : l₁ = l₂ := by
  have refl : ∀ a, le a a = true := fun a => by rcases h.total a a with h | h <;> exact h
  induction l₁ generalizing l₂ with
  | nil =>
    cases l₂ with
    | nil => rfl
    | cons b l₂ => have := he b; simp [sameKey, refl b] at this
  | cons x l₁ ih =>
    cases l₂ with
    | nil => have := he x; simp [sameKey, refl x] at this
    | cons b l₂ =>
      rw [List.pairwise_cons] at h1 h2
      -- the heads are equivalent
      have mem1 : ∀ a l, sameKey le a l ≠ [] ↔ ∃ y ∈ l, le a y = true ∧ le y a = true := by
        intro a l; simp [sameKey, List.filter_eq_nil_iff]
      have hxb : le x b = true := by
        obtain ⟨y, hy, hy1, hy2⟩ := (mem1 b (x :: l₁)).mp (by
          rw [he b]; exact (mem1 b _).mpr ⟨b, by simp, refl b, refl b⟩)
        rw [List.mem_cons] at hy
        rcases hy with rfl | hy
        · exact hy2
        · exact h.trans _ _ _ (h1.1 y hy) hy2
      have hbx : le b x = true := by
        obtain ⟨y, hy, hy1, hy2⟩ := (mem1 x (b :: l₂)).mp (by
          rw [← he x]; exact (mem1 x _).mpr ⟨x, by simp, refl x, refl x⟩)
        rw [List.mem_cons] at hy
        rcases hy with rfl | hy
        · exact hy2
        · exact h.trans _ _ _ (h2.1 y hy) hy2
      have hx : x = b := by
        have := he x
        simp only [sameKey, List.filter_cons, refl x, hxb, hbx, Bool.and_self, if_true] at this
        exact (List.cons.inj this).1
      subst hx
      congr 1
      apply ih h1.2 h2.2
      intro a
      have := he a
      simp only [sameKey, List.filter_cons] at this ⊢
      split at this
      · exact (List.cons.inj this).2
      · exact this

/-- The contract of a stable sort determines its result. -/
theorem sortBy_unique {le : α → α → Bool} (h : TotalPre le) {l s : List α}
    (hs : s.Pairwise (fun a b => le a b = true)) (he : ∀ a, sameKey le a s = sameKey le a l) :
    sortBy le l = s :=
  sorted_ext h (sortBy_sorted h l) hs (fun a => by rw [sortBy_stable h, he])

end Oaks
