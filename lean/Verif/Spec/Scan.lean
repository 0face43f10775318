/-
Specification of scanning: independent of any scanner.
-/
namespace Oaks.Spec

/-- `i` is the first index of `l` whose element satisfies `p`. -/
def IsFirst {α} (p : α → Prop) (l : List α) (i : Nat) : Prop :=
  (∃ h : i < l.length, p l[i]) ∧ ∀ j (h : j < l.length), j < i → ¬ p l[j]

/-- `i` is the first index of `l` whose element satisfies `p`, or the length if there is none. -/
def IsFirstOrEnd {α} (p : α → Prop) (l : List α) (i : Nat) : Prop :=
  i ≤ l.length ∧ (∀ j (h : j < l.length), j < i → ¬ p l[j]) ∧ ∀ h : i < l.length, p l[i]

/-- At most one index is the first-or-end. -/
theorem IsFirstOrEnd.unique {α} {p : α → Prop} {l : List α} {i j : Nat}
    (hi : IsFirstOrEnd p l i) (hj : IsFirstOrEnd p l j) : i = j := by
  obtain ⟨h1, h2, h3⟩ := hi
  obtain ⟨g1, g2, g3⟩ := hj
  rcases Nat.lt_trichotomy i j with h | h | h
  · exact absurd (h3 (by omega)) (g2 i (by omega) h)
  · exact h
  · exact absurd (g3 (by omega)) (h2 j (by omega) h)

end Oaks.Spec
