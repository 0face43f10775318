import Verif.Spec.Geometry
import Mathlib.Tactic.Linarith
import Mathlib.Tactic.Ring

/-! # C64: rectangles and transformations -/

namespace Oaks.Viz.Props
open Oaks.Viz Oaks.Viz.Spec

/-- A rectangle contains the points that lie in it. -/
theorem C64_contains (r : Rct) (p : Pt) : r.containsPoint p = true ↔ Covers r p := by
  simp only [Rct.containsPoint, Bool.and_eq_true, decide_eq_true_eq, and_assoc]
  simp only [Covers, Rct.minX, Rct.minY, Rct.maxX, Rct.maxY, and_assoc, ge_iff_le]

/-- Two rectangles intersect exactly when they have a point in common. -/
theorem C64_intersects (r s : Rct) (hr : Proper r) (hs : Proper s) :
    r.intersects s = true ↔ ∃ p, Covers r p ∧ Covers s p := by
  obtain ⟨hr1, hr2⟩ := hr
  obtain ⟨hs1, hs2⟩ := hs
  simp only [Rct.intersects, Bool.not_eq_true', Bool.or_eq_false_iff, decide_eq_false_iff_not, not_lt]
  simp only [Rct.minX, Rct.minY, Rct.maxX, Rct.maxY, Covers]
  constructor
  · rintro ⟨⟨⟨h1, h2⟩, h3⟩, h4⟩
    refine ⟨⟨max r.origin.x s.origin.x, max r.origin.y s.origin.y⟩, ⟨⟨?_, ?_⟩, ?_, ?_⟩, ⟨?_, ?_⟩, ?_, ?_⟩
    · exact le_max_left _ _
    · exact max_le (by linarith) h1
    · exact le_max_left _ _
    · exact max_le (by linarith) h3
    · exact le_max_right _ _
    · exact max_le h2 (by linarith)
    · exact le_max_right _ _
    · exact max_le h4 (by linarith)
  · rintro ⟨p, ⟨⟨h1, h2⟩, h3, h4⟩, ⟨h5, h6⟩, h7, h8⟩
    refine ⟨⟨⟨?_, ?_⟩, ?_⟩, ?_⟩ <;> linarith

/-- Without `Proper` it is not so: shrinking a rectangle too much turns it inside out, and then it
"intersects" although it has no points. -/
theorem C64_intersects_witness :
    let r := (Rct.fromXywh 0 0 2 2).expand (-2)
    r.intersects (Rct.fromXywh 0 0 2 2) = true ∧ ∀ p, ¬ Covers r p := by
  refine ⟨by decide +kernel, ?_⟩
  rintro p ⟨⟨h1, h2⟩, _⟩
  simp only [Rct.expand, Rct.fromXywh] at h1 h2
  linarith

/-- The union of two rectangles is the smallest one around both. -/
theorem C64_union (r s : Rct) (hr : Proper r) (hs : Proper s) :
    Proper (r.union s) ∧ Smallest (fun b => Around b r ∧ Around b s) (r.union s) := by
  obtain ⟨hr1, hr2⟩ := hr
  obtain ⟨hs1, hs2⟩ := hs
  have a1 := min_le_left r.origin.x s.origin.x
  have a2 := min_le_right r.origin.x s.origin.x
  have a3 := min_le_left r.origin.y s.origin.y
  have a4 := min_le_right r.origin.y s.origin.y
  have b1 := le_max_left (r.origin.x + r.size.width) (s.origin.x + s.size.width)
  have b2 := le_max_right (r.origin.x + r.size.width) (s.origin.x + s.size.width)
  have b3 := le_max_left (r.origin.y + r.size.height) (s.origin.y + s.size.height)
  have b4 := le_max_right (r.origin.y + r.size.height) (s.origin.y + s.size.height)
  refine ⟨⟨?_, ?_⟩, ⟨?_, ?_⟩, ?_⟩
  · simp only [Rct.union, Rct.fromXywh, Rct.minX, Rct.maxX]; linarith
  · simp only [Rct.union, Rct.fromXywh, Rct.minY, Rct.maxY]; linarith
  · rintro p ⟨⟨h1, h2⟩, h3, h4⟩
    simp only [Covers, Rct.union, Rct.fromXywh, Rct.minX, Rct.maxX, Rct.minY, Rct.maxY]
    refine ⟨⟨?_, ?_⟩, ?_, ?_⟩ <;> linarith
  · rintro p ⟨⟨h1, h2⟩, h3, h4⟩
    simp only [Covers, Rct.union, Rct.fromXywh, Rct.minX, Rct.maxX, Rct.minY, Rct.maxY]
    refine ⟨⟨?_, ?_⟩, ?_, ?_⟩ <;> linarith
  · rintro c ⟨h1, h2⟩ p ⟨⟨h3, h4⟩, h5, h6⟩
    simp only [Rct.union, Rct.fromXywh, Rct.minX, Rct.maxX, Rct.minY, Rct.maxY] at h3 h4 h5 h6
    have c1 := h1 ⟨r.origin.x, r.origin.y⟩ ⟨⟨le_refl _, by simp; linarith⟩, le_refl _, by simp; linarith⟩
    have c2 := h1 ⟨r.origin.x + r.size.width, r.origin.y + r.size.height⟩
      ⟨⟨by simp; linarith, le_refl _⟩, by simp; linarith, le_refl _⟩
    have c3 := h2 ⟨s.origin.x, s.origin.y⟩ ⟨⟨le_refl _, by simp; linarith⟩, le_refl _, by simp; linarith⟩
    have c4 := h2 ⟨s.origin.x + s.size.width, s.origin.y + s.size.height⟩
      ⟨⟨by simp; linarith, le_refl _⟩, by simp; linarith, le_refl _⟩
    simp only [Covers] at c1 c2 c3 c4 ⊢
    have d1 := le_min c1.1.1 c3.1.1
    have d2 := le_min c1.2.1 c3.2.1
    have d3 := max_le c2.1.2 c4.1.2
    have d4 := max_le c2.2.2 c4.2.2
    refine ⟨⟨?_, ?_⟩, ?_, ?_⟩ <;> linarith

/-- The rectangle of two points is proper, and the smallest one with both. -/
theorem C64_from_points (p q : Pt) :
    Proper (Rct.fromPoints p q) ∧ Smallest (fun b => Covers b p ∧ Covers b q) (Rct.fromPoints p q) := by
  have a1 := min_le_left p.x q.x
  have a2 := min_le_right p.x q.x
  have a3 := min_le_left p.y q.y
  have a4 := min_le_right p.y q.y
  have b1 := le_max_left p.x q.x
  have b2 := le_max_right p.x q.x
  have b3 := le_max_left p.y q.y
  have b4 := le_max_right p.y q.y
  refine ⟨⟨?_, ?_⟩, ⟨?_, ?_⟩, ?_⟩
  · simp only [Rct.fromPoints, Rct.fromXywh]; linarith
  · simp only [Rct.fromPoints, Rct.fromXywh]; linarith
  · simp only [Covers, Rct.fromPoints, Rct.fromXywh]; refine ⟨⟨?_, ?_⟩, ?_, ?_⟩ <;> linarith
  · simp only [Covers, Rct.fromPoints, Rct.fromXywh]; refine ⟨⟨?_, ?_⟩, ?_, ?_⟩ <;> linarith
  · rintro c ⟨⟨⟨h1, h2⟩, h3, h4⟩, ⟨h5, h6⟩, h7, h8⟩ u ⟨⟨g1, g2⟩, g3, g4⟩
    simp only [Rct.fromPoints, Rct.fromXywh] at g1 g2 g3 g4
    have d1 := le_min h1 h5
    have d2 := max_le h2 h6
    have d3 := le_min h3 h7
    have d4 := max_le h4 h8
    simp only [Covers]
    refine ⟨⟨?_, ?_⟩, ?_, ?_⟩ <;> linarith

/-- Moving and scaling a rectangle moves and scales its points; its centre is half way between corners. -/
theorem C64_move (r : Rct) (p : Pt) :
    (∀ dx dy, Covers (r.translate dx dy) (p.translate dx dy) ↔ Covers r p) ∧
    (∀ k, 0 < k → (Covers (r.scale k) (p.scale k) ↔ Covers r p)) ∧
    (Proper r → Covers r r.center ∧ r.center.x - r.minX = r.maxX - r.center.x ∧ r.center.y - r.minY = r.maxY - r.center.y) := by
  refine ⟨?_, ?_, ?_⟩
  · intro dx dy
    simp only [Covers, Rct.translate, Pt.translate]
    constructor
    · rintro ⟨⟨h1, h2⟩, h3, h4⟩; refine ⟨⟨?_, ?_⟩, ?_, ?_⟩ <;> linarith
    · rintro ⟨⟨h1, h2⟩, h3, h4⟩; refine ⟨⟨?_, ?_⟩, ?_, ?_⟩ <;> linarith
  · intro k hk
    simp only [Covers, Rct.scale, Pt.scale, Sz.scale, ← add_mul, mul_le_mul_iff_left₀ hk]
  · rintro ⟨h1, h2⟩
    simp only [Covers, Rct.center, Rct.minX, Rct.maxX, Rct.minY, Rct.maxY]
    refine ⟨⟨⟨?_, ?_⟩, ?_, ?_⟩, ?_, ?_⟩ <;> linarith

/-- Expanding a rectangle by a margin gives the points within the margin of it. -/
theorem C64_expand (r : Rct) (hr : Proper r) (m : ℚ) (hm : 0 ≤ m) (p : Pt) :
    Covers (r.expand m) p ↔ ∃ q, Covers r q ∧ |p.x - q.x| ≤ m ∧ |p.y - q.y| ≤ m := by
  obtain ⟨h1, h2⟩ := hr
  simp only [Covers, Rct.expand, Rct.fromXywh, abs_le]
  constructor
  · rintro ⟨⟨g1, g2⟩, g3, g4⟩
    refine ⟨⟨max r.origin.x (min p.x (r.origin.x + r.size.width)), max r.origin.y (min p.y (r.origin.y + r.size.height))⟩, ?_⟩
    simp only []
    have key : ∀ o w u : ℚ, 0 ≤ w → o - m ≤ u → u ≤ o - m + (w + 2 * m) →
        (o ≤ max o (min u (o + w)) ∧ max o (min u (o + w)) ≤ o + w) ∧
        (-m ≤ u - max o (min u (o + w)) ∧ u - max o (min u (o + w)) ≤ m) := by
      intro o w u hw k1 k2
      rcases le_total u o with h | h
      · rw [min_eq_left (by linarith), max_eq_left h]
        exact ⟨⟨le_refl _, by linarith⟩, by linarith, by linarith⟩
      · rcases le_total u (o + w) with h' | h'
        · rw [min_eq_left h', max_eq_right h]
          exact ⟨⟨h, h'⟩, by linarith, by linarith⟩
        · rw [min_eq_right h', max_eq_right (by linarith)]
          exact ⟨⟨by linarith, le_refl _⟩, by linarith, by linarith⟩
    obtain ⟨x1, x2⟩ := key _ _ _ h1 g1 g2
    obtain ⟨y1, y2⟩ := key _ _ _ h2 g3 g4
    exact ⟨⟨x1, y1⟩, x2, y2⟩
  · rintro ⟨q, ⟨⟨g1, g2⟩, g3, g4⟩, ⟨k1, k2⟩, k3, k4⟩
    refine ⟨⟨?_, ?_⟩, ?_, ?_⟩ <;> linarith

/-- Composing transformations does the first one first; the identity does nothing; translation and
scaling do what they say; composition is associative. -/
theorem C64_transform (s t u : Trf) (p : Pt) :
    (s.compose t).apply p = t.apply (s.apply p) ∧ Trf.identity.apply p = p ∧
    (∀ x y, (Trf.translate x y).apply p = p.translate x y) ∧ (∀ k, (Trf.scale k k).apply p = p.scale k) ∧
    (s.compose t).compose u = s.compose (t.compose u) := by
  refine ⟨?_, ?_, ?_, ?_, ?_⟩
  · simp only [Trf.apply, Trf.compose, Pt.mk.injEq]; constructor <;> ring
  · simp [Trf.apply, Trf.identity]
  · intro x y; simp [Trf.apply, Trf.translate, Pt.translate]
  · intro k; simp [Trf.apply, Trf.scale, Pt.scale, mul_comm]
  · simp only [Trf.compose, Trf.mk.injEq]; refine ⟨?_, ?_, ?_, ?_, ?_, ?_⟩ <;> ring

example : Proper (Rct.fromXywh 1 2 3 4) ∧ (Rct.fromXywh 1 2 3 4).intersects (Rct.fromXywh 4 0 1 2) = true ∧
    (Rct.fromXywh 1 2 3 4).union (Rct.fromXywh 4 0 1 2) = Rct.fromXywh 1 0 4 6 := by
  refine ⟨⟨by decide +kernel, by decide +kernel⟩, by decide +kernel, by decide +kernel⟩

example : ((Trf.translate 1 2).compose (Trf.scale 2 2)).apply ⟨1, 1⟩ = ⟨4, 6⟩ ∧
    ((Trf.scale 2 2).compose (Trf.translate 1 2)).apply ⟨1, 1⟩ = ⟨3, 4⟩ := by decide +kernel

end Oaks.Viz.Props
