import Verif.Model.Geometry

/-
Rectangles as sets of points.
-/
namespace Oaks.Viz.Spec
open Oaks.Viz

/-- The point lies in the rectangle, border included. -/
def Covers (r : Rct) (p : Pt) : Prop :=
  (r.origin.x ≤ p.x ∧ p.x ≤ r.origin.x + r.size.width) ∧ (r.origin.y ≤ p.y ∧ p.y ≤ r.origin.y + r.size.height)

/-- The rectangle is not turned inside out. -/
def Proper (r : Rct) : Prop := 0 ≤ r.size.width ∧ 0 ≤ r.size.height

/-- `b` lies around `a`. -/
def Around (b a : Rct) : Prop := ∀ p, Covers a p → Covers b p

/-- `b` is the smallest rectangle with the property. -/
def Smallest (P : Rct → Prop) (b : Rct) : Prop := P b ∧ ∀ c, P c → Around c b

end Oaks.Viz.Spec
