import Mathlib.Algebra.Order.Field.Rat

/-
Model of `projects/oak-visualize/src/geometry/mod.rs`.

Simplification: `f64` is modelled by exact rational numbers; rounding, infinities and NaN are left out.
`distance_to` and `rotate` (square root, sine, cosine) are not modelled.
-/
namespace Oaks.Viz

/-- `Point` (geometry/mod.rs:7-10). -/
structure Pt where
  x : ℚ
  y : ℚ
deriving DecidableEq

/-- `Point::translate` (geometry/mod.rs:27-29). -/
def Pt.translate (p : Pt) (dx dy : ℚ) : Pt := ⟨p.x + dx, p.y + dy⟩

/-- `Point::scale` (geometry/mod.rs:31-33). -/
def Pt.scale (p : Pt) (k : ℚ) : Pt := ⟨p.x * k, p.y * k⟩

/-- `Size` (geometry/mod.rs:60-63). -/
structure Sz where
  width : ℚ
  height : ℚ
deriving DecidableEq

/-- `Size::scale` (geometry/mod.rs:82-84). -/
def Sz.scale (s : Sz) (k : ℚ) : Sz := ⟨s.width * k, s.height * k⟩

/-- `Rect` (geometry/mod.rs:99-102). -/
structure Rct where
  origin : Pt
  size : Sz
deriving DecidableEq

namespace Rct

/-- `from_xywh` (geometry/mod.rs:109-111). -/
def fromXywh (x y w h : ℚ) : Rct := ⟨⟨x, y⟩, ⟨w, h⟩⟩

/-- `min_x` (geometry/mod.rs:138-140). -/
def minX (r : Rct) : ℚ := r.origin.x
/-- `min_y` (geometry/mod.rs:142-144). -/
def minY (r : Rct) : ℚ := r.origin.y
/-- `max_x` (geometry/mod.rs:146-148). -/
def maxX (r : Rct) : ℚ := r.origin.x + r.size.width
/-- `max_y` (geometry/mod.rs:150-152). -/
def maxY (r : Rct) : ℚ := r.origin.y + r.size.height

/-- `from_points` (geometry/mod.rs:113-120). -/
def fromPoints (p q : Pt) : Rct :=
  let minX := min p.x q.x
  let minY := min p.y q.y
  let maxX := max p.x q.x
  let maxY := max p.y q.y
  fromXywh minX minY (maxX - minX) (maxY - minY)

/-- `center` (geometry/mod.rs:154-156). -/
def center (r : Rct) : Pt := ⟨r.origin.x + r.size.width / 2, r.origin.y + r.size.height / 2⟩

/-- `contains_point` (geometry/mod.rs:174-176). -/
def containsPoint (r : Rct) (p : Pt) : Bool :=
  decide (p.x ≥ r.minX) && decide (p.x ≤ r.maxX) && decide (p.y ≥ r.minY) && decide (p.y ≤ r.maxY)

/-- `intersects` (geometry/mod.rs:178-180). -/
def intersects (r s : Rct) : Bool :=
  !(decide (r.maxX < s.minX) || decide (s.maxX < r.minX) || decide (r.maxY < s.minY) || decide (s.maxY < r.minY))

/-- `union` (geometry/mod.rs:182-189). -/
def union (r s : Rct) : Rct :=
  let minX := min r.minX s.minX
  let minY := min r.minY s.minY
  let maxX := max r.maxX s.maxX
  let maxY := max r.maxY s.maxY
  fromXywh minX minY (maxX - minX) (maxY - minY)

/-- `translate` (geometry/mod.rs:191-193). -/
def translate (r : Rct) (dx dy : ℚ) : Rct := ⟨r.origin.translate dx dy, r.size⟩

/-- `scale` (geometry/mod.rs:195-197). -/
def scale (r : Rct) (k : ℚ) : Rct := ⟨r.origin.scale k, r.size.scale k⟩

/-- `expand` (geometry/mod.rs:199-201). -/
def expand (r : Rct) (m : ℚ) : Rct :=
  fromXywh (r.origin.x - m) (r.origin.y - m) (r.size.width + 2 * m) (r.size.height + 2 * m)

end Rct

/-- `Transform` (geometry/mod.rs:212-219). -/
structure Trf where
  a : ℚ
  b : ℚ
  c : ℚ
  d : ℚ
  e : ℚ
  f : ℚ
deriving DecidableEq

namespace Trf

/-- `identity` (geometry/mod.rs:222-224). -/
def identity : Trf := ⟨1, 0, 0, 1, 0, 0⟩
/-- `translate` (geometry/mod.rs:226-228). -/
def translate (x y : ℚ) : Trf := ⟨1, 0, 0, 1, x, y⟩
/-- `scale` (geometry/mod.rs:230-232). -/
def scale (x y : ℚ) : Trf := ⟨x, 0, 0, y, 0, 0⟩

/-- `transform_point` (geometry/mod.rs:241-243). -/
def apply (t : Trf) (p : Pt) : Pt := ⟨t.a * p.x + t.c * p.y + t.e, t.b * p.x + t.d * p.y + t.f⟩

/-- `compose` (geometry/mod.rs:245-254). -/
def compose (s o : Trf) : Trf where
  a := s.a * o.a + s.b * o.c
  b := s.a * o.b + s.b * o.d
  c := s.c * o.a + s.d * o.c
  d := s.c * o.b + s.d * o.d
  e := s.e * o.a + s.f * o.c + o.e
  f := s.e * o.b + s.f * o.d + o.f

end Trf

end Oaks.Viz
