import Verif.Model.Geometry
import Verif.Spec.Rigid
import Verif.Spec.Box

/-! # Points on lines, planes, disks and triangles of real 3-space -/

namespace Enve.Spec

/-- `a + t b`, coordinatewise. -/
def along (a : V3 ℝ) (t : ℝ) (b : V3 ℝ) : V3 ℝ := ⟨a.x + t * b.x, a.y + t * b.y, a.z + t * b.z⟩

/-- `p - q`, coordinatewise. -/
def minus (p q : V3 ℝ) : V3 ℝ := ⟨p.x - q.x, p.y - q.y, p.z - q.z⟩

/-- `p` is on the line through `l.origin` with direction `l.direction`. -/
def OnLine (l : Line ℝ) (p : V3 ℝ) : Prop := ∃ t : ℝ, p = along l.origin t l.direction

/-- `p` is on the plane through `q.origin` orthogonal to `q.normal`. -/
def OnPlane (q : Plane ℝ) (p : V3 ℝ) : Prop := dot3 (minus p q.origin) q.normal = 0

/-- `p` is on the segment between the two vertices. -/
def OnSegment (s : Segment ℝ) (p : V3 ℝ) : Prop :=
  ∃ t : ℝ, 0 ≤ t ∧ t ≤ 1 ∧ p = along s.v0 t (minus s.v1 s.v0)

/-- `p` is in the closed disk. -/
def InDisk (d : Disk ℝ) (p : V3 ℝ) : Prop := OnPlane d.plane p ∧ dist3 p d.plane.origin ≤ d.radius

/-- `p = x v0 + y v1 + z v2` with `x + y + z = 1` and `x, y, z ≥ -e`: for `e = 0` the closed
triangle, for `e > 0` a slightly larger one. -/
def NearTriangle (e : ℝ) (t : Triangle ℝ) (p : V3 ℝ) : Prop :=
  ∃ x y z : ℝ, -e ≤ x ∧ -e ≤ y ∧ -e ≤ z ∧ x + y + z = 1 ∧
    p = ⟨x * t.v0.x + y * t.v1.x + z * t.v2.x, x * t.v0.y + y * t.v1.y + z * t.v2.y,
      x * t.v0.z + y * t.v1.z + z * t.v2.z⟩

/-- The vector has length one. -/
def Unit3 (a : V3 ℝ) : Prop := a.x ^ 2 + a.y ^ 2 + a.z ^ 2 = 1

/-- The volume of the parallelepiped spanned by a line's direction and two edges of a triangle; zero
exactly when the line is parallel to the triangle's plane (or one of them is degenerate). -/
def box3 (d : V3 ℝ) (t : Triangle ℝ) : ℝ :=
  let a := minus t.v1 t.v0
  let b := minus t.v2 t.v0
  d.x * (a.y * b.z - a.z * b.y) + d.y * (a.z * b.x - a.x * b.z) + d.z * (a.x * b.y - a.y * b.x)

end Enve.Spec
