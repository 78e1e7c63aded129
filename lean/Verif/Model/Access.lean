import Verif.Model.Entity
import Verif.Model.Ground

/-! # Access by index, and other small members of the geometric classes -/

namespace Enve
open Scalar
variable {α : Type} [Scalar α]

namespace Triangle

/-- `this->m_vertex[i]` of the array member `point m_vertex[3]`, `acme/triangle.hxx:60`: an index outside
the array is undefined behaviour. -/
def raw (t : Triangle α) (i : Int) : Res (V3 α) :=
  if i = 0 then .ok t.v0 else if i = 1 then .ok t.v1 else if i = 2 then .ok t.v2
  else .ub "m_vertex[i] outside the array"

/-- `this->m_vertex[i] = p`. -/
def rawSet (t : Triangle α) (i : Int) (p : V3 α) : Res (Triangle α) :=
  if i = 0 then .ok { t with v0 := p } else if i = 1 then .ok { t with v1 := p }
  else if i = 2 then .ok { t with v2 := p }
  else .ub "m_vertex[i] outside the array"

/-- `triangle::vertex(i)` and `triangle::operator[](i)`, `triangle.cc:109-171`: only `i < 3` is checked. -/
def vertex (t : Triangle α) (i : Int) : Res (V3 α) := do
  Res.assert (decide (i < 3)) "index out of bounds [0,2]."
  t.raw i

/-- Assignment through the reference returned by the non-const `triangle::vertex(i)` and
`triangle::operator[](i)`, `triangle.cc:126-137, 159-171`. -/
def setVertex (t : Triangle α) (i : Int) (p : V3 α) : Res (Triangle α) := do
  Res.assert (decide (i < 3)) "index out of bounds [0,2]."
  t.rawSet i p

/-- `triangle::edge(i)`, `triangle.cc:184-202`: whatever is less than 3 and neither 0 nor 1 gives the
third edge. -/
def edge (t : Triangle α) (i : Int) : Res (Segment α) := do
  Res.assert (decide (i < 3)) "index out of bounds [0,2]."
  return if i = 0 then t.edge0 else if i = 1 then t.edge1 else t.edge2

/-- `triangle::swap(i, j)`, `triangle.cc:215-225`: no check. -/
def swap (t : Triangle α) (i j : Int) : Res (Triangle α) := do
  let pi ← t.raw i
  let pj ← t.raw j
  let t' ← t.rawSet i pj
  t'.rawSet j pi

end Triangle

namespace Segment

/-- `segment::vertex(i)` and `segment::operator[](i)`, `segment.cc:111-149`: no check. -/
def vertex (s : Segment α) (i : Int) : Res (V3 α) :=
  if i = 0 then .ok s.v0 else if i = 1 then .ok s.v1 else .ub "m_vertex[i] outside the array"

/-- Assignment through the references returned by them, `segment.cc:122-128, 143-149`. -/
def setVertex (s : Segment α) (i : Int) (p : V3 α) : Res (Segment α) :=
  if i = 0 then .ok { s with v0 := p } else if i = 1 then .ok { s with v1 := p }
  else .ub "m_vertex[i] outside the array"

end Segment

namespace Disk

/-- `disk::normalize`, `disk.cc:176-180`. -/
def normalize (d : Disk α) : Disk α := { d with plane := d.plane.normalize }
/-- `disk::reverse`, `disk.cc:184-188`. -/
def reverse (d : Disk α) : Disk α := { d with plane := d.plane.reverse }

end Disk

namespace V3

/-- `v[i]` of an Eigen vector of size 3; the bound is checked only by `eigen_assert`, which release
builds compile away. -/
def coord (v : V3 α) (i : Int) : Res α :=
  if i = 0 then .ok v.x else if i = 1 then .ok v.y else if i = 2 then .ok v.z
  else .ub "coefficient outside the vector"

/-- `v[i] = s`. -/
def setCoord (v : V3 α) (i : Int) (s : α) : Res (V3 α) :=
  if i = 0 then .ok { v with x := s } else if i = 1 then .ok { v with y := s }
  else if i = 2 then .ok { v with z := s }
  else .ub "coefficient outside the vector"

/-- `acme::Angle`, `math.cc:73-80`. -/
def angle (a b : V3 α) : α := Scalar.acos (dot a b /. (norm a *. norm b))

end V3

namespace Box

/-- `aabb::min(i)`, `aabb.cc:179-197`. -/
def minAt (b : Box α) (i : Int) : Res α := b.min.coord i
/-- `aabb::max(i)`, `aabb.cc:231-249`. -/
def maxAt (b : Box α) (i : Int) : Res α := b.max.coord i
/-- Assignment through the reference returned by `aabb::min(i)`, `aabb.cc:190-197`: nothing keeps the
lower corner below the upper one. -/
def setMinAt (b : Box α) (i : Int) (s : α) : Res (Box α) := do
  return { b with min := ← b.min.setCoord i s }
/-- Assignment through the reference returned by `aabb::max(i)`, `aabb.cc:242-249`. -/
def setMaxAt (b : Box α) (i : Int) (s : α) : Res (Box α) := do
  return { b with max := ← b.max.setCoord i s }
/-- `aabb::isDegenerated`, `aabb.cc:445-453`. -/
def isDegenerated (b : Box α) (tol : α) : Bool := V3.isApprox b.min b.max tol && b.checkMaxMin

end Box

namespace TriangleGround

/-- The conversion of a `size_t` to the `int` parameter of `triangle::vertex` (`integer` is `int`,
`acme.hh:82`): modulo `2 ^ 32` on the supported compilers. -/
def toInteger (i : Nat) : Int := (i : Int).bmod (2 ^ 32)

/-- `triangleground::vertex(i)` and `triangleground::operator[](i)`, `triangleground.cc:207-225`. -/
def vertex (t : TriangleGround α) (i : Nat) : Res (V3 α) := t.tri.vertex (toInteger i)

end TriangleGround
end Enve
