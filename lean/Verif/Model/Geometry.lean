import Verif.Base.Vec
import Verif.Base.Res

/-! # ACME entities: `line`, `plane`, `segment`, `triangle`, `disk`

Only the members used by ENVE, plus the size queries, are modelled. -/

namespace Enve
open Scalar

/-- `acme::line` (`line.cc:71-78`). -/
@[ext] structure Line (α : Type) where
  origin : V3 α
  direction : V3 α

/-- `acme::plane` (`plane.cc:71-78`). -/
@[ext] structure Plane (α : Type) where
  origin : V3 α
  normal : V3 α

/-- `acme::segment`, `m_vertex[2]`. -/
@[ext] structure Segment (α : Type) where
  v0 : V3 α
  v1 : V3 α

/-- `acme::triangle`, `m_vertex[3]` (`triangle.cc:86-91`). -/
@[ext] structure Triangle (α : Type) where
  v0 : V3 α
  v1 : V3 α
  v2 : V3 α

/-- `acme::disk` (`disk.cc:67-75`): radius and laying plane (centre, normal). -/
@[ext] structure Disk (α : Type) where
  radius : α
  plane : Plane α

variable {α : Type} [Scalar α]

namespace Plane
/-- `plane::isApprox`, `plane.cc:82-91`. -/
def isApprox (p q : Plane α) (tol : α) : Bool :=
  V3.isApprox p.origin q.origin tol && V3.isApprox p.normal q.normal tol
/-- `plane::normalize`, `plane.cc:138-142`. -/
def normalize (p : Plane α) : Plane α := { p with normal := V3.normalized p.normal }
/-- `plane::d`, `plane.cc:154-159`. -/
def d (p : Plane α) : α := -. (V3.dot p.origin p.normal)
/-- `plane::signedDistance`, `plane.cc:186-193`. -/
def signedDistance (p : Plane α) (q : V3 α) : α := V3.dot (V3.sub q p.origin) p.normal
/-- `plane::distance`, `plane.cc:163-170`. -/
def distance (p : Plane α) (q : V3 α) : α := Scalar.abs (p.signedDistance q)
/-- `plane::isInside`, `plane.cc:218-226`. -/
def isInside (p : Plane α) (q : V3 α) (tol : α) : Bool := p.distance q <. tol
/-- `plane::isDegenerated`, `plane.cc:230-237`. -/
def isDegenerated (p : Plane α) (tol : α) : Bool := Scalar.isApprox (V3.norm p.normal) zero tol
end Plane

namespace Segment
/-- `segment::centroid`, `segment.cc:102-107`. -/
def centroid (s : Segment α) : V3 α := V3.sdiv (V3.add s.v0 s.v1) two
/-- `segment::toVector`, `segment.cc:153-158`. -/
def toVector (s : Segment α) : V3 α := V3.sub s.v1 s.v0
/-- `segment::toUnitVector`, `segment.cc:162-167`. -/
def toUnitVector (s : Segment α) : V3 α := V3.normalized (V3.sub s.v1 s.v0)
/-- `segment::length`, `segment.cc:181-186`. -/
def length (s : Segment α) : α := V3.norm (V3.sub s.v0 s.v1)
/-- `segment::isInside`, `segment.cc:212-223`. -/
def isInside (s : Segment α) (q : V3 α) (tol : α) : Bool :=
  Scalar.abs (s.length -. V3.norm (V3.sub q s.v0) -. V3.norm (V3.sub q s.v1)) <=. tol
/-- `segment::isDegenerated`, `segment.cc:227-234`. -/
def isDegenerated (s : Segment α) (tol : α) : Bool :=
  Scalar.isApprox (V3.norm (V3.sub s.v0 s.v1)) zero tol
end Segment

namespace Triangle
/-- `triangle::isApprox`, `triangle.cc:95-105`. -/
def isApprox (t u : Triangle α) (tol : α) : Bool :=
  V3.isApprox t.v0 u.v0 tol && V3.isApprox t.v1 u.v1 tol && V3.isApprox t.v2 u.v2 tol
/-- `triangle::centroid`, `triangle.cc:175-180`. -/
def centroid (t : Triangle α) : V3 α := V3.sdiv (V3.add (V3.add t.v0 t.v1) t.v2) (lit 3 1)
/-- `triangle::edge(0)`, `triangle.cc:184-202`. -/
def edge0 (t : Triangle α) : Segment α := ⟨t.v0, t.v1⟩
/-- `triangle::edge(1)`, `triangle.cc:184-202`. -/
def edge1 (t : Triangle α) : Segment α := ⟨t.v1, t.v2⟩
/-- `triangle::edge(2)`, `triangle.cc:184-202`. -/
def edge2 (t : Triangle α) : Segment α := ⟨t.v2, t.v0⟩
/-- `triangle::normal`, `triangle.cc:206-211`. -/
def normal (t : Triangle α) : V3 α :=
  V3.normalized (V3.cross (V3.sub t.v1 t.v0) (V3.sub t.v2 t.v0))
/-- `triangle::layingPlane`, `triangle.cc:274-279`. -/
def layingPlane (t : Triangle α) : Plane α := ⟨t.centroid, t.normal⟩
/-- `triangle::perimeter`, `triangle.cc:229-236`. -/
def perimeter (t : Triangle α) : α :=
  V3.norm (V3.sub t.v0 t.v1) +. V3.norm (V3.sub t.v1 t.v2) +. V3.norm (V3.sub t.v2 t.v0)
/-- `triangle::area`, `triangle.cc:240-245`. -/
def area (t : Triangle α) : α :=
  V3.norm (V3.cross (V3.sub t.v1 t.v0) (V3.sub t.v2 t.v0)) /. two
/-- `triangle::barycentric`, `triangle.cc:249-270`: the values written to `u, v, w`. -/
def barycentric (t : Triangle α) (p : V3 α) : α × α × α :=
  let v0 := V3.sub t.v1 t.v0
  let v1 := V3.sub t.v2 t.v0
  let v2 := V3.sub p t.v0
  let d00 := V3.dot v0 v0
  let d01 := V3.dot v0 v1
  let d11 := V3.dot v1 v1
  let d20 := V3.dot v2 v0
  let d21 := V3.dot v2 v1
  let denom := d00 *. d11 -. d01 *. d01
  let v := (d11 *. d20 -. d01 *. d21) /. denom
  let w := (d00 *. d21 -. d01 *. d20) /. denom
  (one -. v -. w, v, w)
/-- `triangle::isInside`, `triangle.cc:307-326`. -/
def isInside (t : Triangle α) (p : V3 α) (tol : α) : Bool :=
  let (u, v, w) := t.barycentric p
  if zero -. tol <=. u && u <=. one +. tol && zero -. tol <=. v && v <=. one +. tol &&
     zero -. tol <=. w && w <=. one +. tol
  then t.layingPlane.isInside p tol else false
/-- `triangle::isDegenerated`, `triangle.cc:330-339`. -/
def isDegenerated (t : Triangle α) (tol : α) : Bool :=
  Scalar.isApprox (V3.norm (V3.sub t.v0 t.v1)) zero tol ||
  Scalar.isApprox (V3.norm (V3.sub t.v1 t.v2)) zero tol ||
  Scalar.isApprox (V3.norm (V3.sub t.v2 t.v0)) zero tol
end Triangle

namespace Disk
/-- `disk::center`, `disk.cc:125-130`. -/
def center (d : Disk α) : V3 α := d.plane.origin
/-- `disk::normal`, `disk.cc:142-147`. -/
def normal (d : Disk α) : V3 α := d.plane.normal
/-- `disk::layingPlane`, `disk.cc:159-164`. -/
def layingPlane (d : Disk α) : Plane α := d.plane
/-- `disk::isApprox`, `disk.cc:94-104`. -/
def isApprox (d e : Disk α) (tol : α) : Bool :=
  Scalar.isApprox d.radius e.radius tol && V3.isApprox d.plane.origin e.plane.origin tol &&
  V3.isApprox d.plane.normal e.plane.normal tol
/-- `disk::perimeter`, `disk.cc:192-197`. -/
def perimeter (d : Disk α) : α := Scalar.pi *. d.radius *. d.radius
/-- `disk::area`, `disk.cc:201-206`. -/
def area (d : Disk α) : α := two *. Scalar.pi *. d.radius
/-- `disk::isInside`, `disk.cc:230-239`. -/
def isInside (d : Disk α) (p : V3 α) (tol : α) : Bool :=
  d.plane.isInside p tol && V3.norm (V3.sub d.plane.origin p) <=. d.radius
/-- `disk::isDegenerated`, `disk.cc:243-250`. -/
def isDegenerated (d : Disk α) (tol : α) : Bool :=
  Scalar.isApprox d.radius zero tol || d.plane.isDegenerated tol
end Disk

end Enve
