import Verif.Model.Geometry
import Verif.Model.Aabb

/-! # `acme::Intersection` overloads used by ENVE (`toolbox/src/intersection.cc`)

A `bool` result with an output argument that is written exactly when the result is `true` becomes
an `Option`. -/

namespace Enve
open Scalar

variable {α : Type} [Scalar α]

namespace Inter

/-- `IsParallel(vec3, vec3, tol)`, `parallel.cc:340-348`. -/
def isParallel (a b : V3 α) (tol : α) : Bool := Scalar.isApprox (V3.norm (V3.cross a b)) zero tol

/-- `Intersection(line, segment, point)`, `intersection.cc:1747-1779`; `IsParallel(line, segment)`
compares the line direction with `segment.toUnitVector()`. -/
def lineSegment (l : Line α) (s : Segment α) (tol : α) : Option (V3 α) :=
  if isParallel l.direction s.toUnitVector tol then none else
  let o0 := l.origin
  let d0 := l.direction
  let o1 := s.v0
  let d1 := s.toVector
  let a0 := V3.cross d0 d1
  let b0 := V3.cross (V3.sub o1 o0) d1
  let t0 := V3.dot b0 a0 /. V3.dot a0 a0
  let a1 := V3.neg a0
  let b1 := V3.cross (V3.sub o0 o1) d0
  let t1 := V3.dot b1 a1 /. V3.dot a1 a1
  if t1 <. zero -. tol || one +. tol <. t1 then none
  else some (V3.add o0 (V3.smul t0 d0))

/-- `Intersection(line, triangle, segment)`, `intersection.cc:1927-1991`. -/
def lineTriangleSeg (l : Line α) (t : Triangle α) (tol : α) : Res (Option (Segment α)) :=
  match lineSegment l t.edge0 tol, lineSegment l t.edge1 tol, lineSegment l t.edge2 tol with
  | some p0, some p1, none => .ok (some ⟨p0, p1⟩)
  | none, some p1, some p2 => .ok (some ⟨p1, p2⟩)
  | some p0, none, some p2 => .ok (some ⟨p2, p0⟩)
  | some p0, some p1, some p2 =>
    if V3.isApprox p0 p1 tol then .ok (some ⟨p1, p2⟩)
    else if V3.isApprox p1 p2 tol then .ok (some ⟨p0, p1⟩)
    else if V3.isApprox p0 p2 tol then .ok (some ⟨p0, p1⟩)
    else .throw "exception not handled."
  | _, _, _ => .ok none

/-- `Intersection(line, disk, segment)`, `intersection.cc:1995-2029`. -/
def lineDisk (l : Line α) (d : Disk α) (tol : α) : Option (Segment α) :=
  let diff := V3.sub l.origin d.center
  let a2 := V3.dot l.direction l.direction
  let a1 := V3.dot diff l.direction
  let a0 := V3.dot diff diff -. d.radius *. d.radius
  let disc := a1 *. a1 -. a0 *. a2
  if disc <. (-. tol) then none else
  let inv := one /. a2
  if Scalar.abs disc <. tol then
    let p := V3.sub l.origin (V3.smul (a1 *. inv) l.direction)
    some ⟨p, p⟩
  else
    let root := Scalar.sqrt disc
    some ⟨V3.sub l.origin (V3.smul ((a1 +. root) *. inv) l.direction),
          V3.sub l.origin (V3.smul ((a1 -. root) *. inv) l.direction)⟩

/-- `Intersection(segment, disk, segment)`, `intersection.cc:2199-2245`. -/
def segmentDisk (s : Segment α) (d : Disk α) (tol : α) : Option (Segment α) :=
  if s.isDegenerated tol || d.isDegenerated tol then none else
  let o := s.v0
  let dir := s.toVector
  let diff := V3.sub o d.center
  let a2 := V3.dot dir dir
  let a1 := V3.dot diff dir
  let a0 := V3.dot diff diff -. d.radius *. d.radius
  let disc := a1 *. a1 -. a0 *. a2
  if disc <. (-. tol) then none else
  let inv := one /. a2
  if Scalar.abs disc <. tol then
    let t := (-. a1) *. inv
    if t <. zero || one <. t then none else
    let p := V3.add o (V3.smul t dir)
    some ⟨p, p⟩
  else
    let root := Scalar.sqrt disc
    let t0 := (-. (a1 +. root)) *. inv
    let t1 := (-. (a1 -. root)) *. inv
    if (t0 <. zero && t1 <. zero) || (one <. t0 && one <. t1) then none else
    let t0 := Scalar.max zero (Scalar.min t0 one)
    let t1 := Scalar.max zero (Scalar.min t1 one)
    some ⟨V3.add o (V3.smul t0 dir), V3.add o (V3.smul t1 dir)⟩

/-- `Intersection(plane, plane, line)`, `intersection.cc:2277-2306`. -/
def planePlane (p q : Plane α) (tol : α) : Option (Line α) :=
  let n0 := V3.normalized p.normal
  let n1 := V3.normalized q.normal
  let d0 := -. p.d
  let d1 := -. q.d
  let direction := V3.cross n0 n1
  let dot := V3.dot n0 n1
  let norm := V3.norm direction
  if Scalar.isApprox (norm *. norm) zero tol then none else
  let invDet := one /. (one -. dot *. dot)
  let c0 := (d0 -. dot *. d1) *. invDet
  let c1 := (d1 -. dot *. d0) *. invDet
  some ⟨V3.add (V3.smul c0 n0) (V3.smul c1 n1), direction⟩

/-- `Intersection(line, plane, point)`, `intersection.cc:2390-2411`. -/
def linePlane (l : Line α) (p : Plane α) (tol : α) : Option (V3 α) :=
  let det := V3.dot p.normal l.direction
  if tol <. Scalar.abs det then
    let t := V3.dot (V3.sub p.origin l.origin) p.normal /. det
    some (V3.add l.origin (V3.smul t l.direction))
  else none

/-- `Intersection(line, triangle, point)`, `intersection.cc:2415-2449`. -/
def lineTriangle (l : Line α) (t : Triangle α) (tol : α) : Option (V3 α) :=
  let e1 := V3.sub t.v1 t.v0
  let e2 := V3.sub t.v2 t.v0
  let h := V3.cross l.direction e2
  let a := V3.dot e1 h
  if (-. tol) <. a && a <. tol then none else
  let f := one /. a
  let s := V3.sub l.origin t.v0
  let u := f *. V3.dot s h
  if u <. zero -. tol || one +. tol <. u then none else
  let q := V3.cross s e1
  let v := f *. V3.dot l.direction q
  if v <. zero -. tol || one +. tol <. u +. v then none else
  let r := f *. V3.dot e2 q
  some (V3.add l.origin (V3.smul r l.direction))

/-- `Intersection(plane, triangle, segment)`, `intersection.cc:2658-2671`. -/
def planeTriangle (p : Plane α) (t : Triangle α) (tol : α) : Res (Option (Segment α)) :=
  match planePlane p t.layingPlane tol with
  | some l => lineTriangleSeg l t tol
  | none => .ok none

/-- `Intersection(plane, disk, segment)`, `intersection.cc:2675-2688`. -/
def planeDisk (p : Plane α) (d : Disk α) (tol : α) : Option (Segment α) :=
  match planePlane p d.layingPlane tol with
  | some l => lineDisk l d tol
  | none => none

/-- `Intersection(triangle, disk, segment)`, `intersection.cc:2816-2829`. -/
def triangleDisk (t : Triangle α) (d : Disk α) (tol : α) : Res (Option (Segment α)) := do
  match ← planeTriangle d.layingPlane t tol with
  | some s => return segmentDisk s d tol
  | none => return none

/-- `Intersection(aabb, aabb, aabb)`, `intersection.cc:2878-2902`; `out` is the box passed as
output argument, whose id and rank are not touched. -/
def aabbAabb (a b out : Box α) : Option (Box α) :=
  if !(a.intersects b) then none else
  let hi (x y : α) : α := if x <=. y then x else y
  let lo (x y : α) : α := if x <=. y then y else x
  some { out with
    max := ⟨hi a.max.x b.max.x, hi a.max.y b.max.y, hi a.max.z b.max.z⟩
    min := ⟨lo a.min.x b.min.x, lo a.min.y b.min.y, lo a.min.z b.min.z⟩ }

end Inter
end Enve
