import Verif.Model.Predicates

/-! # The remaining `acme::Intersection` overloads and the dispatch on two entities

Same conventions as in `Verif.Model.Intersection`: a `bool` result with an output argument written
exactly when the result is `true` becomes an `Option`; overloads that can throw return a `Res`. -/

namespace Enve
open Scalar

variable {α : Type} [Scalar α]

namespace Inter

/-! ## Collinear entities -/

/-- `Intersection(line, line, line)`, `intersection.cc:1147-1164`. -/
def lineLineLine (a b : Line α) (tol : α) : Option (Line α) :=
  if Rel.colLineLine a b tol then some a else none

/-- `Intersection(ray, ray, ray)`, `intersection.cc:1168-1197`. -/
def rayRayRay (a b : Ray α) (tol : α) : Option (Ray α) :=
  if Rel.colRayRay a b tol && zero <. V3.dot a.direction b.direction then
    if a.isInside b.origin tol then some b
    else if b.isInside a.origin tol then some a
    else none
  else none

/-- `Intersection(ray, ray, segment)`, `intersection.cc:1201-1226`. -/
def rayRaySegment (a b : Ray α) (tol : α) : Option (Segment α) :=
  if Rel.colRayRay a b tol && V3.dot a.direction b.direction <. zero then
    if a.isInside b.origin tol && b.isInside a.origin tol then some ⟨a.origin, b.origin⟩ else none
  else none

/-- `Intersection(segment, segment, segment)`, `intersection.cc:1230-1355`: the switch on the decimal
code of the four membership tests, in the order `s0.p0 ∈ s1`, `s0.p1 ∈ s1`, `s1.p0 ∈ s0`,
`s1.p1 ∈ s0`. -/
def segSegSeg (s0 s1 : Segment α) (tol : α) : Res (Option (Segment α)) :=
  if Rel.colSegSeg s0 s1 tol then
    match s1.isInside s0.v0 tol, s1.isInside s0.v1 tol, s0.isInside s1.v0 tol,
      s0.isInside s1.v1 tol with
    | true, true, true, true => .ok (some ⟨s0.v0, s0.v1⟩)
    | false, true, true, true => .ok (some ⟨s1.v0, s1.v1⟩)
    | true, false, true, true => .ok (some ⟨s1.v0, s1.v1⟩)
    | true, true, false, true => .ok (some ⟨s0.v0, s0.v1⟩)
    | true, true, true, false => .ok (some ⟨s0.v0, s0.v1⟩)
    | false, true, false, true => .ok (some ⟨s0.v1, s1.v1⟩)
    | false, true, true, false => .ok (some ⟨s0.v1, s1.v0⟩)
    | true, false, false, true => .ok (some ⟨s0.v0, s1.v1⟩)
    | true, false, true, false => .ok (some ⟨s0.v0, s1.v0⟩)
    | true, true, false, false => .ok (some ⟨s0.v0, s0.v1⟩)
    | false, false, true, true => .ok (some ⟨s1.v0, s1.v1⟩)
    | false, false, false, false => .ok none
    | _, _, _, _ => .throw "exception not handled."
  else .ok none

/-- `Intersection(line, ray, ray)`, `intersection.cc:1359-1376`. -/
def lineRayRay (a : Line α) (b : Ray α) (tol : α) : Option (Ray α) :=
  if Rel.colLineRay a b tol then some b else none

/-- `Intersection(line, segment, segment)`, `intersection.cc:1380-1397`. -/
def lineSegSeg (a : Line α) (b : Segment α) (tol : α) : Option (Segment α) :=
  if Rel.colLineSeg a b tol then some b else none

/-- `Intersection(ray, segment, segment)`, `intersection.cc:1401-1439`. -/
def raySegSeg (r : Ray α) (s : Segment α) (tol : α) : Option (Segment α) :=
  if Rel.colRaySeg r s tol then
    if r.isInside s.v0 tol && r.isInside s.v1 tol then some s
    else if r.isInside s.v0 tol && !r.isInside s.v1 tol then some ⟨r.origin, s.v0⟩
    else if !r.isInside s.v0 tol && r.isInside s.v1 tol then some ⟨r.origin, s.v1⟩
    else none
  else none

/-! ## A point and an entity -/

/-- `Intersection(point, point, point)`, `intersection.cc:1454-1471`. -/
def pointPoint (p q : V3 α) (tol : α) : Option (V3 α) := if V3.isApprox p q tol then some p else none
/-- `Intersection(point, line, point)`, `intersection.cc:1475-1492`. -/
def pointLine (p : V3 α) (e : Line α) (tol : α) : Option (V3 α) :=
  if e.isInside p tol then some p else none
/-- `Intersection(point, ray, point)`, `intersection.cc:1496-1513`. -/
def pointRay (p : V3 α) (e : Ray α) (tol : α) : Option (V3 α) :=
  if e.isInside p tol then some p else none
/-- `Intersection(point, plane, point)`, `intersection.cc:1517-1534`. -/
def pointPlane (p : V3 α) (e : Plane α) (tol : α) : Option (V3 α) :=
  if e.isInside p tol then some p else none
/-- `Intersection(point, segment, point)`, `intersection.cc:1538-1555`. -/
def pointSegment (p : V3 α) (e : Segment α) (tol : α) : Option (V3 α) :=
  if e.isInside p tol then some p else none
/-- `Intersection(point, triangle, point)`, `intersection.cc:1559-1576`. -/
def pointTriangle (p : V3 α) (e : Triangle α) (tol : α) : Option (V3 α) :=
  if e.isInside p tol then some p else none
/-- `Intersection(point, disk, point)`, `intersection.cc:1580-1597`. -/
def pointDisk (p : V3 α) (e : Disk α) (tol : α) : Option (V3 α) :=
  if e.isInside p tol then some p else none

/-! ## Two line-like entities that are not parallel -/

/-- The common arithmetic of the overloads below (`intersection.cc:1620-1628`, `1649-1664`,
`1685-1700`, `1721-1736`, `1793-1808`): parameter along the first entity. -/
def crossParam0 (o0 d0 o1 d1 : V3 α) : α :=
  let a0 := V3.cross d0 d1
  let b0 := V3.cross (V3.sub o1 o0) d1
  V3.dot b0 a0 /. V3.dot a0 a0
/-- The common arithmetic of the overloads below: parameter along the second entity. -/
def crossParam1 (o0 d0 o1 d1 : V3 α) : α :=
  let a1 := V3.neg (V3.cross d0 d1)
  let b1 := V3.cross (V3.sub o0 o1) d0
  V3.dot b1 a1 /. V3.dot a1 a1

/-- `Intersection(line, line, point)`, `intersection.cc:1610-1635`. -/
def lineLine (a b : Line α) (tol : α) : Option (V3 α) :=
  if Rel.parLineLine a b tol then none else
  some (V3.add a.origin (V3.smul (crossParam0 a.origin a.direction b.origin b.direction) a.direction))

/-- `Intersection(ray, ray, point)`, `intersection.cc:1639-1671`. -/
def rayRay (a b : Ray α) (tol : α) : Option (V3 α) :=
  if Rel.parRayRay a b tol then none else
  let t0 := crossParam0 a.origin a.direction b.origin b.direction
  let t1 := crossParam1 a.origin a.direction b.origin b.direction
  if t0 <. zero -. tol || t1 <. zero -. tol then none
  else some (V3.add a.origin (V3.smul t0 a.direction))

/-- `Intersection(segment, segment, point)`, `intersection.cc:1675-1707`. -/
def segSeg (a b : Segment α) (tol : α) : Option (V3 α) :=
  if Rel.parSegSeg a b tol then none else
  let t0 := crossParam0 a.v0 a.toVector b.v0 b.toVector
  let t1 := crossParam1 a.v0 a.toVector b.v0 b.toVector
  if t0 <. zero -. tol || t1 <. zero -. tol || one +. tol <. t0 || one +. tol <. t1 then none
  else some (V3.add a.v0 (V3.smul t0 a.toVector))

/-- `Intersection(line, ray, point)`, `intersection.cc:1711-1743`. -/
def lineRay (a : Line α) (b : Ray α) (tol : α) : Option (V3 α) :=
  if Rel.parLineRay a b tol then none else
  let t0 := crossParam0 a.origin a.direction b.origin b.direction
  let t1 := crossParam1 a.origin a.direction b.origin b.direction
  if t1 <. zero -. tol then none
  else some (V3.add a.origin (V3.smul t0 a.direction))

/-- `Intersection(ray, segment, point)`, `intersection.cc:1783-1815`. -/
def raySeg (a : Ray α) (b : Segment α) (tol : α) : Option (V3 α) :=
  if Rel.parRaySeg a b tol then none else
  let t0 := crossParam0 a.origin a.direction b.v0 b.toVector
  let t1 := crossParam1 a.origin a.direction b.v0 b.toVector
  if t0 <. zero -. tol || t1 <. zero -. tol || one +. tol <. t1 then none
  else some (V3.add a.origin (V3.smul t0 a.direction))

/-! ## Coplanar entities -/

/-- `Intersection(plane, plane, plane)`, `intersection.cc:1830-1847`. -/
def planePlanePlane (a b : Plane α) (tol : α) : Option (Plane α) :=
  if Rel.copPlanePlane a b tol then some a else none

/-- `Intersection(triangle, triangle, segment)`, `intersection.cc:2342-2362`.  The results of the two
line/triangle calls are ignored by the code; when one of them is `false` its temporary segment keeps
the NaN vertices of its default constructor (`segment.hxx:58`), every comparison in `IsCollinear` is
then false and the last call returns `false`.  The model states that outcome directly. -/
def triTriSeg (a b : Triangle α) (tol : α) : Res (Option (Segment α)) :=
  match planePlane a.layingPlane b.layingPlane tol with
  | some l => do
    let s0 ← lineTriangleSeg l a tol
    let s1 ← lineTriangleSeg l b tol
    match s0, s1 with
    | some s0, some s1 => segSegSeg s0 s1 tol
    | _, _ => .ok none
  | none => .ok none

/-- `Intersection(triangle, triangle, none)`, `intersection.cc:1851-1868`. -/
def triTriNone (a b : Triangle α) (tol : α) : Res Bool :=
  if !Rel.copTriTri a b tol then do
    let s ← triTriSeg a b tol
    return s.isSome
  else
    .ok (a.isInside b.v0 tol || a.isInside b.v1 tol || a.isInside b.v2 tol ||
         b.isInside a.v0 tol || b.isInside a.v1 tol || b.isInside a.v2 tol)

/-- `Intersection(line, plane, line)`, `intersection.cc:1906-1923`. -/
def linePlaneLine (a : Line α) (b : Plane α) (tol : α) : Option (Line α) :=
  if Rel.copLinePlane a b tol then some a else none

/-- `Intersection(ray, plane, ray)`, `intersection.cc:2033-2050`. -/
def rayPlaneRay (a : Ray α) (b : Plane α) (tol : α) : Option (Ray α) :=
  if Rel.copRayPlane a b tol then some a else none

/-- `Intersection(ray, triangle, segment)`, `intersection.cc:2054-2067`. -/
def rayTriangleSeg (r : Ray α) (t : Triangle α) (tol : α) : Res (Option (Segment α)) := do
  match ← lineTriangleSeg ⟨r.origin, r.direction⟩ t tol with
  | some s => return raySegSeg r s tol
  | none => return none

/-- `Intersection(ray, disk, segment)`, `intersection.cc:2071-2114`. -/
def rayDiskSeg (r : Ray α) (d : Disk α) (tol : α) : Option (Segment α) :=
  let diff := V3.sub r.origin d.center
  let a2 := V3.dot r.direction r.direction
  let a1 := V3.dot diff r.direction
  let a0 := V3.dot diff diff -. d.radius *. d.radius
  let disc := a1 *. a1 -. a0 *. a2
  if disc <. (-. tol) then none else
  let inv := one /. a2
  if Scalar.abs disc <. tol then
    let t := (-. a1) *. inv
    if t <. zero then none else
    let p := V3.add r.origin (V3.smul t r.direction)
    some ⟨p, p⟩
  else
    let root := Scalar.sqrt disc
    let t0 := (-. (a1 +. root)) *. inv
    let t1 := (-. (a1 -. root)) *. inv
    if t0 <. zero && t1 <. zero then none else
    let t0 := Scalar.max zero t0
    let t1 := Scalar.max zero t1
    some ⟨V3.add r.origin (V3.smul t0 r.direction), V3.add r.origin (V3.smul t1 r.direction)⟩

/-- `Intersection(plane, segment, segment)`, `intersection.cc:2118-2135`. -/
def planeSegSeg (a : Plane α) (b : Segment α) (tol : α) : Option (Segment α) :=
  if Rel.copPlaneSeg a b tol then some b else none

/-- `Intersection(plane, triangle, triangle)`, `intersection.cc:2139-2156`. -/
def planeTriTri (a : Plane α) (b : Triangle α) (tol : α) : Option (Triangle α) :=
  if Rel.copPlaneTri a b tol then some b else none

/-- `Intersection(plane, disk, disk)`, `intersection.cc:2160-2177`. -/
def planeDiskDisk (a : Plane α) (b : Disk α) (tol : α) : Option (Disk α) :=
  if Rel.copPlaneDisk a b tol then some b else none

/-- `Intersection(segment, triangle, segment)`, `intersection.cc:2181-2195`. -/
def segTriangleSeg (s : Segment α) (t : Triangle α) (tol : α) : Res (Option (Segment α)) := do
  match ← lineTriangleSeg ⟨s.v0, s.toUnitVector⟩ t tol with
  | some r => segSegSeg s r tol
  | none => return none

/-! ## Entities that are not coplanar -/

/-- `Intersection(plane, plane, plane, point)`, `intersection.cc:2310-2338`; the determinant of the
matrix with columns `n0 n1 n2` is `n0 · (n1 × n2)`.  Eigen expands the determinant along the first row, which is
the same number over the reals and may be rounded differently. -/
def threePlanes (a b c : Plane α) (tol : α) : Option (V3 α) :=
  let n0 := a.normal
  let n1 := b.normal
  let n2 := c.normal
  let det := V3.dot n0 (V3.cross n1 n2)
  if Scalar.isApprox det zero tol then none else
  some (V3.sdiv (V3.add (V3.add (V3.smul (-. a.d) (V3.cross n1 n2)) (V3.smul (-. b.d) (V3.cross n2 n0)))
    (V3.smul (-. c.d) (V3.cross n0 n1))) det)

/-- `Intersection(disk, disk, segment)`, `intersection.cc:2366-2386`; ignored results as in
`triTriSeg`. -/
def diskDiskSeg (a b : Disk α) (tol : α) : Res (Option (Segment α)) :=
  match planePlane a.layingPlane b.layingPlane tol with
  | some l =>
    match lineDisk l a tol, lineDisk l b tol with
    | some s0, some s1 => segSegSeg s0 s1 tol
    | _, _ => .ok none
  | none => .ok none

/-- `Intersection(line, disk, point)`, `intersection.cc:2453-2465`. -/
def lineDiskPoint (l : Line α) (d : Disk α) (tol : α) : Option (V3 α) :=
  match linePlane l d.layingPlane tol with
  | some p => if d.isInside p tol then some p else none
  | none => none

/-- `Intersection(line, ball, segment)`, `intersection.cc:2469-2494`. -/
def lineBall (l : Line α) (b : Ball α) (tol : α) : Option (Segment α) :=
  let direction := l.toUnitVector
  let diff := V3.sub l.origin b.center
  let a0 := V3.dot diff diff -. b.radius *. b.radius
  let a1 := V3.dot direction diff
  let discr := a1 *. a1 -. a0
  if tol <. discr then
    let root := Scalar.sqrt discr
    some ⟨V3.add l.origin (V3.smul ((-. a1) -. root) direction),
          V3.add l.origin (V3.smul ((-. a1) +. root) direction)⟩
  else none

/-- `Intersection(ray, plane, point)`, `intersection.cc:2498-2526`. -/
def rayPlane (r : Ray α) (p : Plane α) (tol : α) : Option (V3 α) :=
  let det := V3.dot r.direction p.normal
  if tol <. Scalar.abs det then
    let t := (-. V3.dot (V3.sub r.origin p.origin) p.normal) /. det
    if tol <. t then some (V3.add r.origin (V3.smul t r.direction)) else none
  else none

/-- `Intersection(ray, triangle, point)`, `intersection.cc:2530-2571`. -/
def rayTriangle (l : Ray α) (t : Triangle α) (tol : α) : Option (V3 α) :=
  let e1 := V3.sub t.v1 t.v0
  let e2 := V3.sub t.v2 t.v0
  let h := V3.cross l.direction e2
  let a := V3.dot e1 h
  if (-. tol) <. a && a <. tol then none else
  let f := one /. a
  let s := V3.sub l.origin t.v0
  let u := f *. V3.dot s h
  if u <. zero -. tol || one +. tol <. u then none else
  let q := V3.cross s e1
  let v := f *. V3.dot l.direction q
  if v <. zero -. tol || one +. tol <. u +. v then none else
  let r := f *. V3.dot e2 q
  if zero -. tol <=. r then some (V3.add l.origin (V3.smul r l.direction)) else none

/-- `Intersection(ray, disk, point)`, `intersection.cc:2575-2587`. -/
def rayDiskPoint (r : Ray α) (d : Disk α) (tol : α) : Option (V3 α) :=
  match rayPlane r d.layingPlane tol with
  | some p => if d.isInside p tol then some p else none
  | none => none

/-- `Intersection(ray, ball, segment)`, `intersection.cc:2591-2622`. -/
def rayBall (l : Ray α) (b : Ball α) (tol : α) : Option (Segment α) :=
  let direction := l.toUnitVector
  let diff := V3.sub l.origin b.center
  let a0 := V3.dot diff diff -. b.radius *. b.radius
  let a1 := V3.dot direction diff
  let discr := a1 *. a1 -. a0
  if tol <. discr then
    let root := Scalar.sqrt discr
    let t0 := (-. a1) -. root
    let t1 := (-. a1) +. root
    if t0 <. zero && t1 <. zero then none else
    let t0 := Scalar.max t0 zero
    let t1 := Scalar.max t1 zero
    some ⟨V3.add l.origin (V3.smul t0 direction), V3.add l.origin (V3.smul t1 direction)⟩
  else none

/-- `Intersection(plane, segment, point)`, `intersection.cc:2626-2654`. -/
def planeSeg (p : Plane α) (s : Segment α) (tol : α) : Option (V3 α) :=
  let direction := s.toVector
  let det := V3.dot direction p.normal
  if tol <. Scalar.abs det then
    let t := (-. V3.dot (V3.sub s.v0 p.origin) p.normal) /. det
    if zero -. tol <=. t && t <=. one +. tol then some (V3.add s.v0 (V3.smul t direction)) else none
  else none

/-- `Intersection(plane, ball, disk)`, `intersection.cc:2692-2714`. -/
def planeBall (p : Plane α) (b : Ball α) : Option (Disk α) :=
  let normal := p.unitNormal
  let sd := V3.dot (V3.sub b.center p.origin) normal
  let distance := Scalar.abs sd
  if distance <=. b.radius then
    some ⟨Scalar.sqrt ((b.radius +. distance) *. (b.radius -. distance)),
          ⟨V3.sub b.center (V3.smul sd normal), normal⟩⟩
  else none

/-- `Intersection(segment, triangle, point)`, `intersection.cc:2718-2759`. -/
def segTriangle (l : Segment α) (t : Triangle α) (tol : α) : Option (V3 α) :=
  let e1 := V3.sub t.v1 t.v0
  let e2 := V3.sub t.v2 t.v0
  let direction := l.toVector
  let h := V3.cross direction e2
  let a := V3.dot e1 h
  if (-. tol) <. a && a <. tol then none else
  let f := one /. a
  let s := V3.sub l.v0 t.v0
  let u := f *. V3.dot s h
  if u <. zero -. tol || one +. tol <. u then none else
  let q := V3.cross s e1
  let v := f *. V3.dot direction q
  if v <. zero -. tol || one +. tol <. u +. v then none else
  let r := f *. V3.dot e2 q
  if zero -. tol <=. r && r <=. one +. tol then some (V3.add l.v0 (V3.smul r direction)) else none

/-- `Intersection(segment, disk, point)`, `intersection.cc:2763-2775`. -/
def segDiskPoint (s : Segment α) (d : Disk α) (tol : α) : Option (V3 α) :=
  match planeSeg d.layingPlane s tol with
  | some p => if d.isInside p tol then some p else none
  | none => none

/-- `Intersection(segment, ball, segment)`, `intersection.cc:2779-2812`: `direction` is the whole
segment vector, not a unit vector, although the quadratic is solved as if it were one. -/
def segBall (l : Segment α) (b : Ball α) (tol : α) : Option (Segment α) :=
  let direction := l.toVector
  let diff := V3.sub l.v0 b.center
  let a0 := V3.dot diff diff -. b.radius *. b.radius
  let a1 := V3.dot direction diff
  let discr := a1 *. a1 -. a0
  if tol <. discr then
    let root := Scalar.sqrt discr
    let t0 := (-. a1) -. root
    let t1 := (-. a1) +. root
    if (t0 <. zero && t1 <. zero) || (one <. t0 && one <. t1) then none else
    let t0 := Scalar.min (Scalar.max t0 zero) one
    let t1 := Scalar.min (Scalar.max t1 zero) one
    some ⟨V3.add l.v0 (V3.smul t0 direction), V3.add l.v0 (V3.smul t1 direction)⟩
  else none

/-! ## Dispatch on two entities -/

/-- The last lines of the dispatcher, `intersection.cc:1123-1129`: an entity of the requested class
when the call reported a collision, otherwise a `none` entity. -/
def out {β : Type} (c : β → Entity α) : Option β → Entity α
  | some b => c b
  | none => .none

/-- First branch of `Intersection(entity, entity)`, `intersection.cc:62-190`: one of the two is a
point. -/
def punctual (e f : Entity α) (tol : α) : Res (Entity α) :=
  match e, f with
  | .point p, .point q => .ok (out .point (pointPoint p q tol))
  | .point p, .line b => .ok (out .point (pointLine p b tol))
  | .point p, .ray b => .ok (out .point (pointRay p b tol))
  | .point p, .plane b => .ok (out .point (pointPlane p b tol))
  | .point p, .segment b => .ok (out .point (pointSegment p b tol))
  | .point p, .triangle b => .ok (out .point (pointTriangle p b tol))
  | .point p, .disk b => .ok (out .point (pointDisk p b tol))
  | .line b, .point p => .ok (out .point (pointLine p b tol))
  | .ray b, .point p => .ok (out .point (pointRay p b tol))
  | .plane b, .point p => .ok (out .point (pointPlane p b tol))
  | .segment b, .point p => .ok (out .point (pointSegment p b tol))
  | .triangle b, .point p => .ok (out .point (pointTriangle p b tol))
  | .disk b, .point p => .ok (out .point (pointDisk p b tol))
  | _, _ => .throw "exception not handled (punctual)."

/-- Second branch, `intersection.cc:192-307`: the two are collinear. -/
def onLine (e f : Entity α) (tol : α) : Res (Entity α) :=
  match e, f with
  | .line a, .line b => .ok (out .line (lineLineLine a b tol))
  | .line a, .ray b => .ok (out .ray (lineRayRay a b tol))
  | .line a, .segment b => .ok (out .segment (lineSegSeg a b tol))
  | .ray b, .line a => .ok (out .ray (lineRayRay a b tol))
  | .ray a, .ray b =>
    match rayRayRay a b tol with
    | some r => .ok (.ray r)
    | none =>
      match rayRaySegment a b tol with
      | some s => .ok (.segment s)
      | none => .throw "exception not handled (ray/ray intersection)."
  | .ray a, .segment b => .ok (out .segment (raySegSeg a b tol))
  | .segment b, .line a => .ok (out .segment (lineSegSeg a b tol))
  | .segment b, .ray a => .ok (out .segment (raySegSeg a b tol))
  | .segment a, .segment b => do
    let s ← segSegSeg a b tol
    return out .segment s
  | _, _ => .throw "exception not handled (colliear)."

/-- Third branch, `intersection.cc:309-655`: the two are coplanar.  Triangle/plane (`705`) asks for a
segment where plane/triangle (`507`) asks for a triangle. -/
def onPlane (e f : Entity α) (tol : α) : Res (Entity α) :=
  match e, f with
  | .line a, .line b => .ok (out .point (lineLine a b tol))
  | .line a, .ray b => .ok (out .point (lineRay a b tol))
  | .line a, .plane b => .ok (out .line (linePlaneLine a b tol))
  | .line a, .segment b => .ok (out .point (lineSegment a b tol))
  | .line a, .triangle b => do
    let s ← lineTriangleSeg a b tol
    return out .segment s
  | .line a, .disk b => .ok (out .segment (lineDisk a b tol))
  | .ray b, .line a => .ok (out .point (lineRay a b tol))
  | .ray a, .ray b => .ok (out .point (rayRay a b tol))
  | .ray a, .plane b => .ok (out .ray (rayPlaneRay a b tol))
  | .ray a, .segment b => .ok (out .point (raySeg a b tol))
  | .ray a, .triangle b => do
    let s ← rayTriangleSeg a b tol
    return out .segment s
  | .ray a, .disk b => .ok (out .segment (rayDiskSeg a b tol))
  | .plane b, .line a => .ok (out .line (linePlaneLine a b tol))
  | .plane b, .ray a => .ok (out .ray (rayPlaneRay a b tol))
  | .plane a, .plane b => .ok (out .plane (planePlanePlane a b tol))
  | .plane a, .segment b => .ok (out .segment (planeSegSeg a b tol))
  | .plane a, .triangle b => .ok (out .triangle (planeTriTri a b tol))
  | .plane a, .disk b => .ok (out .disk (planeDiskDisk a b tol))
  | .segment b, .line a => .ok (out .point (lineSegment a b tol))
  | .segment b, .ray a => .ok (out .point (raySeg a b tol))
  | .segment b, .plane a => .ok (out .segment (planeSegSeg a b tol))
  | .segment a, .segment b => .ok (out .point (segSeg a b tol))
  | .segment a, .triangle b => do
    let s ← segTriangleSeg a b tol
    return out .segment s
  | .segment a, .disk b => .ok (out .segment (segmentDisk a b tol))
  | .triangle b, .line a => do
    let s ← lineTriangleSeg a b tol
    return out .segment s
  | .triangle b, .ray a => do
    let s ← rayTriangleSeg a b tol
    return out .segment s
  | .triangle b, .plane a => do
    let s ← planeTriangle a b tol
    return out .segment s
  | .triangle b, .segment a => do
    let s ← segTriangleSeg a b tol
    return out .segment s
  | .triangle a, .triangle b => do
    let _ ← triTriNone a b tol
    return .none
  | .triangle _, .disk _ => .throw "function not supported."
  | .disk b, .line a => .ok (out .segment (lineDisk a b tol))
  | .disk b, .ray a => .ok (out .segment (rayDiskSeg a b tol))
  | .disk b, .plane a => .ok (out .disk (planeDiskDisk a b tol))
  | .disk b, .segment a => .ok (out .segment (segmentDisk a b tol))
  | .disk _, .triangle _ => .throw "function not supported."
  | .disk _, .disk _ => .throw "function not supported."
  | _, _ => .throw "exception not handled (coplanar)."

/-- Last branch, `intersection.cc:657-1122`.  Plane/disk (`508`, `intersection.cc:839-845`) is the one
case that allocates no result: it binds a reference to `*dynamic_cast<segment *>(nullptr)`, which is
undefined behaviour. -/
def general (e f : Entity α) (tol : α) : Res (Entity α) :=
  match e, f with
  | .line a, .line b => .ok (out .point (lineLine a b tol))
  | .line a, .ray b => .ok (out .point (lineRay a b tol))
  | .line a, .plane b => .ok (out .point (linePlane a b tol))
  | .line a, .segment b => .ok (out .point (lineSegment a b tol))
  | .line a, .triangle b => .ok (out .point (lineTriangle a b tol))
  | .line a, .disk b => .ok (out .point (lineDiskPoint a b tol))
  | .line a, .ball b => .ok (out .segment (lineBall a b tol))
  | .ray b, .line a => .ok (out .point (lineRay a b tol))
  | .ray a, .ray b => .ok (out .point (rayRay a b tol))
  | .ray a, .plane b => .ok (out .point (rayPlane a b tol))
  | .ray a, .segment b => .ok (out .point (raySeg a b tol))
  | .ray a, .triangle b => .ok (out .point (rayTriangle a b tol))
  | .ray a, .disk b => .ok (out .point (rayDiskPoint a b tol))
  | .ray a, .ball b => .ok (out .segment (rayBall a b tol))
  | .plane b, .line a => .ok (out .point (linePlane a b tol))
  | .plane b, .ray a => .ok (out .point (rayPlane a b tol))
  | .plane a, .plane b => .ok (out .line (planePlane a b tol))
  | .plane a, .segment b => .ok (out .point (planeSeg a b tol))
  | .plane a, .triangle b => do
    let s ← planeTriangle a b tol
    return out .segment s
  | .plane _, .disk _ => .ub "reference bound to a null pointer"
  | .plane a, .ball b => .ok (out .disk (planeBall a b))
  | .segment b, .line a => .ok (out .point (lineSegment a b tol))
  | .segment b, .ray a => .ok (out .point (raySeg a b tol))
  | .segment b, .plane a => .ok (out .point (planeSeg a b tol))
  | .segment a, .segment b => .ok (out .point (segSeg a b tol))
  | .segment a, .triangle b => .ok (out .point (segTriangle a b tol))
  | .segment a, .disk b => .ok (out .point (segDiskPoint a b tol))
  | .segment a, .ball b => .ok (out .segment (segBall a b tol))
  | .triangle b, .line a => .ok (out .point (lineTriangle a b tol))
  | .triangle b, .ray a => .ok (out .point (rayTriangle a b tol))
  | .triangle b, .plane a => do
    let s ← planeTriangle a b tol
    return out .segment s
  | .triangle b, .segment a => .ok (out .point (segTriangle a b tol))
  | .triangle a, .triangle b => do
    let s ← triTriSeg a b tol
    return out .segment s
  | .triangle a, .disk b => do
    let s ← triangleDisk a b tol
    return out .segment s
  | .disk b, .line a => .ok (out .point (lineDiskPoint a b tol))
  | .disk b, .ray a => .ok (out .point (rayDiskPoint a b tol))
  | .disk b, .plane a => .ok (out .segment (planeDisk a b tol))
  | .disk b, .segment a => .ok (out .point (segDiskPoint a b tol))
  | .disk b, .triangle a => do
    let s ← triangleDisk a b tol
    return out .segment s
  | .disk a, .disk b => do
    let s ← diskDiskSeg a b tol
    return out .segment s
  | .ball b, .line a => .ok (out .segment (lineBall a b tol))
  | .ball b, .ray a => .ok (out .segment (rayBall a b tol))
  | .ball b, .plane a => .ok (out .disk (planeBall a b))
  | .ball b, .segment a => .ok (out .segment (segBall a b tol))
  | .triangle _, .ball _ => .throw "function not supported."
  | .disk _, .ball _ => .throw "function not supported."
  | .ball _, .triangle _ => .throw "function not supported."
  | .ball _, .disk _ => .throw "function not supported."
  | .ball _, .ball _ => .throw "function not supported."
  | _, _ => .throw "exception not handled (general)."

/-- `Intersection(entity, entity, tolerance)`, `intersection.cc:50-1132`: `IsCollinear` and
`IsCoplanar` are called with their default tolerance. -/
def entity (e f : Entity α) (tol : α) : Res (Entity α) :=
  if e.isPoint || f.isPoint then punctual e f tol
  else if Rel.collinear e f eps then onLine e f tol
  else if Rel.coplanar e f eps then onPlane e f tol
  else general e f tol

end Inter
end Enve
