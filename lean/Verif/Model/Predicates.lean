import Verif.Model.Entity

/-! # Relations between entities

`IsParallel` (`parallel.cc`), `IsOrthogonal` (`orthogonal.cc`), `IsCollinear` (`collinear.cc`) and
`IsCoplanar` (`coplanar.cc`).  The overloads for two concrete classes are given first; the function on
two `entity` pointers dispatches on `level() * 100 + level()`.  Every overload for two different
classes exists in one argument order only, and the dispatcher calls it with the arguments exchanged
for the other order. -/

namespace Enve
open Scalar

variable {α : Type} [Scalar α]

namespace Rel

/-- `IsParallel(vec3, vec3)`, `parallel.cc:340-348`. -/
abbrev parV (a b : V3 α) (tol : α) : Bool := Inter.isParallel a b tol
/-- `IsOrthogonal(vec3, vec3)`, `orthogonal.cc:340-348`. -/
def ortV (a b : V3 α) (tol : α) : Bool := Scalar.isApprox (V3.dot a b) zero tol

/-! ## A vector and an entity -/

/-- `IsParallel(vec3, line)`, `parallel.cc:352-360`. -/
def parVecLine (v : V3 α) (b : Line α) (tol : α) : Bool := parV v b.direction tol
/-- `IsParallel(vec3, ray)`, `parallel.cc:364-372`. -/
def parVecRay (v : V3 α) (b : Ray α) (tol : α) : Bool := parV v b.direction tol
/-- `IsParallel(vec3, plane)`, `parallel.cc:376-384`. -/
def parVecPlane (v : V3 α) (b : Plane α) (tol : α) : Bool := ortV v b.normal tol
/-- `IsParallel(vec3, segment)`, `parallel.cc:388-396`. -/
def parVecSeg (v : V3 α) (b : Segment α) (tol : α) : Bool := parV v b.toUnitVector tol
/-- `IsParallel(vec3, triangle)`, `parallel.cc:400-408`. -/
def parVecTri (v : V3 α) (b : Triangle α) (tol : α) : Bool := ortV v b.normal tol
/-- `IsParallel(vec3, disk)`, `parallel.cc:412-420`. -/
def parVecDisk (v : V3 α) (b : Disk α) (tol : α) : Bool := ortV v b.normal tol
/-- `IsOrthogonal(vec3, line)`, `orthogonal.cc:352-360`. -/
def ortVecLine (v : V3 α) (b : Line α) (tol : α) : Bool := ortV v b.direction tol
/-- `IsOrthogonal(vec3, ray)`, `orthogonal.cc:364-372`. -/
def ortVecRay (v : V3 α) (b : Ray α) (tol : α) : Bool := ortV v b.direction tol
/-- `IsOrthogonal(vec3, plane)`, `orthogonal.cc:376-384`. -/
def ortVecPlane (v : V3 α) (b : Plane α) (tol : α) : Bool := parV v b.normal tol
/-- `IsOrthogonal(vec3, segment)`, `orthogonal.cc:388-396`. -/
def ortVecSeg (v : V3 α) (b : Segment α) (tol : α) : Bool := ortV v b.toUnitVector tol
/-- `IsOrthogonal(vec3, triangle)`, `orthogonal.cc:400-408`. -/
def ortVecTri (v : V3 α) (b : Triangle α) (tol : α) : Bool := parV v b.normal tol
/-- `IsOrthogonal(vec3, disk)`, `orthogonal.cc:412-420`. -/
def ortVecDisk (v : V3 α) (b : Disk α) (tol : α) : Bool := parV v b.normal tol

/-! ## Parallel -/

/-- `IsParallel(line, line)`, `parallel.cc:422-430`. -/
def parLineLine (a b : Line α) (tol : α) : Bool := parV a.direction b.direction tol
/-- `IsParallel(ray, ray)`, `parallel.cc:434-442`. -/
def parRayRay (a b : Ray α) (tol : α) : Bool := parV a.direction b.direction tol
/-- `IsParallel(plane, plane)`, `parallel.cc:446-454`. -/
def parPlanePlane (a b : Plane α) (tol : α) : Bool := parV a.normal b.normal tol
/-- `IsParallel(segment, segment)`, `parallel.cc:458-466`. -/
def parSegSeg (a b : Segment α) (tol : α) : Bool := parV a.toUnitVector b.toUnitVector tol
/-- `IsParallel(triangle, triangle)`, `parallel.cc:469-477`. -/
def parTriTri (a b : Triangle α) (tol : α) : Bool := parV a.normal b.normal tol
/-- `IsParallel(disk, disk)`, `parallel.cc:481-489`. -/
def parDiskDisk (a b : Disk α) (tol : α) : Bool := parV a.normal b.normal tol
/-- `IsParallel(line, ray)`, `parallel.cc:493-501`. -/
def parLineRay (a : Line α) (b : Ray α) (tol : α) : Bool := parV a.direction b.direction tol
/-- `IsParallel(line, plane)`, `parallel.cc:505-513`. -/
def parLinePlane (a : Line α) (b : Plane α) (tol : α) : Bool := ortV a.direction b.normal tol
/-- `IsParallel(line, segment)`, `parallel.cc:517-525`. -/
def parLineSeg (a : Line α) (b : Segment α) (tol : α) : Bool := parV a.direction b.toUnitVector tol
/-- `IsParallel(line, triangle)`, `parallel.cc:529-537`. -/
def parLineTri (a : Line α) (b : Triangle α) (tol : α) : Bool := ortV a.direction b.normal tol
/-- `IsParallel(line, disk)`, `parallel.cc:541-549`. -/
def parLineDisk (a : Line α) (b : Disk α) (tol : α) : Bool := ortV a.direction b.normal tol
/-- `IsParallel(ray, plane)`, `parallel.cc:553-561`. -/
def parRayPlane (a : Ray α) (b : Plane α) (tol : α) : Bool := ortV a.direction b.normal tol
/-- `IsParallel(ray, segment)`, `parallel.cc:565-573`. -/
def parRaySeg (a : Ray α) (b : Segment α) (tol : α) : Bool := parV a.direction b.toUnitVector tol
/-- `IsParallel(ray, triangle)`, `parallel.cc:577-585`. -/
def parRayTri (a : Ray α) (b : Triangle α) (tol : α) : Bool := ortV a.direction b.normal tol
/-- `IsParallel(ray, disk)`, `parallel.cc:589-597`. -/
def parRayDisk (a : Ray α) (b : Disk α) (tol : α) : Bool := ortV a.direction b.normal tol
/-- `IsParallel(plane, segment)`, `parallel.cc:601-609`. -/
def parPlaneSeg (a : Plane α) (b : Segment α) (tol : α) : Bool := ortV b.toUnitVector a.normal tol
/-- `IsParallel(plane, triangle)`, `parallel.cc:613-621`. -/
def parPlaneTri (a : Plane α) (b : Triangle α) (tol : α) : Bool := parV a.normal b.normal tol
/-- `IsParallel(plane, disk)`, `parallel.cc:625-633`. -/
def parPlaneDisk (a : Plane α) (b : Disk α) (tol : α) : Bool := parV a.normal b.normal tol
/-- `IsParallel(segment, triangle)`, `parallel.cc:637-645`. -/
def parSegTri (a : Segment α) (b : Triangle α) (tol : α) : Bool := ortV a.toUnitVector b.normal tol
/-- `IsParallel(segment, disk)`, `parallel.cc:649-657`. -/
def parSegDisk (a : Segment α) (b : Disk α) (tol : α) : Bool := ortV a.toUnitVector b.normal tol
/-- `IsParallel(triangle, disk)`, `parallel.cc:661-669`. -/
def parTriDisk (a : Triangle α) (b : Disk α) (tol : α) : Bool := parV a.normal b.normal tol

/-- `IsParallel(entity, entity)`, `parallel.cc:50-336`. -/
def parallel (e f : Entity α) (tol : α) : Bool :=
  match e, f with
  | .line a, .line b => parLineLine a b tol
  | .line a, .ray b => parLineRay a b tol
  | .line a, .plane b => parLinePlane a b tol
  | .line a, .segment b => parLineSeg a b tol
  | .line a, .triangle b => parLineTri a b tol
  | .line a, .disk b => parLineDisk a b tol
  | .ray a, .line b => parLineRay b a tol
  | .ray a, .ray b => parRayRay a b tol
  | .ray a, .plane b => parRayPlane a b tol
  | .ray a, .segment b => parRaySeg a b tol
  | .ray a, .triangle b => parRayTri a b tol
  | .ray a, .disk b => parRayDisk a b tol
  | .plane a, .line b => parLinePlane b a tol
  | .plane a, .ray b => parRayPlane b a tol
  | .plane a, .plane b => parPlanePlane a b tol
  | .plane a, .segment b => parPlaneSeg a b tol
  | .plane a, .triangle b => parPlaneTri a b tol
  | .plane a, .disk b => parPlaneDisk a b tol
  | .segment a, .line b => parLineSeg b a tol
  | .segment a, .ray b => parRaySeg b a tol
  | .segment a, .plane b => parPlaneSeg b a tol
  | .segment a, .segment b => parSegSeg a b tol
  | .segment a, .triangle b => parSegTri a b tol
  | .segment a, .disk b => parSegDisk a b tol
  | .triangle a, .line b => parLineTri b a tol
  | .triangle a, .ray b => parRayTri b a tol
  | .triangle a, .plane b => parPlaneTri b a tol
  | .triangle a, .segment b => parSegTri b a tol
  | .triangle a, .triangle b => parTriTri a b tol
  | .triangle a, .disk b => parTriDisk a b tol
  | .disk a, .line b => parLineDisk b a tol
  | .disk a, .ray b => parRayDisk b a tol
  | .disk a, .plane b => parPlaneDisk b a tol
  | .disk a, .segment b => parSegDisk b a tol
  | .disk a, .triangle b => parTriDisk b a tol
  | .disk a, .disk b => parDiskDisk a b tol
  | _, _ => false

/-! ## Orthogonal -/

/-- `IsOrthogonal(line, line)`, `orthogonal.cc:424-432`. -/
def ortLineLine (a b : Line α) (tol : α) : Bool := ortV a.direction b.direction tol
/-- `IsOrthogonal(ray, ray)`, `orthogonal.cc:436-444`. -/
def ortRayRay (a b : Ray α) (tol : α) : Bool := ortV a.direction b.direction tol
/-- `IsOrthogonal(plane, plane)`, `orthogonal.cc:448-456`. -/
def ortPlanePlane (a b : Plane α) (tol : α) : Bool := ortV a.normal b.normal tol
/-- `IsOrthogonal(segment, segment)`, `orthogonal.cc:460-468`. -/
def ortSegSeg (a b : Segment α) (tol : α) : Bool := ortV a.toUnitVector b.toUnitVector tol
/-- `IsOrthogonal(triangle, triangle)`, `orthogonal.cc:472-480`. -/
def ortTriTri (a b : Triangle α) (tol : α) : Bool := ortV a.normal b.normal tol
/-- `IsOrthogonal(disk, disk)`, `orthogonal.cc:484-492`. -/
def ortDiskDisk (a b : Disk α) (tol : α) : Bool := ortV a.normal b.normal tol
/-- `IsOrthogonal(line, ray)`, `orthogonal.cc:496-504`. -/
def ortLineRay (a : Line α) (b : Ray α) (tol : α) : Bool := ortV a.direction b.direction tol
/-- `IsOrthogonal(line, plane)`, `orthogonal.cc:508-516`: the code calls
`IsOrthogonal(direction, normal)`, unlike the overloads for a ray, a triangle or a disk, which call
`IsParallel(direction, normal)`. -/
def ortLinePlane (a : Line α) (b : Plane α) (tol : α) : Bool := ortV a.direction b.normal tol
/-- `IsOrthogonal(line, segment)`, `orthogonal.cc:520-528`. -/
def ortLineSeg (a : Line α) (b : Segment α) (tol : α) : Bool := ortV a.direction b.toUnitVector tol
/-- `IsOrthogonal(line, triangle)`, `orthogonal.cc:532-540`. -/
def ortLineTri (a : Line α) (b : Triangle α) (tol : α) : Bool := parV a.direction b.normal tol
/-- `IsOrthogonal(line, disk)`, `orthogonal.cc:544-552`. -/
def ortLineDisk (a : Line α) (b : Disk α) (tol : α) : Bool := parV a.direction b.normal tol
/-- `IsOrthogonal(ray, plane)`, `orthogonal.cc:556-564`. -/
def ortRayPlane (a : Ray α) (b : Plane α) (tol : α) : Bool := parV a.direction b.normal tol
/-- `IsOrthogonal(ray, segment)`, `orthogonal.cc:568-576`. -/
def ortRaySeg (a : Ray α) (b : Segment α) (tol : α) : Bool := ortV a.direction b.toUnitVector tol
/-- `IsOrthogonal(ray, triangle)`, `orthogonal.cc:580-588`. -/
def ortRayTri (a : Ray α) (b : Triangle α) (tol : α) : Bool := parV a.direction b.normal tol
/-- `IsOrthogonal(ray, disk)`, `orthogonal.cc:592-600`. -/
def ortRayDisk (a : Ray α) (b : Disk α) (tol : α) : Bool := parV a.direction b.normal tol
/-- `IsOrthogonal(plane, segment)`, `orthogonal.cc:604-612`. -/
def ortPlaneSeg (a : Plane α) (b : Segment α) (tol : α) : Bool := parV b.toUnitVector a.normal tol
/-- `IsOrthogonal(plane, triangle)`, `orthogonal.cc:616-624`. -/
def ortPlaneTri (a : Plane α) (b : Triangle α) (tol : α) : Bool := ortV a.normal b.normal tol
/-- `IsOrthogonal(plane, disk)`, `orthogonal.cc:628-636`. -/
def ortPlaneDisk (a : Plane α) (b : Disk α) (tol : α) : Bool := ortV a.normal b.normal tol
/-- `IsOrthogonal(segment, triangle)`, `orthogonal.cc:640-648`. -/
def ortSegTri (a : Segment α) (b : Triangle α) (tol : α) : Bool := parV a.toUnitVector b.normal tol
/-- `IsOrthogonal(segment, disk)`, `orthogonal.cc:652-660`. -/
def ortSegDisk (a : Segment α) (b : Disk α) (tol : α) : Bool := parV a.toUnitVector b.normal tol
/-- `IsOrthogonal(triangle, disk)`, `orthogonal.cc:664-672`. -/
def ortTriDisk (a : Triangle α) (b : Disk α) (tol : α) : Bool := ortV a.normal b.normal tol

/-- `IsOrthogonal(entity, entity)`, `orthogonal.cc:50-336`. -/
def orthogonal (e f : Entity α) (tol : α) : Bool :=
  match e, f with
  | .line a, .line b => ortLineLine a b tol
  | .line a, .ray b => ortLineRay a b tol
  | .line a, .plane b => ortLinePlane a b tol
  | .line a, .segment b => ortLineSeg a b tol
  | .line a, .triangle b => ortLineTri a b tol
  | .line a, .disk b => ortLineDisk a b tol
  | .ray a, .line b => ortLineRay b a tol
  | .ray a, .ray b => ortRayRay a b tol
  | .ray a, .plane b => ortRayPlane a b tol
  | .ray a, .segment b => ortRaySeg a b tol
  | .ray a, .triangle b => ortRayTri a b tol
  | .ray a, .disk b => ortRayDisk a b tol
  | .plane a, .line b => ortLinePlane b a tol
  | .plane a, .ray b => ortRayPlane b a tol
  | .plane a, .plane b => ortPlanePlane a b tol
  | .plane a, .segment b => ortPlaneSeg a b tol
  | .plane a, .triangle b => ortPlaneTri a b tol
  | .plane a, .disk b => ortPlaneDisk a b tol
  | .segment a, .line b => ortLineSeg b a tol
  | .segment a, .ray b => ortRaySeg b a tol
  | .segment a, .plane b => ortPlaneSeg b a tol
  | .segment a, .segment b => ortSegSeg a b tol
  | .segment a, .triangle b => ortSegTri a b tol
  | .segment a, .disk b => ortSegDisk a b tol
  | .triangle a, .line b => ortLineTri b a tol
  | .triangle a, .ray b => ortRayTri b a tol
  | .triangle a, .plane b => ortPlaneTri b a tol
  | .triangle a, .segment b => ortSegTri b a tol
  | .triangle a, .triangle b => ortTriTri a b tol
  | .triangle a, .disk b => ortTriDisk a b tol
  | .disk a, .line b => ortLineDisk b a tol
  | .disk a, .ray b => ortRayDisk b a tol
  | .disk a, .plane b => ortPlaneDisk b a tol
  | .disk a, .segment b => ortSegDisk b a tol
  | .disk a, .triangle b => ortTriDisk b a tol
  | .disk a, .disk b => ortDiskDisk a b tol
  | _, _ => false

/-! ## Collinear -/

/-- `IsCollinear(line, line)`, `collinear.cc:144-152`. -/
def colLineLine (a b : Line α) (tol : α) : Bool :=
  parV a.direction (V3.sub a.origin b.origin) tol && parV a.direction b.direction tol
/-- `IsCollinear(ray, ray)`, `collinear.cc:156-164`: the second conjunct compares the direction of the
second ray with itself. -/
def colRayRay (a b : Ray α) (tol : α) : Bool :=
  parV a.direction (V3.sub a.origin b.origin) tol && parV b.direction b.direction tol
/-- `IsCollinear(segment, segment)`, `collinear.cc:168-176`. -/
def colSegSeg (a b : Segment α) (tol : α) : Bool :=
  parV a.toUnitVector (V3.sub a.v0 b.v0) tol && parV a.toUnitVector b.toUnitVector tol
/-- `IsCollinear(line, ray)`, `collinear.cc:180-189`. -/
def colLineRay (a : Line α) (b : Ray α) (tol : α) : Bool :=
  parV a.direction (V3.sub a.origin b.origin) tol && parV a.direction b.direction tol
/-- `IsCollinear(line, segment)`, `collinear.cc:193-202`. -/
def colLineSeg (a : Line α) (b : Segment α) (tol : α) : Bool :=
  parV a.direction (V3.sub a.origin b.v0) tol && parV a.direction b.toUnitVector tol
/-- `IsCollinear(ray, segment)`, `collinear.cc:206-215`. -/
def colRaySeg (a : Ray α) (b : Segment α) (tol : α) : Bool :=
  parV a.direction (V3.sub a.origin b.v0) tol && parV a.direction b.toUnitVector tol

/-- `IsCollinear(entity, entity)`, `collinear.cc:50-140`. -/
def collinear (e f : Entity α) (tol : α) : Bool :=
  match e, f with
  | .line a, .line b => colLineLine a b tol
  | .line a, .ray b => colLineRay a b tol
  | .line a, .segment b => colLineSeg a b tol
  | .ray a, .line b => colLineRay b a tol
  | .ray a, .ray b => colRayRay a b tol
  | .ray a, .segment b => colRaySeg a b tol
  | .segment a, .line b => colLineSeg b a tol
  | .segment a, .ray b => colRaySeg b a tol
  | .segment a, .segment b => colSegSeg a b tol
  | _, _ => false

/-! ## Coplanar -/

/-- `IsCoplanar(line, line)`, `coplanar.cc:340-348`. -/
def copLineLine (a b : Line α) (tol : α) : Bool :=
  V3.isOrthogonal (V3.sub a.origin b.origin) (V3.cross a.direction b.direction) tol
/-- `IsCoplanar(ray, ray)`, `coplanar.cc:352-360`. -/
def copRayRay (a b : Ray α) (tol : α) : Bool :=
  V3.isOrthogonal (V3.sub a.origin b.origin) (V3.cross a.direction b.direction) tol
/-- `IsCoplanar(plane, plane)`, `coplanar.cc:364-373`. -/
def copPlanePlane (a b : Plane α) (tol : α) : Bool :=
  parV a.normal b.normal tol && Scalar.isApprox (a.signedDistance b.origin) zero tol
/-- `IsCoplanar(segment, segment)`, `coplanar.cc:377-385`. -/
def copSegSeg (a b : Segment α) (tol : α) : Bool :=
  V3.isOrthogonal (V3.sub a.v0 b.v0) (V3.cross a.toUnitVector b.toUnitVector) tol
/-- `IsCoplanar(triangle, triangle)`, `coplanar.cc:389-397`. -/
def copTriTri (a b : Triangle α) (tol : α) : Bool := copPlanePlane a.layingPlane b.layingPlane tol
/-- `IsCoplanar(disk, disk)`, `coplanar.cc:401-409`. -/
def copDiskDisk (a b : Disk α) (tol : α) : Bool := copPlanePlane a.layingPlane b.layingPlane tol
/-- `IsCoplanar(line, ray)`, `coplanar.cc:413-421`. -/
def copLineRay (a : Line α) (b : Ray α) (tol : α) : Bool :=
  V3.isOrthogonal (V3.sub a.origin b.origin) (V3.cross a.direction b.direction) tol
/-- `IsCoplanar(line, plane)`, `coplanar.cc:425-434`. -/
def copLinePlane (a : Line α) (b : Plane α) (tol : α) : Bool :=
  V3.isOrthogonal a.direction b.normal tol &&
  V3.isOrthogonal b.normal (V3.sub a.origin b.origin) tol
/-- `IsCoplanar(line, segment)`, `coplanar.cc:438-446`. -/
def copLineSeg (a : Line α) (b : Segment α) (tol : α) : Bool :=
  V3.isOrthogonal (V3.sub a.origin b.v0) (V3.cross a.direction b.toUnitVector) tol
/-- `IsCoplanar(line, triangle)`, `coplanar.cc:450-458`. -/
def copLineTri (a : Line α) (b : Triangle α) (tol : α) : Bool := copLinePlane a b.layingPlane tol
/-- `IsCoplanar(line, disk)`, `coplanar.cc:462-470`. -/
def copLineDisk (a : Line α) (b : Disk α) (tol : α) : Bool := copLinePlane a b.layingPlane tol
/-- `IsCoplanar(ray, plane)`, `coplanar.cc:474-483`. -/
def copRayPlane (a : Ray α) (b : Plane α) (tol : α) : Bool :=
  V3.isOrthogonal a.direction b.normal tol &&
  V3.isOrthogonal b.normal (V3.sub a.origin b.origin) tol
/-- `IsCoplanar(ray, segment)`, `coplanar.cc:487-495`. -/
def copRaySeg (a : Ray α) (b : Segment α) (tol : α) : Bool :=
  V3.isOrthogonal (V3.sub a.origin b.v0) (V3.cross a.direction b.toUnitVector) tol
/-- `IsCoplanar(ray, triangle)`, `coplanar.cc:499-507`. -/
def copRayTri (a : Ray α) (b : Triangle α) (tol : α) : Bool := copRayPlane a b.layingPlane tol
/-- `IsCoplanar(ray, disk)`, `coplanar.cc:511-519`. -/
def copRayDisk (a : Ray α) (b : Disk α) (tol : α) : Bool := copRayPlane a b.layingPlane tol
/-- `IsCoplanar(plane, segment)`, `coplanar.cc:523-532`. -/
def copPlaneSeg (a : Plane α) (b : Segment α) (tol : α) : Bool :=
  V3.isOrthogonal b.toUnitVector a.normal tol &&
  V3.isOrthogonal a.normal (V3.sub b.v0 a.origin) tol
/-- `IsCoplanar(plane, triangle)`, `coplanar.cc:536-544`. -/
def copPlaneTri (a : Plane α) (b : Triangle α) (tol : α) : Bool := copPlanePlane a b.layingPlane tol
/-- `IsCoplanar(plane, disk)`, `coplanar.cc:548-556`. -/
def copPlaneDisk (a : Plane α) (b : Disk α) (tol : α) : Bool := copPlanePlane a b.layingPlane tol
/-- `IsCoplanar(segment, triangle)`, `coplanar.cc:560-568`. -/
def copSegTri (a : Segment α) (b : Triangle α) (tol : α) : Bool := copPlaneSeg b.layingPlane a tol
/-- `IsCoplanar(segment, disk)`, `coplanar.cc:572-580`. -/
def copSegDisk (a : Segment α) (b : Disk α) (tol : α) : Bool := copPlaneSeg b.layingPlane a tol
/-- `IsCoplanar(triangle, disk)`, `coplanar.cc:584-592`. -/
def copTriDisk (a : Triangle α) (b : Disk α) (tol : α) : Bool :=
  copPlanePlane a.layingPlane b.layingPlane tol

/-- `IsCoplanar(entity, entity)`, `coplanar.cc:50-336`. -/
def coplanar (e f : Entity α) (tol : α) : Bool :=
  match e, f with
  | .line a, .line b => copLineLine a b tol
  | .line a, .ray b => copLineRay a b tol
  | .line a, .plane b => copLinePlane a b tol
  | .line a, .segment b => copLineSeg a b tol
  | .line a, .triangle b => copLineTri a b tol
  | .line a, .disk b => copLineDisk a b tol
  | .ray a, .line b => copLineRay b a tol
  | .ray a, .ray b => copRayRay a b tol
  | .ray a, .plane b => copRayPlane a b tol
  | .ray a, .segment b => copRaySeg a b tol
  | .ray a, .triangle b => copRayTri a b tol
  | .ray a, .disk b => copRayDisk a b tol
  | .plane a, .line b => copLinePlane b a tol
  | .plane a, .ray b => copRayPlane b a tol
  | .plane a, .plane b => copPlanePlane a b tol
  | .plane a, .segment b => copPlaneSeg a b tol
  | .plane a, .triangle b => copPlaneTri a b tol
  | .plane a, .disk b => copPlaneDisk a b tol
  | .segment a, .line b => copLineSeg b a tol
  | .segment a, .ray b => copRaySeg b a tol
  | .segment a, .plane b => copPlaneSeg b a tol
  | .segment a, .segment b => copSegSeg a b tol
  | .segment a, .triangle b => copSegTri a b tol
  | .segment a, .disk b => copSegDisk a b tol
  | .triangle a, .line b => copLineTri b a tol
  | .triangle a, .ray b => copRayTri b a tol
  | .triangle a, .plane b => copPlaneTri b a tol
  | .triangle a, .segment b => copSegTri b a tol
  | .triangle a, .triangle b => copTriTri a b tol
  | .triangle a, .disk b => copTriDisk a b tol
  | .disk a, .line b => copLineDisk b a tol
  | .disk a, .ray b => copRayDisk b a tol
  | .disk a, .plane b => copPlaneDisk b a tol
  | .disk a, .segment b => copSegDisk b a tol
  | .disk a, .triangle b => copTriDisk b a tol
  | .disk a, .disk b => copDiskDisk a b tol
  | _, _ => false

end Rel
end Enve
