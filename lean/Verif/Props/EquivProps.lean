import Verif.Props.MoveProps

/-! # C82: the results do not depend on the frame of reference -/

namespace Enve
open Scalar Spec

section members
variable (m : Affine ℝ)

theorem Segment.toVector_move (s : Segment ℝ) :
    (s.transform m).toVector = M3.mulVec m.linear s.toVector := Affine.apply_sub m _ _

theorem Triangle.centroid_move (t : Triangle ℝ) : (t.transform m).centroid = m.apply t.centroid := by
  simp only [centroid, transform, Affine.apply, M3.mulVec, V3.real_add, V3.real_sdiv, real_add, real_mul,
    real_lit]
  congr 1 <;> ring

theorem Disk.layingPlane_move (d : Disk ℝ) : (d.transform m).layingPlane = d.layingPlane.transform m := rfl

variable {m} (hm : IsRigid m)
include hm

theorem Segment.toUnitVector_move (s : Segment ℝ) :
    (s.transform m).toUnitVector = M3.mulVec m.linear s.toUnitVector := by
  simp only [toUnitVector, transform, Affine.apply_sub, hm.normalizedV]

theorem Triangle.normal_move (t : Triangle ℝ) : (t.transform m).normal = M3.mulVec m.linear t.normal := by
  simp only [normal, transform, Affine.apply_sub, hm.crossV, hm.normalizedV]

theorem Triangle.layingPlane_move (t : Triangle ℝ) :
    (t.transform m).layingPlane = t.layingPlane.transform m := by
  simp only [layingPlane, Plane.transform, centroid_move, normal_move hm, V3.transform]

end members

/-- Express the members of moved entities by those of the original ones. -/
macro "moved" hm:ident : tactic => `(tactic|
  (try simp only [Segment.toVector_move, Segment.toUnitVector_move $hm, Triangle.normal_move $hm,
    Triangle.layingPlane_move $hm, Disk.layingPlane_move]
   simp only [Line.transform, Ray.transform, Plane.transform, Segment.transform, Triangle.transform, Disk.transform, Ball.transform, V3.transform, Affine.apply_sub, Affine.apply_add,
    Affine.apply_sub_vec, M3.mulVec_add, M3.mulVec_sub, M3.mulVec_smul, M3.mulVec_sdiv, M3.mulVec_neg,
    IsRotation.dotV $hm, IsRotation.sqNormV $hm, IsRotation.norm_mulVec $hm, IsRotation.crossV $hm,
    IsRotation.normalizedV $hm, Inter.isParallel, Rel.ortV, V3.isOrthogonal, Segment.length, Disk.normal,
    Disk.layingPlane, Disk.center, Plane.signedDistance, Plane.distance, Plane.unitNormal,
    Line.toUnitVector, Ray.toUnitVector]))

/-- Unfold the relations between two classes. -/
macro "relations" : tactic => `(tactic|
  simp only [Rel.ortV, Rel.parLineLine, Rel.parRayRay, Rel.parPlanePlane, Rel.parSegSeg, Rel.parTriTri,
    Rel.parDiskDisk, Rel.parLineRay, Rel.parLinePlane, Rel.parLineSeg, Rel.parLineTri,
    Rel.parLineDisk, Rel.parRayPlane, Rel.parRaySeg, Rel.parRayTri, Rel.parRayDisk,
    Rel.parPlaneSeg, Rel.parPlaneTri, Rel.parPlaneDisk, Rel.parSegTri, Rel.parSegDisk,
    Rel.parTriDisk, Rel.ortLineLine, Rel.ortRayRay, Rel.ortPlanePlane, Rel.ortSegSeg,
    Rel.ortTriTri, Rel.ortDiskDisk, Rel.ortLineRay, Rel.ortLinePlane, Rel.ortLineSeg,
    Rel.ortLineTri, Rel.ortLineDisk, Rel.ortRayPlane, Rel.ortRaySeg, Rel.ortRayTri,
    Rel.ortRayDisk, Rel.ortPlaneSeg, Rel.ortPlaneTri, Rel.ortPlaneDisk, Rel.ortSegTri,
    Rel.ortSegDisk, Rel.ortTriDisk, Rel.colLineLine, Rel.colRayRay, Rel.colSegSeg,
    Rel.colLineRay, Rel.colLineSeg, Rel.colRaySeg, Rel.copLineLine, Rel.copRayRay,
    Rel.copPlanePlane, Rel.copSegSeg, Rel.copTriTri, Rel.copDiskDisk, Rel.copLineRay,
    Rel.copLinePlane, Rel.copLineSeg, Rel.copLineTri, Rel.copLineDisk, Rel.copRayPlane,
    Rel.copRaySeg, Rel.copRayTri, Rel.copRayDisk, Rel.copPlaneSeg, Rel.copPlaneTri,
    Rel.copPlaneDisk, Rel.copSegTri, Rel.copSegDisk, Rel.copTriDisk])

/-- **C82.** Whether two entities are parallel, orthogonal, collinear or coplanar does not depend on the
frame of reference. -/
theorem C82_relations (m : Affine ℝ) (hm : IsRigid m) (a b : Entity ℝ) (tol : ℝ) :
    Rel.parallel (a.transform m) (b.transform m) tol = Rel.parallel a b tol ∧
    Rel.orthogonal (a.transform m) (b.transform m) tol = Rel.orthogonal a b tol ∧
    Rel.collinear (a.transform m) (b.transform m) tol = Rel.collinear a b tol ∧
    Rel.coplanar (a.transform m) (b.transform m) tol = Rel.coplanar a b tol := by
  refine ⟨?_, ?_, ?_, ?_⟩
  · cases a <;> cases b <;> first
      | rfl
      | (simp only [Entity.transform, Rel.parallel]; relations; moved hm)
  · cases a <;> cases b <;> first
      | rfl
      | (simp only [Entity.transform, Rel.orthogonal]; relations; moved hm)
  · cases a <;> cases b <;> first
      | rfl
      | (simp only [Entity.transform, Rel.collinear]; relations; moved hm)
  · cases a <;> cases b <;> first
      | rfl
      | (simp only [Entity.transform, Rel.coplanar]; relations; moved hm)

section inside
variable {m : Affine ℝ} (hm : IsRigid m)
include hm

theorem Line.isInside_move (l : Line ℝ) (p : V3 ℝ) (tol : ℝ) :
    (l.transform m).isInside (m.apply p) tol = l.isInside p tol := by
  simp only [Line.isInside]; moved hm

theorem Ray.isInside_move (r : Ray ℝ) (p : V3 ℝ) (tol : ℝ) :
    (r.transform m).isInside (m.apply p) tol = r.isInside p tol := by
  simp only [Ray.isInside]; moved hm

theorem Plane.isInside_move (q : Plane ℝ) (p : V3 ℝ) (tol : ℝ) :
    (q.transform m).isInside (m.apply p) tol = q.isInside p tol := by
  simp only [Plane.isInside]; moved hm

theorem Segment.isInside_move (s : Segment ℝ) (p : V3 ℝ) (tol : ℝ) :
    (s.transform m).isInside (m.apply p) tol = s.isInside p tol := by
  simp only [Segment.isInside]; moved hm

theorem Disk.isInside_move (d : Disk ℝ) (p : V3 ℝ) (tol : ℝ) :
    (d.transform m).isInside (m.apply p) tol = d.isInside p tol := by
  simp only [Disk.isInside, Plane.isInside]; moved hm

theorem Triangle.barycentric_move (t : Triangle ℝ) (p : V3 ℝ) :
    (t.transform m).barycentric (m.apply p) = t.barycentric p := by
  simp only [Triangle.barycentric]; moved hm
theorem Triangle.isInside_move (t : Triangle ℝ) (p : V3 ℝ) (tol : ℝ) :
    (t.transform m).isInside (m.apply p) tol = t.isInside p tol := by
  simp only [Triangle.isInside, Triangle.barycentric_move hm, Triangle.layingPlane_move hm,
    Plane.isInside_move hm]
theorem Ball.isInside_move (b : Ball ℝ) (p : V3 ℝ) :
    (b.transform m).isInside (m.apply p) = b.isInside p := by
  simp only [Ball.isInside]; moved hm

omit hm in
theorem Inter.if_cond {β : Type} (c : Bool) [Decidable (c = true)] (x y : β) :
    (if c = true then x else y) = bif c then x else y := by cases c <;> simp

omit hm in
theorem Inter.map_cond {β γ : Type} (f : β → γ) (c : Bool) (x y : Option β) :
    (bif c then x else y).map f = bif c then x.map f else y.map f := by cases c <;> rfl

theorem Inter.lineSegment_move (a : Line ℝ) (b : Segment ℝ) (tol : ℝ) :
    Inter.lineSegment (a.transform m) (b.transform m) tol = (Inter.lineSegment a b tol).map m.apply := by
  simp only [Inter.lineSegment, Inter.if_cond, Inter.map_cond, Option.map_some, Option.map_none]; moved hm; try rfl

theorem Inter.lineDisk_move (a : Line ℝ) (b : Disk ℝ) (tol : ℝ) :
    Inter.lineDisk (a.transform m) (b.transform m) tol = (Inter.lineDisk a b tol).map (Segment.transform · m) := by
  simp only [Inter.lineDisk, Inter.if_cond, Inter.map_cond, Option.map_some, Option.map_none]; moved hm; try rfl

theorem Inter.segmentDisk_move (a : Segment ℝ) (b : Disk ℝ) (tol : ℝ) :
    Inter.segmentDisk (a.transform m) (b.transform m) tol = (Inter.segmentDisk a b tol).map (Segment.transform · m) := by
  simp only [Inter.segmentDisk, Segment.isDegenerated, Disk.isDegenerated, Plane.isDegenerated, Inter.if_cond, Inter.map_cond, Option.map_some, Option.map_none]; moved hm; try rfl

theorem Inter.linePlane_move (a : Line ℝ) (b : Plane ℝ) (tol : ℝ) :
    Inter.linePlane (a.transform m) (b.transform m) tol = (Inter.linePlane a b tol).map m.apply := by
  simp only [Inter.linePlane, Inter.if_cond, Inter.map_cond, Option.map_some, Option.map_none]; moved hm; try rfl

theorem Inter.lineTriangle_move (a : Line ℝ) (b : Triangle ℝ) (tol : ℝ) :
    Inter.lineTriangle (a.transform m) (b.transform m) tol = (Inter.lineTriangle a b tol).map m.apply := by
  simp only [Inter.lineTriangle, Inter.if_cond, Inter.map_cond, Option.map_some, Option.map_none]; moved hm; try rfl

theorem Inter.lineBall_move (a : Line ℝ) (b : Ball ℝ) (tol : ℝ) :
    Inter.lineBall (a.transform m) (b.transform m) tol = (Inter.lineBall a b tol).map (Segment.transform · m) := by
  simp only [Inter.lineBall, Inter.if_cond, Inter.map_cond, Option.map_some, Option.map_none]; moved hm; try rfl

theorem Inter.rayPlane_move (a : Ray ℝ) (b : Plane ℝ) (tol : ℝ) :
    Inter.rayPlane (a.transform m) (b.transform m) tol = (Inter.rayPlane a b tol).map m.apply := by
  simp only [Inter.rayPlane, Inter.if_cond, Inter.map_cond, Option.map_some, Option.map_none]; moved hm; try rfl

theorem Inter.rayTriangle_move (a : Ray ℝ) (b : Triangle ℝ) (tol : ℝ) :
    Inter.rayTriangle (a.transform m) (b.transform m) tol = (Inter.rayTriangle a b tol).map m.apply := by
  simp only [Inter.rayTriangle, Inter.if_cond, Inter.map_cond, Option.map_some, Option.map_none]; moved hm; try rfl

theorem Inter.rayBall_move (a : Ray ℝ) (b : Ball ℝ) (tol : ℝ) :
    Inter.rayBall (a.transform m) (b.transform m) tol = (Inter.rayBall a b tol).map (Segment.transform · m) := by
  simp only [Inter.rayBall, Inter.if_cond, Inter.map_cond, Option.map_some, Option.map_none]; moved hm; try rfl

theorem Inter.planeSeg_move (a : Plane ℝ) (b : Segment ℝ) (tol : ℝ) :
    Inter.planeSeg (a.transform m) (b.transform m) tol = (Inter.planeSeg a b tol).map m.apply := by
  simp only [Inter.planeSeg, Inter.if_cond, Inter.map_cond, Option.map_some, Option.map_none]; moved hm; try rfl

theorem Inter.segTriangle_move (a : Segment ℝ) (b : Triangle ℝ) (tol : ℝ) :
    Inter.segTriangle (a.transform m) (b.transform m) tol = (Inter.segTriangle a b tol).map m.apply := by
  simp only [Inter.segTriangle, Inter.if_cond, Inter.map_cond, Option.map_some, Option.map_none]; moved hm; try rfl

theorem Inter.segBall_move (a : Segment ℝ) (b : Ball ℝ) (tol : ℝ) :
    Inter.segBall (a.transform m) (b.transform m) tol = (Inter.segBall a b tol).map (Segment.transform · m) := by
  simp only [Inter.segBall, Inter.if_cond, Inter.map_cond, Option.map_some, Option.map_none]; moved hm; try rfl

theorem Inter.rayDiskSeg_move (a : Ray ℝ) (b : Disk ℝ) (tol : ℝ) :
    Inter.rayDiskSeg (a.transform m) (b.transform m) tol = (Inter.rayDiskSeg a b tol).map (Segment.transform · m) := by
  simp only [Inter.rayDiskSeg, Inter.if_cond, Inter.map_cond, Option.map_some, Option.map_none]; moved hm; try rfl

theorem Inter.lineLine_move (a : Line ℝ) (b : Line ℝ) (tol : ℝ) :
    Inter.lineLine (a.transform m) (b.transform m) tol = (Inter.lineLine a b tol).map m.apply := by
  simp only [Inter.lineLine, Inter.if_cond, Inter.map_cond, Option.map_some, Option.map_none]
  simp only [Inter.crossParam0, Rel.parLineLine]; moved hm; try rfl

theorem Inter.rayRay_move (a : Ray ℝ) (b : Ray ℝ) (tol : ℝ) :
    Inter.rayRay (a.transform m) (b.transform m) tol = (Inter.rayRay a b tol).map m.apply := by
  simp only [Inter.rayRay, Inter.if_cond, Inter.map_cond, Option.map_some, Option.map_none]
  simp only [Inter.crossParam0, Inter.crossParam1, Rel.parRayRay]; moved hm; try rfl

theorem Inter.segSeg_move (a : Segment ℝ) (b : Segment ℝ) (tol : ℝ) :
    Inter.segSeg (a.transform m) (b.transform m) tol = (Inter.segSeg a b tol).map m.apply := by
  simp only [Inter.segSeg, Inter.if_cond, Inter.map_cond, Option.map_some, Option.map_none]
  simp only [Inter.crossParam0, Inter.crossParam1, Rel.parSegSeg]; moved hm; try rfl

theorem Inter.lineRay_move (a : Line ℝ) (b : Ray ℝ) (tol : ℝ) :
    Inter.lineRay (a.transform m) (b.transform m) tol = (Inter.lineRay a b tol).map m.apply := by
  simp only [Inter.lineRay, Inter.if_cond, Inter.map_cond, Option.map_some, Option.map_none]
  simp only [Inter.crossParam0, Inter.crossParam1, Rel.parLineRay]; moved hm; try rfl

theorem Inter.raySeg_move (a : Ray ℝ) (b : Segment ℝ) (tol : ℝ) :
    Inter.raySeg (a.transform m) (b.transform m) tol = (Inter.raySeg a b tol).map m.apply := by
  simp only [Inter.raySeg, Inter.if_cond, Inter.map_cond, Option.map_some, Option.map_none]
  simp only [Inter.crossParam0, Inter.crossParam1, Rel.parRaySeg]; moved hm; try rfl

theorem Inter.planeBall_move (a : Plane ℝ) (b : Ball ℝ)  :
    Inter.planeBall (a.transform m) (b.transform m) = (Inter.planeBall a b).map (Disk.transform · m) := by
  simp only [Inter.planeBall, Inter.if_cond, Inter.map_cond, Option.map_some, Option.map_none]; moved hm; try rfl

theorem Inter.lineLineLine_move (a : Line ℝ) (b : Line ℝ) (tol : ℝ) :
    Inter.lineLineLine (a.transform m) (b.transform m) tol = (Inter.lineLineLine a b tol).map (Line.transform · m) := by
  have h : Rel.colLineLine (a.transform m) (b.transform m) tol = Rel.colLineLine a b tol :=
    (C82_relations m hm (.line a) (.line b) tol).2.2.1
  simp only [Inter.lineLineLine, h, Inter.if_cond, Inter.map_cond, Option.map_some, Option.map_none]

theorem Inter.lineRayRay_move (a : Line ℝ) (b : Ray ℝ) (tol : ℝ) :
    Inter.lineRayRay (a.transform m) (b.transform m) tol = (Inter.lineRayRay a b tol).map (Ray.transform · m) := by
  have h : Rel.colLineRay (a.transform m) (b.transform m) tol = Rel.colLineRay a b tol :=
    (C82_relations m hm (.line a) (.ray b) tol).2.2.1
  simp only [Inter.lineRayRay, h, Inter.if_cond, Inter.map_cond, Option.map_some, Option.map_none]

theorem Inter.lineSegSeg_move (a : Line ℝ) (b : Segment ℝ) (tol : ℝ) :
    Inter.lineSegSeg (a.transform m) (b.transform m) tol = (Inter.lineSegSeg a b tol).map (Segment.transform · m) := by
  have h : Rel.colLineSeg (a.transform m) (b.transform m) tol = Rel.colLineSeg a b tol :=
    (C82_relations m hm (.line a) (.segment b) tol).2.2.1
  simp only [Inter.lineSegSeg, h, Inter.if_cond, Inter.map_cond, Option.map_some, Option.map_none]

theorem Inter.planePlanePlane_move (a : Plane ℝ) (b : Plane ℝ) (tol : ℝ) :
    Inter.planePlanePlane (a.transform m) (b.transform m) tol = (Inter.planePlanePlane a b tol).map (Plane.transform · m) := by
  have h : Rel.copPlanePlane (a.transform m) (b.transform m) tol = Rel.copPlanePlane a b tol :=
    (C82_relations m hm (.plane a) (.plane b) tol).2.2.2
  simp only [Inter.planePlanePlane, h, Inter.if_cond, Inter.map_cond, Option.map_some, Option.map_none]

theorem Inter.linePlaneLine_move (a : Line ℝ) (b : Plane ℝ) (tol : ℝ) :
    Inter.linePlaneLine (a.transform m) (b.transform m) tol = (Inter.linePlaneLine a b tol).map (Line.transform · m) := by
  have h : Rel.copLinePlane (a.transform m) (b.transform m) tol = Rel.copLinePlane a b tol :=
    (C82_relations m hm (.line a) (.plane b) tol).2.2.2
  simp only [Inter.linePlaneLine, h, Inter.if_cond, Inter.map_cond, Option.map_some, Option.map_none]

theorem Inter.rayPlaneRay_move (a : Ray ℝ) (b : Plane ℝ) (tol : ℝ) :
    Inter.rayPlaneRay (a.transform m) (b.transform m) tol = (Inter.rayPlaneRay a b tol).map (Ray.transform · m) := by
  have h : Rel.copRayPlane (a.transform m) (b.transform m) tol = Rel.copRayPlane a b tol :=
    (C82_relations m hm (.ray a) (.plane b) tol).2.2.2
  simp only [Inter.rayPlaneRay, h, Inter.if_cond, Inter.map_cond, Option.map_some, Option.map_none]

theorem Inter.planeSegSeg_move (a : Plane ℝ) (b : Segment ℝ) (tol : ℝ) :
    Inter.planeSegSeg (a.transform m) (b.transform m) tol = (Inter.planeSegSeg a b tol).map (Segment.transform · m) := by
  have h : Rel.copPlaneSeg (a.transform m) (b.transform m) tol = Rel.copPlaneSeg a b tol :=
    (C82_relations m hm (.plane a) (.segment b) tol).2.2.2
  simp only [Inter.planeSegSeg, h, Inter.if_cond, Inter.map_cond, Option.map_some, Option.map_none]

theorem Inter.planeTriTri_move (a : Plane ℝ) (b : Triangle ℝ) (tol : ℝ) :
    Inter.planeTriTri (a.transform m) (b.transform m) tol = (Inter.planeTriTri a b tol).map (Triangle.transform · m) := by
  have h : Rel.copPlaneTri (a.transform m) (b.transform m) tol = Rel.copPlaneTri a b tol :=
    (C82_relations m hm (.plane a) (.triangle b) tol).2.2.2
  simp only [Inter.planeTriTri, h, Inter.if_cond, Inter.map_cond, Option.map_some, Option.map_none]

theorem Inter.planeDiskDisk_move (a : Plane ℝ) (b : Disk ℝ) (tol : ℝ) :
    Inter.planeDiskDisk (a.transform m) (b.transform m) tol = (Inter.planeDiskDisk a b tol).map (Disk.transform · m) := by
  have h : Rel.copPlaneDisk (a.transform m) (b.transform m) tol = Rel.copPlaneDisk a b tol :=
    (C82_relations m hm (.plane a) (.disk b) tol).2.2.2
  simp only [Inter.planeDiskDisk, h, Inter.if_cond, Inter.map_cond, Option.map_some, Option.map_none]

theorem Inter.pointLine_move (a : V3 ℝ) (b : Line ℝ) (tol : ℝ) :
    Inter.pointLine (m.apply a) (b.transform m) tol = (Inter.pointLine a b tol).map m.apply := by
  simp only [Inter.pointLine, Line.isInside_move hm, Inter.if_cond, Inter.map_cond, Option.map_some,
    Option.map_none]

theorem Inter.pointRay_move (a : V3 ℝ) (b : Ray ℝ) (tol : ℝ) :
    Inter.pointRay (m.apply a) (b.transform m) tol = (Inter.pointRay a b tol).map m.apply := by
  simp only [Inter.pointRay, Ray.isInside_move hm, Inter.if_cond, Inter.map_cond, Option.map_some,
    Option.map_none]

theorem Inter.pointPlane_move (a : V3 ℝ) (b : Plane ℝ) (tol : ℝ) :
    Inter.pointPlane (m.apply a) (b.transform m) tol = (Inter.pointPlane a b tol).map m.apply := by
  simp only [Inter.pointPlane, Plane.isInside_move hm, Inter.if_cond, Inter.map_cond, Option.map_some,
    Option.map_none]

theorem Inter.pointSegment_move (a : V3 ℝ) (b : Segment ℝ) (tol : ℝ) :
    Inter.pointSegment (m.apply a) (b.transform m) tol = (Inter.pointSegment a b tol).map m.apply := by
  simp only [Inter.pointSegment, Segment.isInside_move hm, Inter.if_cond, Inter.map_cond, Option.map_some,
    Option.map_none]

theorem Inter.pointTriangle_move (a : V3 ℝ) (b : Triangle ℝ) (tol : ℝ) :
    Inter.pointTriangle (m.apply a) (b.transform m) tol = (Inter.pointTriangle a b tol).map m.apply := by
  simp only [Inter.pointTriangle, Triangle.isInside_move hm, Inter.if_cond, Inter.map_cond, Option.map_some,
    Option.map_none]

theorem Inter.pointDisk_move (a : V3 ℝ) (b : Disk ℝ) (tol : ℝ) :
    Inter.pointDisk (m.apply a) (b.transform m) tol = (Inter.pointDisk a b tol).map m.apply := by
  simp only [Inter.pointDisk, Disk.isInside_move hm, Inter.if_cond, Inter.map_cond, Option.map_some,
    Option.map_none]

theorem Inter.rayRayRay_move (a b : Ray ℝ) (tol : ℝ) :
    Inter.rayRayRay (a.transform m) (b.transform m) tol =
      (Inter.rayRayRay a b tol).map (Ray.transform · m) := by
  have h : Rel.colRayRay (a.transform m) (b.transform m) tol = Rel.colRayRay a b tol :=
    (C82_relations m hm (.ray a) (.ray b) tol).2.2.1
  have h1 : V3.dot (a.transform m).direction (b.transform m).direction =
    V3.dot a.direction b.direction := hm.dotV _ _
  have h2 : (a.transform m).isInside (b.transform m).origin tol = a.isInside b.origin tol :=
    Ray.isInside_move hm a b.origin tol
  have h3 : (b.transform m).isInside (a.transform m).origin tol = b.isInside a.origin tol :=
    Ray.isInside_move hm b a.origin tol
  simp only [Inter.rayRayRay, h, h1, h2, h3, Inter.if_cond, Inter.map_cond, Option.map_some,
    Option.map_none]

theorem Inter.rayRaySegment_move (a b : Ray ℝ) (tol : ℝ) :
    Inter.rayRaySegment (a.transform m) (b.transform m) tol =
      (Inter.rayRaySegment a b tol).map (Segment.transform · m) := by
  have h : Rel.colRayRay (a.transform m) (b.transform m) tol = Rel.colRayRay a b tol :=
    (C82_relations m hm (.ray a) (.ray b) tol).2.2.1
  have h1 : V3.dot (a.transform m).direction (b.transform m).direction =
    V3.dot a.direction b.direction := hm.dotV _ _
  have h2 : (a.transform m).isInside (b.transform m).origin tol = a.isInside b.origin tol :=
    Ray.isInside_move hm a b.origin tol
  have h3 : (b.transform m).isInside (a.transform m).origin tol = b.isInside a.origin tol :=
    Ray.isInside_move hm b a.origin tol
  simp only [Inter.rayRaySegment, h, h1, h2, h3, Inter.if_cond, Inter.map_cond, Option.map_some,
    Option.map_none]
  rfl

theorem Inter.raySegSeg_move (a : Ray ℝ) (b : Segment ℝ) (tol : ℝ) :
    Inter.raySegSeg (a.transform m) (b.transform m) tol =
      (Inter.raySegSeg a b tol).map (Segment.transform · m) := by
  have h : Rel.colRaySeg (a.transform m) (b.transform m) tol = Rel.colRaySeg a b tol :=
    (C82_relations m hm (.ray a) (.segment b) tol).2.2.1
  have h2 : (a.transform m).isInside (b.transform m).v0 tol = a.isInside b.v0 tol :=
    Ray.isInside_move hm a b.v0 tol
  have h3 : (a.transform m).isInside (b.transform m).v1 tol = a.isInside b.v1 tol :=
    Ray.isInside_move hm a b.v1 tol
  simp only [Inter.raySegSeg, h, h2, h3, Inter.if_cond, Inter.map_cond, Option.map_some, Option.map_none]
  rfl

omit hm in
/-- The segment in the result of a call that may fail, moved. -/
noncomputable def Inter.moveRes (m : Affine ℝ) : Res (Option (Segment ℝ)) → Res (Option (Segment ℝ))
  | .ok s => .ok (s.map (Segment.transform · m))
  | .throw w => .throw w
  | .ub w => .ub w

theorem Inter.segSegSeg_move (a b : Segment ℝ) (tol : ℝ) :
    Inter.segSegSeg (a.transform m) (b.transform m) tol = Inter.moveRes m (Inter.segSegSeg a b tol) := by
  have h : Rel.colSegSeg (a.transform m) (b.transform m) tol = Rel.colSegSeg a b tol :=
    (C82_relations m hm (.segment a) (.segment b) tol).2.2.1
  have h1 : (b.transform m).isInside (a.transform m).v0 tol = b.isInside a.v0 tol :=
    Segment.isInside_move hm b a.v0 tol
  have h2 : (b.transform m).isInside (a.transform m).v1 tol = b.isInside a.v1 tol :=
    Segment.isInside_move hm b a.v1 tol
  have h3 : (a.transform m).isInside (b.transform m).v0 tol = a.isInside b.v0 tol :=
    Segment.isInside_move hm a b.v0 tol
  have h4 : (a.transform m).isInside (b.transform m).v1 tol = a.isInside b.v1 tol :=
    Segment.isInside_move hm a b.v1 tol
  simp only [Inter.segSegSeg, h, h1, h2, h3, h4]
  cases Rel.colSegSeg a b tol
  · rfl
  · cases b.isInside a.v0 tol <;> cases b.isInside a.v1 tol <;> cases a.isInside b.v0 tol <;>
      cases a.isInside b.v1 tol <;> rfl

theorem Inter.lineDiskPoint_move (a : Line ℝ) (b : Disk ℝ) (tol : ℝ) :
    Inter.lineDiskPoint (a.transform m) (b.transform m) tol = (Inter.lineDiskPoint a b tol).map m.apply := by
  simp only [Inter.lineDiskPoint, Disk.layingPlane_move, Inter.linePlane_move hm]
  rcases Inter.linePlane a b.layingPlane tol with _ | p
  · rfl
  · simp only [Option.map_some, Disk.isInside_move hm, Inter.if_cond, Inter.map_cond, Option.map_none]

theorem Inter.rayDiskPoint_move (a : Ray ℝ) (b : Disk ℝ) (tol : ℝ) :
    Inter.rayDiskPoint (a.transform m) (b.transform m) tol = (Inter.rayDiskPoint a b tol).map m.apply := by
  simp only [Inter.rayDiskPoint, Disk.layingPlane_move, Inter.rayPlane_move hm]
  rcases Inter.rayPlane a b.layingPlane tol with _ | p
  · rfl
  · simp only [Option.map_some, Disk.isInside_move hm, Inter.if_cond, Inter.map_cond, Option.map_none]

theorem Inter.segDiskPoint_move (a : Segment ℝ) (b : Disk ℝ) (tol : ℝ) :
    Inter.segDiskPoint (a.transform m) (b.transform m) tol = (Inter.segDiskPoint a b tol).map m.apply := by
  simp only [Inter.segDiskPoint, Disk.layingPlane_move, Inter.planeSeg_move hm]
  rcases Inter.planeSeg b.layingPlane a tol with _ | p
  · rfl
  · simp only [Option.map_some, Disk.isInside_move hm, Inter.if_cond, Inter.map_cond, Option.map_none]

end inside

/-! ## Rotations about the origin of the axes -/

section rotation
variable {m : Affine ℝ} (hm : IsRigid m) (h0 : m.trans = ⟨0, 0, 0⟩)
include hm h0

omit hm in
theorem Affine.apply_rot (p : V3 ℝ) : m.apply p = M3.mulVec m.linear p := by
  rcases m with ⟨L, t⟩
  obtain rfl : t = _ := h0
  simp [Affine.apply, V3.real_add]

theorem V3.isApprox_move (a b : V3 ℝ) (tol : ℝ) :
    V3.isApprox (m.apply a) (m.apply b) tol = V3.isApprox a b tol := by
  simp only [V3.isApprox, Affine.apply_sub, hm.sqNormV]
  simp only [Affine.apply_rot h0, hm.sqNormV]

theorem Inter.pointPoint_rot (a b : V3 ℝ) (tol : ℝ) :
    Inter.pointPoint (m.apply a) (m.apply b) tol = (Inter.pointPoint a b tol).map m.apply := by
  simp only [Inter.pointPoint, V3.isApprox_move hm h0, Inter.if_cond, Inter.map_cond, Option.map_some,
    Option.map_none]

theorem Plane.d_rot (p : Plane ℝ) : (p.transform m).d = p.d := by
  simp only [Plane.d, Plane.transform, Affine.apply_rot h0, V3.transform, hm.dotV]

theorem Inter.planePlane_rot (a b : Plane ℝ) (tol : ℝ) :
    Inter.planePlane (a.transform m) (b.transform m) tol =
      (Inter.planePlane a b tol).map (Line.transform · m) := by
  have hn (p : Plane ℝ) : (p.transform m).normal = M3.mulVec m.linear p.normal := rfl
  simp only [Inter.planePlane, Plane.d_rot hm h0, hn, hm.normalizedV, hm.dotV, hm.crossV, hm.norm_mulVec,
    Inter.if_cond, Inter.map_cond, Option.map_some, Option.map_none, Line.transform, Affine.apply_rot h0,
    M3.mulVec_add, M3.mulVec_smul, V3.transform]

theorem Inter.threePlanes_rot (a b c : Plane ℝ) (tol : ℝ) :
    Inter.threePlanes (a.transform m) (b.transform m) (c.transform m) tol =
      (Inter.threePlanes a b c tol).map m.apply := by
  have hn (p : Plane ℝ) : (p.transform m).normal = M3.mulVec m.linear p.normal := rfl
  simp only [Inter.threePlanes, Plane.d_rot hm h0, hn, hm.dotV, hm.crossV,
    Inter.if_cond, Inter.map_cond, Option.map_some, Option.map_none, Affine.apply_rot h0,
    M3.mulVec_add, M3.mulVec_smul, M3.mulVec_sdiv]

theorem Inter.lineTriangleSeg_rot (a : Line ℝ) (b : Triangle ℝ) (tol : ℝ) :
    Inter.lineTriangleSeg (a.transform m) (b.transform m) tol =
      Inter.moveRes m (Inter.lineTriangleSeg a b tol) := by
  have e0 : (b.transform m).edge0 = b.edge0.transform m := rfl
  have e1 : (b.transform m).edge1 = b.edge1.transform m := rfl
  have e2 : (b.transform m).edge2 = b.edge2.transform m := rfl
  simp only [Inter.lineTriangleSeg, e0, e1, e2, Inter.lineSegment_move hm]
  rcases Inter.lineSegment a b.edge0 tol with _ | p0 <;>
    rcases Inter.lineSegment a b.edge1 tol with _ | p1 <;>
    rcases Inter.lineSegment a b.edge2 tol with _ | p2 <;> try rfl
  simp only [Option.map_some, V3.isApprox_move hm h0]
  cases V3.isApprox p0 p1 tol <;> cases V3.isApprox p1 p2 tol <;> cases V3.isApprox p0 p2 tol <;> rfl

theorem Inter.planeTriangle_rot (a : Plane ℝ) (b : Triangle ℝ) (tol : ℝ) :
    Inter.planeTriangle (a.transform m) (b.transform m) tol =
      Inter.moveRes m (Inter.planeTriangle a b tol) := by
  simp only [Inter.planeTriangle, Triangle.layingPlane_move hm, Inter.planePlane_rot hm h0]
  rcases Inter.planePlane a b.layingPlane tol with _ | l
  · rfl
  · exact Inter.lineTriangleSeg_rot hm h0 l b tol

theorem Inter.planeDisk_rot (a : Plane ℝ) (b : Disk ℝ) (tol : ℝ) :
    Inter.planeDisk (a.transform m) (b.transform m) tol =
      (Inter.planeDisk a b tol).map (Segment.transform · m) := by
  simp only [Inter.planeDisk, Disk.layingPlane_move, Inter.planePlane_rot hm h0]
  rcases Inter.planePlane a b.layingPlane tol with _ | l
  · rfl
  · exact Inter.lineDisk_move hm l b tol

theorem Inter.triangleDisk_rot (a : Triangle ℝ) (b : Disk ℝ) (tol : ℝ) :
    Inter.triangleDisk (a.transform m) (b.transform m) tol =
      Inter.moveRes m (Inter.triangleDisk a b tol) := by
  simp only [Inter.triangleDisk, Disk.layingPlane_move, Inter.planeTriangle_rot hm h0]
  rcases Inter.planeTriangle b.layingPlane a tol with (_ | s) | _ | _
  · rfl
  · simp only [Inter.moveRes, Option.map_some, Res.bind_ok, Res.pure_eq, Inter.segmentDisk_move hm]
  · rfl
  · rfl

theorem Inter.triTriSeg_rot (a b : Triangle ℝ) (tol : ℝ) :
    Inter.triTriSeg (a.transform m) (b.transform m) tol =
      Inter.moveRes m (Inter.triTriSeg a b tol) := by
  simp only [Inter.triTriSeg, Triangle.layingPlane_move hm, Inter.planePlane_rot hm h0]
  rcases Inter.planePlane a.layingPlane b.layingPlane tol with _ | l
  · rfl
  · simp only [Option.map_some, Inter.lineTriangleSeg_rot hm h0]
    rcases Inter.lineTriangleSeg l a tol with (_ | s) | _ | _ <;>
      rcases Inter.lineTriangleSeg l b tol with (_ | t) | _ | _ <;> try rfl
    exact Inter.segSegSeg_move hm s t tol

theorem Inter.triTriNone_rot (a b : Triangle ℝ) (tol : ℝ) :
    Inter.triTriNone (a.transform m) (b.transform m) tol = Inter.triTriNone a b tol := by
  have h : Rel.copTriTri (a.transform m) (b.transform m) tol = Rel.copTriTri a b tol :=
    (C82_relations m hm (.triangle a) (.triangle b) tol).2.2.2
  have hv (t : Triangle ℝ) : (t.transform m).v0 = m.apply t.v0 ∧ (t.transform m).v1 = m.apply t.v1 ∧
    (t.transform m).v2 = m.apply t.v2 := ⟨rfl, rfl, rfl⟩
  simp only [Inter.triTriNone, h, (hv a).1, (hv a).2.1, (hv a).2.2, (hv b).1, (hv b).2.1, (hv b).2.2,
    Triangle.isInside_move hm, Inter.triTriSeg_rot hm h0]
  rcases Inter.triTriSeg a b tol with (_ | s) | _ | _ <;> rfl

theorem Inter.rayTriangleSeg_rot (a : Ray ℝ) (b : Triangle ℝ) (tol : ℝ) :
    Inter.rayTriangleSeg (a.transform m) (b.transform m) tol =
      Inter.moveRes m (Inter.rayTriangleSeg a b tol) := by
  have h := Inter.lineTriangleSeg_rot hm h0 ⟨a.origin, a.direction⟩ b tol
  simp only [Line.transform] at h
  simp only [Inter.rayTriangleSeg, Ray.transform, h]
  rcases Inter.lineTriangleSeg ⟨a.origin, a.direction⟩ b tol with (_ | s) | _ | _
  · rfl
  · exact congrArg Res.ok (Inter.raySegSeg_move hm a s tol)
  · rfl
  · rfl

theorem Inter.segTriangleSeg_rot (a : Segment ℝ) (b : Triangle ℝ) (tol : ℝ) :
    Inter.segTriangleSeg (a.transform m) (b.transform m) tol =
      Inter.moveRes m (Inter.segTriangleSeg a b tol) := by
  have h := Inter.lineTriangleSeg_rot hm h0 ⟨a.v0, a.toUnitVector⟩ b tol
  simp only [Line.transform, V3.transform] at h
  have hv : (a.transform m).v0 = m.apply a.v0 := rfl
  simp only [Inter.segTriangleSeg, Segment.toUnitVector_move hm, hv, h]
  rcases Inter.lineTriangleSeg ⟨a.v0, a.toUnitVector⟩ b tol with (_ | s) | _ | _
  · rfl
  · exact Inter.segSegSeg_move hm a s tol
  · rfl
  · rfl

theorem Inter.diskDiskSeg_rot (a b : Disk ℝ) (tol : ℝ) :
    Inter.diskDiskSeg (a.transform m) (b.transform m) tol =
      Inter.moveRes m (Inter.diskDiskSeg a b tol) := by
  simp only [Inter.diskDiskSeg, Disk.layingPlane_move, Inter.planePlane_rot hm h0]
  rcases Inter.planePlane a.layingPlane b.layingPlane tol with _ | l
  · rfl
  · simp only [Option.map_some, Inter.lineDisk_move hm]
    rcases Inter.lineDisk l a tol with _ | s <;> rcases Inter.lineDisk l b tol with _ | t <;> try rfl
    exact Inter.segSegSeg_move hm s t tol

omit hm h0 in
theorem Inter.outMove_point (o : Option (V3 ℝ)) :
    Inter.out .point (o.map m.apply) = (Inter.out .point o).transform m := by cases o <;> rfl
omit hm h0 in
theorem Inter.outMove_line (o : Option (Line ℝ)) :
    Inter.out .line (o.map (Line.transform · m)) = (Inter.out .line o).transform m := by cases o <;> rfl
omit hm h0 in
theorem Inter.outMove_ray (o : Option (Ray ℝ)) :
    Inter.out .ray (o.map (Ray.transform · m)) = (Inter.out .ray o).transform m := by cases o <;> rfl
omit hm h0 in
theorem Inter.outMove_plane (o : Option (Plane ℝ)) :
    Inter.out .plane (o.map (Plane.transform · m)) = (Inter.out .plane o).transform m := by cases o <;> rfl
omit hm h0 in
theorem Inter.outMove_segment (o : Option (Segment ℝ)) :
    Inter.out .segment (o.map (Segment.transform · m)) = (Inter.out .segment o).transform m := by
  cases o <;> rfl
omit hm h0 in
theorem Inter.outMove_triangle (o : Option (Triangle ℝ)) :
    Inter.out .triangle (o.map (Triangle.transform · m)) = (Inter.out .triangle o).transform m := by
  cases o <;> rfl
omit hm h0 in
theorem Inter.outMove_disk (o : Option (Disk ℝ)) :
    Inter.out .disk (o.map (Disk.transform · m)) = (Inter.out .disk o).transform m := by cases o <;> rfl
omit hm h0 in
theorem Inter.outMove_res (r : Res (Option (Segment ℝ))) :
    (do let s ← Inter.moveRes m r; Res.ok (Inter.out .segment s)) =
      (do let x ← (do let s ← r; Res.ok (Inter.out .segment s)); Res.ok (Entity.transform m x)) := by
  rcases r with (_ | s) | _ | _ <;> rfl

theorem Inter.punctual_rot (a b : Entity ℝ) (tol : ℝ) :
    Inter.punctual (a.transform m) (b.transform m) tol =
      (do let x ← Inter.punctual a b tol; return x.transform m) := by
  cases a <;> cases b <;>
    simp only [Entity.transform.eq_1, Entity.transform.eq_2, Entity.transform.eq_3, Entity.transform.eq_4,
      Entity.transform.eq_5, Entity.transform.eq_6, Entity.transform.eq_7, Entity.transform.eq_8,
      Entity.transform.eq_9, Inter.punctual, Inter.pointPoint_rot hm h0, Inter.pointLine_move hm,
      Inter.pointRay_move hm, Inter.pointPlane_move hm, Inter.pointSegment_move hm,
      Inter.pointTriangle_move hm, Inter.pointDisk_move hm, Inter.outMove_point, Res.bind_ok,
      Res.bind_throw, Res.pure_eq]

omit h0 in
theorem Inter.onLine_rot (a b : Entity ℝ) (tol : ℝ) :
    Inter.onLine (a.transform m) (b.transform m) tol =
      (do let x ← Inter.onLine a b tol; return x.transform m) := by
  cases a <;> cases b <;>
    simp only [Entity.transform.eq_1, Entity.transform.eq_2, Entity.transform.eq_3, Entity.transform.eq_4,
      Entity.transform.eq_5, Entity.transform.eq_6, Entity.transform.eq_7, Entity.transform.eq_8,
      Entity.transform.eq_9, Inter.onLine, Inter.lineLineLine_move hm, Inter.lineRayRay_move hm,
      Inter.lineSegSeg_move hm, Inter.rayRayRay_move hm, Inter.rayRaySegment_move hm,
      Inter.raySegSeg_move hm, Inter.segSegSeg_move hm, Inter.outMove_line, Inter.outMove_ray, Inter.outMove_segment,
      Inter.outMove_res, Res.bind_ok, Res.bind_throw, Res.pure_eq]
  rename_i r r'
  rcases Inter.rayRayRay r r' tol with _ | x <;> rcases Inter.rayRaySegment r r' tol with _ | y <;> rfl

theorem Inter.onPlane_rot (a b : Entity ℝ) (tol : ℝ) :
    Inter.onPlane (a.transform m) (b.transform m) tol =
      (do let x ← Inter.onPlane a b tol; return x.transform m) := by
  cases a <;> cases b <;>
    simp only [Entity.transform.eq_1, Entity.transform.eq_2, Entity.transform.eq_3, Entity.transform.eq_4,
      Entity.transform.eq_5, Entity.transform.eq_6, Entity.transform.eq_7, Entity.transform.eq_8,
      Entity.transform.eq_9, Inter.onPlane, Inter.lineLine_move hm, Inter.lineRay_move hm,
      Inter.linePlaneLine_move hm, Inter.lineSegment_move hm, Inter.lineTriangleSeg_rot hm h0,
      Inter.lineDisk_move hm, Inter.rayRay_move hm, Inter.rayPlaneRay_move hm, Inter.raySeg_move hm,
      Inter.rayTriangleSeg_rot hm h0, Inter.rayDiskSeg_move hm, Inter.planePlanePlane_move hm,
      Inter.planeSegSeg_move hm, Inter.planeTriTri_move hm, Inter.planeDiskDisk_move hm,
      Inter.segSeg_move hm, Inter.segTriangleSeg_rot hm h0, Inter.segmentDisk_move hm,
      Inter.planeTriangle_rot hm h0, Inter.triTriNone_rot hm h0,
      Inter.outMove_point, Inter.outMove_line, Inter.outMove_ray, Inter.outMove_plane, Inter.outMove_segment, Inter.outMove_disk,
      Inter.outMove_triangle, Inter.outMove_res, Res.bind_ok, Res.bind_throw, Res.pure_eq]
  rename_i t t'
  rcases Inter.triTriNone t t' tol with _ | _ | _ <;> rfl

theorem Inter.general_rot (a b : Entity ℝ) (tol : ℝ) :
    Inter.general (a.transform m) (b.transform m) tol =
      (do let x ← Inter.general a b tol; return x.transform m) := by
  cases a <;> cases b <;>
    simp only [Entity.transform.eq_1, Entity.transform.eq_2, Entity.transform.eq_3, Entity.transform.eq_4,
      Entity.transform.eq_5, Entity.transform.eq_6, Entity.transform.eq_7, Entity.transform.eq_8,
      Entity.transform.eq_9, Inter.general, Inter.lineLine_move hm, Inter.lineRay_move hm,
      Inter.linePlane_move hm, Inter.lineSegment_move hm, Inter.lineTriangle_move hm,
      Inter.lineDiskPoint_move hm, Inter.lineBall_move hm, Inter.rayRay_move hm, Inter.rayPlane_move hm,
      Inter.raySeg_move hm, Inter.rayTriangle_move hm, Inter.rayDiskPoint_move hm, Inter.rayBall_move hm,
      Inter.planePlane_rot hm h0, Inter.planeSeg_move hm, Inter.planeTriangle_rot hm h0,
      Inter.planeBall_move hm, Inter.segSeg_move hm, Inter.segTriangle_move hm,
      Inter.segDiskPoint_move hm, Inter.segBall_move hm, Inter.triTriSeg_rot hm h0,
      Inter.triangleDisk_rot hm h0, Inter.planeDisk_rot hm h0, Inter.diskDiskSeg_rot hm h0,
      Inter.outMove_point, Inter.outMove_line, Inter.outMove_segment, Inter.outMove_disk,
      Inter.outMove_res, Res.bind_ok, Res.bind_throw, Res.bind_ub, Res.pure_eq]

/-- **C82.** Rotating both entities about the origin of the axes rotates the outcome of `Intersection`,
whatever the entities and the tolerance: the same kind of entity, an exception or undefined behaviour
exactly when before, and the coordinates of the result rotated. -/
theorem C82_rotation (a b : Entity ℝ) (tol : ℝ) :
    Inter.entity (a.transform m) (b.transform m) tol =
      (do let x ← Inter.entity a b tol; return x.transform m) := by
  have hp (e : Entity ℝ) : (e.transform m).isPoint = e.isPoint := by cases e <;> rfl
  have hr := C82_relations m hm a b Scalar.eps
  simp only [Inter.entity, hp, hr.2.2.1, hr.2.2.2]
  split
  · exact Inter.punctual_rot hm h0 a b tol
  split
  · exact Inter.onLine_rot hm a b tol
  split
  · exact Inter.onPlane_rot hm h0 a b tol
  · exact Inter.general_rot hm h0 a b tol

end rotation

end Enve
