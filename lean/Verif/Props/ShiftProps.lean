import Verif.Props.EquivProps

/-! # C82, continued: motions that also shift the origin of the axes

The line in which two planes meet is described by its point nearest to the origin of the axes, so a
shift of the axes slides that point along the line.  The overloads that use the line do not notice. -/

namespace Enve
open Scalar Spec

/-- The same line with its origin moved along the direction. -/
noncomputable def Line.slide (l : Line ℝ) (s : ℝ) : Line ℝ :=
  ⟨V3.add l.origin (V3.smul s l.direction), l.direction⟩

theorem Inter.not_parallel_cross {d v : V3 ℝ} {tol : ℝ} (ht : 0 < tol)
    (h : Inter.isParallel d (V3.normalized v) tol = false) : V3.cross d v ≠ ⟨0, 0, 0⟩ := by
  intro h0
  have : V3.cross d (V3.normalized v) = ⟨0, 0, 0⟩ := by
    by_cases hv : v = ⟨0, 0, 0⟩
    · rw [V3.normalized_zero hv, h0]
    · rw [V3.normalized_of_ne hv]
      rw [V3.real_cross] at h0 ⊢
      simp only [V3.mk.injEq] at h0 ⊢
      obtain ⟨h1, h2, h3⟩ := h0
      refine ⟨?_, ?_, ?_⟩
      · rw [← mul_div_assoc, ← mul_div_assoc, ← sub_div, h1, zero_div]
      · rw [← mul_div_assoc, ← mul_div_assoc, ← sub_div, h2, zero_div]
      · rw [← mul_div_assoc, ← mul_div_assoc, ← sub_div, h3, zero_div]
  simp only [Inter.isParallel, this, Scalar.isApprox, V3.norm_eq_zero.2 rfl, real_abs, real_sub, real_zero,
    sub_self, abs_zero, real_lt, decide_eq_false_iff_not] at h
  exact h ht

theorem Inter.lineSegment_slide (l : Line ℝ) (s : Segment ℝ) (k : ℝ) {tol : ℝ} (ht : 0 < tol) :
    Inter.lineSegment (l.slide k) s tol = Inter.lineSegment l s tol := by
  have hd : (l.slide k).direction = l.direction := rfl
  have ho : (l.slide k).origin = V3.add l.origin (V3.smul k l.direction) := rfl
  simp only [Inter.lineSegment, hd]
  rcases hp : Inter.isParallel l.direction s.toUnitVector tol with _ | _
  · have hc : V3.cross l.direction s.toVector ≠ ⟨0, 0, 0⟩ := Inter.not_parallel_cross ht hp
    have hq : V3.dot (V3.cross l.direction s.toVector) (V3.cross l.direction s.toVector) ≠ 0 := by
      have := V3.sqNorm_pos.2 hc
      exact this.ne'
    have hb1 : V3.cross (V3.sub (V3.add l.origin (V3.smul k l.direction)) s.v0) l.direction =
        V3.cross (V3.sub l.origin s.v0) l.direction := by
      v3; congr 1 <;> ring
    have hb0 : V3.dot (V3.cross (V3.sub s.v0 (V3.add l.origin (V3.smul k l.direction))) s.toVector)
          (V3.cross l.direction s.toVector) =
        V3.dot (V3.cross (V3.sub s.v0 l.origin) s.toVector) (V3.cross l.direction s.toVector) -
        k * V3.dot (V3.cross l.direction s.toVector) (V3.cross l.direction s.toVector) := by
      v3; ring
    have hpt : V3.add (V3.add l.origin (V3.smul k l.direction))
          (V3.smul ((V3.dot (V3.cross (V3.sub s.v0 l.origin) s.toVector) (V3.cross l.direction s.toVector) -
            k * V3.dot (V3.cross l.direction s.toVector) (V3.cross l.direction s.toVector)) /.
            V3.dot (V3.cross l.direction s.toVector) (V3.cross l.direction s.toVector)) l.direction) =
        V3.add l.origin (V3.smul (V3.dot (V3.cross (V3.sub s.v0 l.origin) s.toVector)
          (V3.cross l.direction s.toVector) /.
            V3.dot (V3.cross l.direction s.toVector) (V3.cross l.direction s.toVector)) l.direction) := by
      rw [real_div, sub_div, mul_div_cancel_right₀ _ hq, real_div]
      generalize V3.dot (V3.cross (V3.sub s.v0 l.origin) s.toVector) (V3.cross l.direction s.toVector) /
        V3.dot (V3.cross l.direction s.toVector) (V3.cross l.direction s.toVector) = t
      v3; congr 1 <;> ring
    simp only [ho, hb0, hb1, hpt]
  · rfl

theorem Inter.lineDisk_slide (l : Line ℝ) (d : Disk ℝ) (k tol : ℝ) :
    Inter.lineDisk (l.slide k) d tol = Inter.lineDisk l d tol := by
  by_cases h0 : l.direction = ⟨0, 0, 0⟩
  · have : l.slide k = l := by
      rcases l with ⟨o, u⟩
      obtain rfl : u = _ := h0
      simp [Line.slide, V3.real_add, V3.real_smul]
    rw [this]
  have hq : V3.dot l.direction l.direction ≠ 0 := (V3.sqNorm_pos.2 h0).ne'
  have hd : (l.slide k).direction = l.direction := rfl
  have ho : (l.slide k).origin = V3.add l.origin (V3.smul k l.direction) := rfl
  have h1 : V3.dot (V3.sub (V3.add l.origin (V3.smul k l.direction)) d.center) l.direction =
      V3.dot (V3.sub l.origin d.center) l.direction + k * V3.dot l.direction l.direction := by v3; ring
  have h2 : V3.dot (V3.sub (V3.add l.origin (V3.smul k l.direction)) d.center)
        (V3.sub (V3.add l.origin (V3.smul k l.direction)) d.center) =
      V3.dot (V3.sub l.origin d.center) (V3.sub l.origin d.center) +
        2 * k * V3.dot (V3.sub l.origin d.center) l.direction +
        k ^ 2 * V3.dot l.direction l.direction := by v3; ring
  have hpt (x : ℝ) : V3.sub (V3.add l.origin (V3.smul k l.direction))
        (V3.smul ((V3.dot (V3.sub l.origin d.center) l.direction + k * V3.dot l.direction l.direction + x) *
          (1 / V3.dot l.direction l.direction)) l.direction) =
      V3.sub l.origin (V3.smul ((V3.dot (V3.sub l.origin d.center) l.direction + x) *
          (1 / V3.dot l.direction l.direction)) l.direction) := by
    have : (V3.dot (V3.sub l.origin d.center) l.direction + k * V3.dot l.direction l.direction + x) *
          (1 / V3.dot l.direction l.direction) =
        (V3.dot (V3.sub l.origin d.center) l.direction + x) * (1 / V3.dot l.direction l.direction) + k := by
      field_simp; ring
    rw [this]
    generalize (V3.dot (V3.sub l.origin d.center) l.direction + x) * (1 / V3.dot l.direction l.direction) = t
    v3; congr 1 <;> ring
  have hpt0 := hpt 0
  simp only [add_zero] at hpt0
  have hptm (x : ℝ) := hpt (-x)
  simp only [← sub_eq_add_neg] at hptm
  have hdisc : (V3.dot (V3.sub l.origin d.center) l.direction + k * V3.dot l.direction l.direction) *
        (V3.dot (V3.sub l.origin d.center) l.direction + k * V3.dot l.direction l.direction) -
        (V3.dot (V3.sub l.origin d.center) (V3.sub l.origin d.center) +
        2 * k * V3.dot (V3.sub l.origin d.center) l.direction +
        k ^ 2 * V3.dot l.direction l.direction - d.radius * d.radius) * V3.dot l.direction l.direction =
      V3.dot (V3.sub l.origin d.center) l.direction * V3.dot (V3.sub l.origin d.center) l.direction -
        (V3.dot (V3.sub l.origin d.center) (V3.sub l.origin d.center) - d.radius * d.radius) *
          V3.dot l.direction l.direction := by ring
  simp only [Inter.lineDisk, hd, ho, h1, h2, real_add, real_sub, real_mul, real_div, real_one, hdisc, hpt,
    hpt0, hptm]

/-- Two planes with unit normals: the motion moves their common line, up to sliding its origin. -/
theorem Inter.planePlane_slide {m : Affine ℝ} (hm : IsRigid m) (a b : Plane ℝ) (ha : Unit3 a.normal)
    (hb : Unit3 b.normal) {tol : ℝ} (ht : 0 < tol) :
    ∃ k, Inter.planePlane (a.transform m) (b.transform m) tol =
      (Inter.planePlane a b tol).map (fun l => (l.transform m).slide k) := by
  have hn (p : Plane ℝ) : (p.transform m).normal = M3.mulVec m.linear p.normal := rfl
  have ha' : V3.normalized a.normal = a.normal := V3.normalized_unit ha
  have hb' : V3.normalized b.normal = b.normal := V3.normalized_unit hb
  have hd (p : Plane ℝ) : (p.transform m).d = p.d - V3.dot m.trans (M3.mulVec m.linear p.normal) := by
    have e : (p.transform m).origin = V3.add (M3.mulVec m.linear p.origin) m.trans := by
      simp only [Plane.transform, Affine.apply, V3.real_add]
    have e2 : V3.dot (V3.add (M3.mulVec m.linear p.origin) m.trans) (M3.mulVec m.linear p.normal) =
        V3.dot (M3.mulVec m.linear p.origin) (M3.mulVec m.linear p.normal) +
        V3.dot m.trans (M3.mulVec m.linear p.normal) := by
      simp only [V3.real_dot, V3.real_add]; ring
    simp only [Plane.d, e, hn, e2, hm.dotV, real_neg]
    ring
  simp only [Inter.planePlane, hn, hm.normalizedV, ha', hb', hd, hm.dotV, hm.crossV, hm.norm_mulVec,
    Inter.if_cond, Inter.map_cond, Option.map_some, Option.map_none]
  rcases hc : Scalar.isApprox (V3.norm (V3.cross a.normal b.normal) *.
    V3.norm (V3.cross a.normal b.normal)) zero tol with _ | _
  · simp only [cond_false]
    have hne : V3.cross a.normal b.normal ≠ ⟨0, 0, 0⟩ := by
      intro h0
      rw [h0, V3.norm_eq_zero.2 rfl] at hc
      simp only [Scalar.isApprox, real_mul, mul_zero, real_abs, real_sub, real_zero, sub_self, abs_zero,
        real_lt, decide_eq_false_iff_not] at hc
      exact hc ht
    have hgen (u v t : V3 ℝ) (hu : V3.dot u u = 1) (hv : V3.dot v v = 1) :
        V3.smul (1 - V3.dot u v * V3.dot u v) t =
        V3.add (V3.add (V3.smul (V3.dot t u - V3.dot u v * V3.dot t v) u)
          (V3.smul (V3.dot t v - V3.dot u v * V3.dot t u) v))
          (V3.smul (V3.dot t (V3.cross u v)) (V3.cross u v)) := by
      simp only [V3.real_dot] at hu hv
      v3
      have hw : (u.x * u.x + u.y * u.y + u.z * u.z) * (v.x * v.x + v.y * v.y + v.z * v.z) = 1 := by
        rw [hu, hv, one_mul]
      congr 1
      · linear_combination t.x * hw * (-1) + (t.x * u.x + t.y * u.y + t.z * u.z) * u.x * hv +
          (t.x * v.x + t.y * v.y + t.z * v.z) * v.x * hu
      · linear_combination t.y * hw * (-1) + (t.x * u.x + t.y * u.y + t.z * u.z) * u.y * hv +
          (t.x * v.x + t.y * v.y + t.z * v.z) * v.y * hu
      · linear_combination t.z * hw * (-1) + (t.x * u.x + t.y * u.y + t.z * u.z) * u.z * hv +
          (t.x * v.x + t.y * v.y + t.z * v.z) * v.z * hu
    have hu : V3.dot a.normal a.normal = 1 := by
      have := ha; unfold Unit3 at this; simp only [V3.real_dot]; linear_combination this
    have hv : V3.dot b.normal b.normal = 1 := by
      have := hb; unfold Unit3 at this; simp only [V3.real_dot]; linear_combination this
    have hw : 1 - V3.dot a.normal b.normal * V3.dot a.normal b.normal ≠ 0 := by
      have h1 := V3.sqNorm_pos.2 hne
      have h2 : V3.sqNorm (V3.cross a.normal b.normal) =
          V3.dot a.normal a.normal * V3.dot b.normal b.normal -
          V3.dot a.normal b.normal * V3.dot a.normal b.normal := by
        rw [V3.real_sqNorm]; v3; ring
      rw [hu, hv, one_mul] at h2
      rw [← h2]; exact h1.ne'
    have key := hgen (M3.mulVec m.linear a.normal) (M3.mulVec m.linear b.normal) m.trans
      (by rw [hm.dotV, hu]) (by rw [hm.dotV, hv])
    rw [hm.dotV, hm.crossV] at key
    refine ⟨-(V3.dot m.trans (M3.mulVec m.linear (V3.cross a.normal b.normal)) *
      (1 / (1 - V3.dot a.normal b.normal * V3.dot a.normal b.normal))), ?_⟩
    have hap (x y : V3 ℝ) (c d : ℝ) : m.apply (V3.add (V3.smul c x) (V3.smul d y)) =
        V3.add (V3.add (V3.smul c (M3.mulVec m.linear x)) (V3.smul d (M3.mulVec m.linear y))) m.trans := by
      simp only [Affine.apply, ← M3.mulVec_smul, ← M3.mulVec_add]
    simp only [Line.slide, Line.transform, V3.transform, hap]
    generalize hK : V3.dot a.normal b.normal = K at hw key ⊢
    generalize M3.mulVec m.linear (V3.cross a.normal b.normal) = D at key ⊢
    generalize M3.mulVec m.linear a.normal = U at key ⊢
    generalize M3.mulVec m.linear b.normal = V at key ⊢
    generalize m.trans = t at key ⊢
    simp only [real_sub, real_mul, real_one, real_div, real_neg]
    have hW : (1 - K * K) * (1 / (1 - K * K)) = 1 := mul_one_div_cancel hw
    generalize 1 / (1 - K * K) = w at hW ⊢
    generalize V3.dot t U = tu at key ⊢
    generalize V3.dot t V = tv at key ⊢
    generalize V3.dot t D = td at key ⊢
    simp only [V3.real_add, V3.real_smul, V3.mk.injEq] at key
    obtain ⟨kx, ky, kz⟩ := key
    simp only [V3.real_add, V3.real_smul, Option.some.injEq, Line.mk.injEq, V3.mk.injEq, and_true]
    refine ⟨?_, ?_, ?_⟩
    · linear_combination (-w) * kx + t.x * hW
    · linear_combination (-w) * ky + t.y * hW
    · linear_combination (-w) * kz + t.z * hW
  · exact ⟨0, rfl⟩

section rigid
variable {m : Affine ℝ} (hm : IsRigid m) {tol : ℝ} (ht : 0 < tol)
include hm ht

theorem Inter.planeDisk_move (a : Plane ℝ) (b : Disk ℝ) (ha : Unit3 a.normal)
    (hb : Unit3 b.plane.normal) :
    Inter.planeDisk (a.transform m) (b.transform m) tol =
      (Inter.planeDisk a b tol).map (Segment.transform · m) := by
  obtain ⟨k, hk⟩ := Inter.planePlane_slide hm a b.layingPlane ha hb ht
  simp only [Inter.planeDisk, Disk.layingPlane_move, hk]
  rcases Inter.planePlane a b.layingPlane tol with _ | l
  · rfl
  · simp only [Option.map_some, Inter.lineDisk_slide, Inter.lineDisk_move hm]

theorem Inter.diskDiskSeg_move (a b : Disk ℝ) (ha : Unit3 a.plane.normal) (hb : Unit3 b.plane.normal) :
    Inter.diskDiskSeg (a.transform m) (b.transform m) tol =
      Inter.moveRes m (Inter.diskDiskSeg a b tol) := by
  obtain ⟨k, hk⟩ := Inter.planePlane_slide hm a.layingPlane b.layingPlane ha hb ht
  simp only [Inter.diskDiskSeg, Disk.layingPlane_move, hk]
  rcases Inter.planePlane a.layingPlane b.layingPlane tol with _ | l
  · rfl
  · simp only [Option.map_some, Inter.lineDisk_slide, Inter.lineDisk_move hm]
    rcases Inter.lineDisk l a tol with _ | s <;> rcases Inter.lineDisk l b tol with _ | t <;> try rfl
    exact Inter.segSegSeg_move hm s t tol

omit hm ht in
/-- The line misses one of the edges of the triangle: it does not run through a corner. -/
def Inter.Clear (l : Line ℝ) (t : Triangle ℝ) (tol : ℝ) : Prop :=
  Inter.lineSegment l t.edge0 tol = none ∨ Inter.lineSegment l t.edge1 tol = none ∨
    Inter.lineSegment l t.edge2 tol = none

omit ht in
theorem Inter.lineTriangleSeg_move (a : Line ℝ) (b : Triangle ℝ) (hc : Inter.Clear a b tol) :
    Inter.lineTriangleSeg (a.transform m) (b.transform m) tol =
      Inter.moveRes m (Inter.lineTriangleSeg a b tol) := by
  have e0 : (b.transform m).edge0 = b.edge0.transform m := rfl
  have e1 : (b.transform m).edge1 = b.edge1.transform m := rfl
  have e2 : (b.transform m).edge2 = b.edge2.transform m := rfl
  simp only [Inter.lineTriangleSeg, e0, e1, e2, Inter.lineSegment_move hm]
  rcases hc with h | h | h
  · rw [h]
    rcases Inter.lineSegment a b.edge1 tol with _ | p1 <;>
      rcases Inter.lineSegment a b.edge2 tol with _ | p2 <;> rfl
  · rw [h]
    rcases Inter.lineSegment a b.edge0 tol with _ | p1 <;>
      rcases Inter.lineSegment a b.edge2 tol with _ | p2 <;> rfl
  · rw [h]
    rcases Inter.lineSegment a b.edge0 tol with _ | p1 <;>
      rcases Inter.lineSegment a b.edge1 tol with _ | p2 <;> rfl

omit hm in
theorem Inter.lineTriangleSeg_slide (a : Line ℝ) (b : Triangle ℝ) (k : ℝ) :
    Inter.lineTriangleSeg (a.slide k) b tol = Inter.lineTriangleSeg a b tol := by
  simp only [Inter.lineTriangleSeg, Inter.lineSegment_slide _ _ _ ht]

theorem Inter.planeTriangle_move (a : Plane ℝ) (b : Triangle ℝ) (ha : Unit3 a.normal)
    (hb : Unit3 b.normal)
    (hc : ∀ l, Inter.planePlane a b.layingPlane tol = some l → Inter.Clear l b tol) :
    Inter.planeTriangle (a.transform m) (b.transform m) tol =
      Inter.moveRes m (Inter.planeTriangle a b tol) := by
  obtain ⟨k, hk⟩ := Inter.planePlane_slide hm a b.layingPlane ha hb ht
  simp only [Inter.planeTriangle, Triangle.layingPlane_move hm, hk]
  rcases h : Inter.planePlane a b.layingPlane tol with _ | l
  · rfl
  · simp only [Option.map_some, Inter.lineTriangleSeg_slide ht, Inter.lineTriangleSeg_move hm l b (hc l h)]

theorem Inter.triangleDisk_move (a : Triangle ℝ) (b : Disk ℝ) (ha : Unit3 a.normal)
    (hb : Unit3 b.plane.normal)
    (hc : ∀ l, Inter.planePlane b.layingPlane a.layingPlane tol = some l → Inter.Clear l a tol) :
    Inter.triangleDisk (a.transform m) (b.transform m) tol =
      Inter.moveRes m (Inter.triangleDisk a b tol) := by
  simp only [Inter.triangleDisk, Disk.layingPlane_move]
  rw [Inter.planeTriangle_move hm ht b.layingPlane a hb ha hc]
  rcases Inter.planeTriangle b.layingPlane a tol with (_ | s) | _ | _
  · rfl
  · simp only [Inter.moveRes, Option.map_some, Res.bind_ok, Res.pure_eq, Inter.segmentDisk_move hm]
  · rfl
  · rfl

end rigid

/-- The pairs whose result follows every rigid motion.  Two points are compared relatively to their
distance from the origin of the axes, and so are the crossings with the edges of a triangle; the line
common to two planes is represented by its point nearest to the origin. -/
def Spec.FrameFree : Entity ℝ → Entity ℝ → Prop
  | .point _, .point _ => False
  | .plane _, .plane _ => False
  | .plane p, .disk d => Unit3 p.normal ∧ Unit3 d.plane.normal
  | .disk d, .plane p => Unit3 p.normal ∧ Unit3 d.plane.normal
  | .disk d, .disk e => Unit3 d.plane.normal ∧ Unit3 e.plane.normal
  | .triangle _, .none => True
  | .triangle _, .point _ => True
  | .triangle _, .ball _ => True
  | .triangle _, _ => False
  | .none, .triangle _ => True
  | .point _, .triangle _ => True
  | .ball _, .triangle _ => True
  | _, .triangle _ => False
  | _, _ => True

/-- **C82.** Moving both entities by the same rigid motion, shift of the axes included, moves the outcome
of `Intersection` in the same way, for every pair listed in `Spec.FrameFree` and every positive tolerance.
Missing: two points, two planes and pairs with a triangle (see the other theorems). -/
theorem C82_rigid_partial {m : Affine ℝ} (hm : IsRigid m) (a b : Entity ℝ) (hf : FrameFree a b) {tol : ℝ}
    (ht : 0 < tol) :
    Inter.entity (a.transform m) (b.transform m) tol =
      (do let x ← Inter.entity a b tol; return x.transform m) := by
  have hp (e : Entity ℝ) : (e.transform m).isPoint = e.isPoint := by cases e <;> rfl
  have hr := C82_relations m hm a b Scalar.eps
  simp only [Inter.entity, hp, hr.2.2.1, hr.2.2.2]
  split
  · cases a <;> cases b <;> simp only [FrameFree] at hf <;>
      simp only [Entity.transform.eq_1, Entity.transform.eq_2, Entity.transform.eq_3, Entity.transform.eq_4,
        Entity.transform.eq_5, Entity.transform.eq_6, Entity.transform.eq_7, Entity.transform.eq_8,
        Entity.transform.eq_9, Inter.punctual, Inter.pointLine_move hm,
        Inter.pointRay_move hm, Inter.pointPlane_move hm, Inter.pointSegment_move hm,
        Inter.pointTriangle_move hm, Inter.pointDisk_move hm, Inter.outMove_point, Res.bind_ok,
        Res.bind_throw, Res.pure_eq]
  split
  · exact Inter.onLine_rot hm a b tol
  split
  · cases a <;> cases b <;> simp only [FrameFree] at hf <;>
      simp only [Entity.transform.eq_1, Entity.transform.eq_2, Entity.transform.eq_3, Entity.transform.eq_4,
        Entity.transform.eq_5, Entity.transform.eq_6, Entity.transform.eq_7, Entity.transform.eq_8,
        Entity.transform.eq_9, Inter.onPlane, Inter.lineLine_move hm, Inter.lineRay_move hm,
        Inter.linePlaneLine_move hm, Inter.lineSegment_move hm,
        Inter.lineDisk_move hm, Inter.rayRay_move hm, Inter.rayPlaneRay_move hm, Inter.raySeg_move hm,
        Inter.rayDiskSeg_move hm,
        Inter.planeSegSeg_move hm, Inter.planeDiskDisk_move hm,
        Inter.segSeg_move hm, Inter.segmentDisk_move hm,
        Inter.outMove_point, Inter.outMove_line, Inter.outMove_ray,
        Inter.outMove_segment, Inter.outMove_disk, Res.bind_ok, Res.bind_throw, Res.pure_eq]
  · cases a <;> cases b <;> simp only [FrameFree] at hf <;>
      simp only [Entity.transform.eq_1, Entity.transform.eq_2, Entity.transform.eq_3, Entity.transform.eq_4,
        Entity.transform.eq_5, Entity.transform.eq_6, Entity.transform.eq_7, Entity.transform.eq_8,
        Entity.transform.eq_9, Inter.general, Inter.lineLine_move hm, Inter.lineRay_move hm,
        Inter.linePlane_move hm, Inter.lineSegment_move hm,
        Inter.lineDiskPoint_move hm, Inter.lineBall_move hm, Inter.rayRay_move hm, Inter.rayPlane_move hm,
        Inter.raySeg_move hm, Inter.rayDiskPoint_move hm, Inter.rayBall_move hm,
        Inter.planeSeg_move hm, Inter.planeBall_move hm, Inter.segSeg_move hm,
        Inter.segDiskPoint_move hm, Inter.segBall_move hm,
        Inter.outMove_point, Inter.outMove_segment, Inter.outMove_disk, Res.bind_ok, Res.bind_throw, Res.bind_ub, Res.pure_eq]
    · rw [Inter.planeDisk_move hm ht _ _ hf.1 hf.2, Inter.outMove_segment]
    · rw [Inter.diskDiskSeg_move hm ht _ _ hf.1 hf.2, Inter.outMove_res]

/-- **C82.** Two planes that are not coplanar: the common line is moved as a set of points. -/
theorem C82_planes {m : Affine ℝ} (hm : IsRigid m) (a b : Plane ℝ) (ha : Unit3 a.normal)
    (hb : Unit3 b.normal) {tol : ℝ} (ht : 0 < tol) :
    (∀ l, Inter.planePlane a b tol = some l → ∃ l', Inter.planePlane (a.transform m) (b.transform m) tol =
      some l' ∧ ∀ p, Has (.line l') (m.apply p) ↔ Has (.line l) p) ∧
    (Inter.planePlane a b tol = none → Inter.planePlane (a.transform m) (b.transform m) tol = none) := by
  obtain ⟨k, hk⟩ := Inter.planePlane_slide hm a b ha hb ht
  constructor
  · intro l hl
    rw [hl] at hk
    refine ⟨_, hk, fun p => ?_⟩
    rw [← C79_transform m hm (.line l) p]
    simp only [Has, Entity.transform, Line.slide, V3.real_add, V3.real_smul]
    generalize (l.transform m) = n
    constructor
    · rintro ⟨t, h⟩
      refine ⟨k + t, ?_⟩
      rw [h]; simp only [along]; congr 1 <;> ring
    · rintro ⟨t, h⟩
      refine ⟨t - k, ?_⟩
      rw [h]; simp only [along]; congr 1 <;> ring
  · intro hl
    rw [hl] at hk
    exact hk

/-- **C82.** A triangle and a disk, the pair from which the contact of a tyre is computed: the result
follows every rigid motion as long as the line in which the two planes meet does not run through a corner
of the triangle. -/
theorem C82_triangle_disk_partial {m : Affine ℝ} (hm : IsRigid m) (t : Triangle ℝ) (d : Disk ℝ)
    (hpt : Proper (.triangle t)) (hpd : Proper (.disk d)) {tol : ℝ} (ht : 0 < tol)
    (hc : ∀ l, Inter.planePlane d.layingPlane t.layingPlane tol = some l →
      Inter.lineSegment l t.edge0 tol = none ∨ Inter.lineSegment l t.edge1 tol = none ∨
      Inter.lineSegment l t.edge2 tol = none) :
    Inter.triangleDisk (t.transform m) (d.transform m) tol =
      (do let s ← Inter.triangleDisk t d tol; return s.map (Segment.transform · m)) := by
  have hn : Unit3 t.normal := by
    have : V3.cross (V3.sub t.v1 t.v0) (V3.sub t.v2 t.v0) ≠ ⟨0, 0, 0⟩ := hpt
    exact V3.sq_normalized this
  rw [Inter.triangleDisk_move hm ht t d hn hpd.1 hc]
  rcases Inter.triangleDisk t d tol with _ | _ | _ <;> rfl

/-- **C82 fails for two points.** `Intersection` finds two points to be the same or not depending on
where the origin of the axes is. -/
theorem C82_translation_refuted :
    ∃ (m : Affine ℝ) (p q : V3 ℝ) (tol : ℝ), IsRigid m ∧ 0 < tol ∧ tol < 1 ∧
      Inter.entity (.point p) (.point q) tol = .ok .none ∧
      Inter.entity ((Entity.point p).transform m) ((Entity.point q).transform m) tol =
        .ok (.point (m.apply p)) := by
  refine ⟨⟨M3.id, ⟨10, 0, 0⟩⟩, ⟨0, 0, 0⟩, ⟨1, 0, 0⟩, 1 / 2, ?_, by norm_num, by norm_num, ?_, ?_⟩
  · constructor <;> simp [M3.id, V3.ex, V3.ey, V3.ez]
  · simp [Inter.entity, Entity.isPoint, Inter.punctual, Inter.pointPoint, V3.isApprox, V3.real_sqNorm,
      V3.real_sub, Inter.out, show ¬ (1 : ℝ) ≤ 0 by norm_num]
  · simp [Inter.entity, Entity.isPoint, Entity.transform, Inter.punctual, Inter.pointPoint, V3.isApprox,
      V3.real_sqNorm, V3.real_sub, Inter.out, Affine.apply, M3.mulVec, M3.id, V3.ex, V3.ey, V3.ez, V3.real_add]
    norm_num

/-! ## The hypotheses can be met -/

/-- A quarter turn about the vertical axis. -/
example : ∃ m : Affine ℝ, IsRigid m ∧ m.trans = ⟨0, 0, 0⟩ ∧ m.apply ⟨1, 0, 0⟩ = ⟨0, 1, 0⟩ := by
  refine ⟨⟨⟨⟨0, 1, 0⟩, ⟨-1, 0, 0⟩, ⟨0, 0, 1⟩⟩, ⟨0, 0, 0⟩⟩, ?_, rfl, ?_⟩
  · constructor <;> norm_num
  · simp [Affine.apply, M3.mulVec, V3.real_add]

/-- A line that pierces a plane, seen from axes that are turned and shifted: `C82_rigid_partial` applies. -/
example : ∃ m : Affine ℝ, IsRigid m ∧ m.trans ≠ ⟨0, 0, 0⟩ ∧
    FrameFree (.line ⟨⟨0, 0, 1⟩, ⟨0, 0, 1⟩⟩) (.plane ⟨⟨0, 0, 0⟩, ⟨0, 0, 1⟩⟩) ∧
    Inter.linePlane (⟨⟨0, 0, 1⟩, ⟨0, 0, 1⟩⟩ : Line ℝ) ⟨⟨0, 0, 0⟩, ⟨0, 0, 1⟩⟩ (1 / 2) = some ⟨0, 0, 0⟩ := by
  refine ⟨⟨⟨⟨0, 1, 0⟩, ⟨-1, 0, 0⟩, ⟨0, 0, 1⟩⟩, ⟨1, 2, 3⟩⟩, ?_, by simp, trivial, ?_⟩
  · constructor <;> norm_num
  · simp [Inter.linePlane, V3.real_dot, V3.real_sub, V3.real_add, V3.real_smul]
    norm_num

/-- A triangle of the ground and an upright disk: `C82_triangle_disk_partial` applies. -/
example : let t : Triangle ℝ := ⟨⟨-2, -1, 0⟩, ⟨2, -1, 0⟩, ⟨0, 3, 0⟩⟩
    let d : Disk ℝ := ⟨1, ⟨⟨0, 0, 1 / 2⟩, ⟨0, 1, 0⟩⟩⟩
    Proper (.triangle t) ∧ Proper (.disk d) ∧
    ∀ l, Inter.planePlane d.layingPlane t.layingPlane (1 / 100) = some l →
      Inter.lineSegment l t.edge0 (1 / 100) = none ∨ Inter.lineSegment l t.edge1 (1 / 100) = none ∨
      Inter.lineSegment l t.edge2 (1 / 100) = none := by
  intro t d
  have hn : t.normal = ⟨0, 0, 1⟩ := by
    have e : V3.cross (V3.sub t.v1 t.v0) (V3.sub t.v2 t.v0) = ⟨0 * 16, 0 * 16, 1 * 16⟩ := by
      simp only [t]; v3; norm_num
    have h1 := V3.normalized_smul (a := ⟨0, 0, 1⟩) (k := 16) (by norm_num)
    have h2 : V3.normalized (⟨0, 0, 1⟩ : V3 ℝ) = ⟨0, 0, 1⟩ := V3.normalized_unit (by norm_num)
    rw [Triangle.normal, e, ← h2, ← h1]
    norm_num
  refine ⟨?_, ⟨by simp [d, Unit3], by simp [d]⟩, ?_⟩
  · simp [t, Proper, cross3, minus]; norm_num
  · intro l hl
    left
    have hd : l.direction = ⟨1, 0, 0⟩ := by
      have hn' : (t.layingPlane).normal = ⟨0, 0, 1⟩ := hn
      have hd' : (d.layingPlane).normal = ⟨0, 1, 0⟩ := rfl
      simp only [Inter.planePlane, hn', hd'] at hl
      split at hl
      · cases hl
      · cases hl
        rw [V3.normalized_unit (by norm_num), V3.normalized_unit (by norm_num)]
        simp [V3.real_cross]
    have hu : ∃ k, t.edge0.toUnitVector = ⟨k, 0, 0⟩ := by
      refine ⟨(V3.sub t.edge0.v1 t.edge0.v0).x / V3.norm (V3.sub t.edge0.v1 t.edge0.v0), ?_⟩
      rw [Segment.toUnitVector, V3.normalized_of_ne]
      · simp [t, Triangle.edge0, V3.real_sub]
      · simp [t, Triangle.edge0, V3.real_sub]
    obtain ⟨k, hu⟩ := hu
    simp only [Inter.lineSegment, hd, hu]
    rw [if_pos]
    simp [Inter.isParallel, V3.real_cross, Scalar.isApprox, V3.norm_eq_zero.2 rfl]

end Enve
