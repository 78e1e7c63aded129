import Verif.Props.MirrorProps
import Verif.Props.SpinProps

/-! # C143: a wheel turned round stands on the same ground in the same way

A wheel has no front side.  When it is taken off, turned round by half a turn about its own vertical axis and put back, the same ribs stand
at the same places, in the opposite order. -/

namespace Enve

open Scalar Spec

/-- Half a turn about the vertical axis, in the coordinates of the wheel. -/
def Spec.halfTurn (v : V3 ℝ) : V3 ℝ := ⟨-v.x, -v.y, v.z⟩

/-- The pose of the wheel turned round by half a turn about its own vertical axis (`roundPose_apply`). -/
def Spec.roundPose (pose : Affine ℝ) : Affine ℝ :=
  ⟨⟨⟨-pose.linear.c0.x, -pose.linear.c0.y, -pose.linear.c0.z⟩, ⟨-pose.linear.c1.x, -pose.linear.c1.y, -pose.linear.c1.z⟩,
    pose.linear.c2⟩, pose.trans⟩

theorem Spec.roundPose_linear (pose : Affine ℝ) (p : V3 ℝ) :
    M3.mulVec (roundPose pose).linear p = M3.mulVec pose.linear (halfTurn p) := by
  simp only [roundPose, halfTurn, M3.mulVec, real_add, real_mul]
  congr 1 <;> ring

theorem Spec.roundPose_apply (pose : Affine ℝ) (p : V3 ℝ) : (roundPose pose).apply p = pose.apply (halfTurn p) := by
  unfold Affine.apply
  rw [roundPose_linear]; rfl

theorem Spec.roundPose_transpose (pose : Affine ℝ) (p : V3 ℝ) :
    M3.mulVec (M3.transpose (roundPose pose).linear) p = halfTurn (M3.mulVec (M3.transpose pose.linear) p) := by
  simp only [roundPose, halfTurn, M3.mulVec, M3.transpose, real_add, real_mul]
  congr 1 <;> ring

theorem Spec.halfTurn_halfTurn (v : V3 ℝ) : halfTurn (halfTurn v) = v := by simp [halfTurn]

theorem Spec.roundPose_rigid {pose : Affine ℝ} (h : IsRigid pose) : IsRigid (roundPose pose) := by
  have h0 := h.unit0
  have h1 : pose.linear.c1.x ^ 2 + pose.linear.c1.y ^ 2 + pose.linear.c1.z ^ 2 = 1 := IsRotation.unit1 h
  have h2 := h.unit2
  have h3 := h.orth01
  have h4 := h.orth02
  have h5 := h.orth12
  have h6 := h.det
  constructor <;> simp only [roundPose] <;> linarith

theorem Spec.MirrorRib.center_round {r r' : Rib ℝ} (h : MirrorRib r r') (hr : IsRib r) (hr' : IsRib r') :
    r'.center = halfTurn r.center := by
  have e : r.center = ⟨0, r.y, 0⟩ := hr.center
  have e' : r'.center = ⟨0, r'.y, 0⟩ := hr'.center
  rw [e, e', h.y]; simp [halfTurn]

theorem Spec.MirrorRib.centerGrd_round {r r' : Rib ℝ} (h : MirrorRib r r') (hr : IsRib r) (hr' : IsRib r') (pose : Affine ℝ) :
    r'.centerGrd (roundPose pose) = r.centerGrd pose := by
  unfold Rib.centerGrd
  rw [h.center_round hr hr', roundPose_linear, halfTurn_halfTurn]
  rfl

theorem Spec.MirrorRib.noContact_round {r r' : Rib ℝ} (h : MirrorRib r r') (hr : IsRib r) (hr' : IsRib r') (pose : Affine ℝ) :
    r'.noContact (roundPose pose) = r.noContact pose := by
  have hz : V3.sub (halfTurn r.center) (V3.smul r.radius (V3.ez : V3 ℝ)) =
      halfTurn (V3.sub r.center (V3.smul r.radius V3.ez)) := by
    simp [halfTurn, V3.real_smul, V3.real_sub, V3.ez]
  have hz' : halfTurn (V3.ez : V3 ℝ) = V3.ez := by simp [halfTurn, V3.ez]
  unfold Rib.noContact
  simp only [Output.mk.injEq, and_true]
  constructor
  · rw [h.center_round hr hr', h.radius, hz, roundPose_linear, halfTurn_halfTurn]
    rfl
  · rw [roundPose_linear, hz']

/-! ## One rib -/

/-- **C143, one rib, geometric method on flat ground.** -/
theorem C143_geometric_flat {r r' : Rib ℝ} (hr : IsRib r) (hr' : IsRib r') (h : MirrorRib r r') {pose : Affine ℝ}
    (hp : IsRigid pose) {f : ℝ} {o n : V3 ℝ} {g : Flat ℝ} (hg : Flat.make f o n = .ok g) :
    r'.envelopGeometricFlat g (roundPose pose) = r.envelopGeometricFlat g pose := by
  have hn := Flat.make_unit hg
  have hcen : ribCentre (roundPose pose) r' = ribCentre pose r := by
    unfold ribCentre
    rw [h.center_round hr hr', roundPose_apply, halfTurn_halfTurn]
  have hS : sinSq g.plane.normal (roundPose pose).linear.c1 = sinSq g.plane.normal pose.linear.c1 := by
    simp only [sinSq, dot3, roundPose]; ring
  have hC : FlatContact g.plane (roundPose pose) r' ↔ FlatContact g.plane pose r := by
    unfold FlatContact; rw [hS, hcen, h.radius]
  have hD : sectionDepth g.plane (roundPose pose) r' = sectionDepth g.plane pose r := by
    unfold sectionDepth; rw [hS, hcen, h.radius]
  have hF : sectionFoot g.plane (ribCentre (roundPose pose) r') (roundPose pose).linear.c1 =
      sectionFoot g.plane (ribCentre pose r) pose.linear.c1 := by
    unfold sectionFoot
    rw [hS, hcen]
    simp only [along, minus, dot3, roundPose]
    congr 1 <;> ring
  rcases Rib.geometricFlat_closed hr hp hn with ⟨a1, a2⟩ | ⟨a1, a2⟩ <;>
  rcases Rib.geometricFlat_closed hr' (roundPose_rigid hp) hn with ⟨b1, b2⟩ | ⟨b1, b2⟩
  · rw [a2, b2, hD, hF, h.radius, h.width]
  · exact absurd (hC.2 a1) b1
  · exact absurd (hC.1 b1) a1
  · rw [a2, b2, h.noContact_round hr hr']

/-- Evaluation by sampling, whatever the samples are. -/
theorem Rib.envelopSampling_round {r r' : Rib ℝ} (hr : IsRib r) (hr' : IsRib r') (h : MirrorRib r r') (pose : Affine ℝ)
    (f : Line ℝ → Option (V3 ℝ × ℝ)) :
    r'.envelopSampling f (roundPose pose) = r.envelopSampling f pose := by
  have hl : ∀ x : V3 ℝ, f ⟨V3.add (roundPose pose).trans (M3.mulVec (roundPose pose).linear x), V3.neg V3.ez⟩ =
      f ⟨V3.add pose.trans (M3.mulVec pose.linear (halfTurn x)), V3.neg V3.ez⟩ := by
    intro x
    rw [roundPose_linear]; rfl
  have x1 : halfTurn (V3.add r'.center (V3.smul (lit 1 10 *. r'.radius) V3.ex)) =
      V3.sub r.center (V3.smul (lit 1 10 *. r.radius) V3.ex) := by
    rw [h.center_round hr hr', h.radius]; simp [halfTurn, V3.real_add, V3.real_sub, V3.real_smul, V3.ex]; ring
  have x2 : halfTurn (V3.sub r'.center (V3.smul (lit 1 10 *. r'.radius) V3.ex)) =
      V3.add r.center (V3.smul (lit 1 10 *. r.radius) V3.ex) := by
    rw [h.center_round hr hr', h.radius]; simp [halfTurn, V3.real_add, V3.real_sub, V3.real_smul, V3.ex]; ring
  have x3 : halfTurn (V3.add r'.center (V3.smul (lit 3 10 *. r'.width) V3.ey)) =
      V3.sub r.center (V3.smul (lit 3 10 *. r.width) V3.ey) := by
    rw [h.center_round hr hr', h.width]; simp [halfTurn, V3.real_add, V3.real_sub, V3.real_smul, V3.ey]; ring
  have x4 : halfTurn (V3.sub r'.center (V3.smul (lit 3 10 *. r'.width) V3.ey)) =
      V3.add r.center (V3.smul (lit 3 10 *. r.width) V3.ey) := by
    rw [h.center_round hr hr', h.width]; simp [halfTurn, V3.real_add, V3.real_sub, V3.real_smul, V3.ey]; ring
  have hc1 : (roundPose pose).linear.c1 = V3.neg pose.linear.c1 := by
    simp [roundPose, V3.real_neg]
  unfold Rib.envelopSampling
  simp only [Rib.lineXp, Rib.lineXm, Rib.lineYp, Rib.lineYm, hl, x1, x2, x3, x4, h.noContact_round hr hr']
  rcases f ⟨V3.add pose.trans (M3.mulVec pose.linear (V3.add r.center (V3.smul (lit 1 10 *. r.radius) V3.ex))),
    V3.neg V3.ez⟩ with _ | ⟨p0, f0⟩ <;>
  rcases f ⟨V3.add pose.trans (M3.mulVec pose.linear (V3.sub r.center (V3.smul (lit 1 10 *. r.radius) V3.ex))),
    V3.neg V3.ez⟩ with _ | ⟨p1, f1⟩ <;> try rfl
  rcases f ⟨V3.add pose.trans (M3.mulVec pose.linear (V3.add r.center (V3.smul (lit 3 10 *. r.width) V3.ey))),
    V3.neg V3.ez⟩ with _ | ⟨p2, f2⟩ <;>
  rcases f ⟨V3.add pose.trans (M3.mulVec pose.linear (V3.sub r.center (V3.smul (lit 3 10 *. r.width) V3.ey))),
    V3.neg V3.ez⟩ with _ | ⟨p3, f3⟩ <;> try rfl
  have hmean : V3.sdiv (V3.add (V3.add (V3.add p1 p0) p3) p2) (lit 4 1) =
      V3.sdiv (V3.add (V3.add (V3.add p0 p1) p2) p3) (lit 4 1) := by
    simp only [V3.real_add, V3.real_sdiv]
    congr 1 <;> ring
  have hnorm : V3.cross (V3.sub p1 p0) (V3.sub p3 p2) = V3.cross (V3.sub p0 p1) (V3.sub p2 p3) := by
    simp only [V3.real_sub, V3.real_cross]; congr 1 <;> ring
  have hfr : (f1 +. f0 +. f3 +. f2) /. lit 4 1 = (f0 +. f1 +. f2 +. f3) /. lit 4 1 := by
    simp only [real_add, real_div]; congr 1; ring
  have hcg := h.centerGrd_round hr hr' pose
  simp only [hmean, hnorm, hc1, hcg, hfr, h.radius, h.width, neg_normalized, neg_cross_left, neg_cross_right, neg_neg3]

/-- **C143, one rib, sampling method**, on flat ground and on every mesh. -/
theorem C143_sampling {r r' : Rib ℝ} (hr : IsRib r) (hr' : IsRib r') (h : MirrorRib r r') (pose : Affine ℝ) :
    (∀ g : Flat ℝ, r'.envelopSamplingFlat g (roundPose pose) = r.envelopSamplingFlat g pose) ∧
    ∀ ts : List (TriangleGround ℝ), r'.envelopSamplingMesh ts (roundPose pose) = r.envelopSamplingMesh ts pose :=
  ⟨fun _ => Rib.envelopSampling_round hr hr' h pose _, fun _ => Rib.envelopSampling_round hr hr' h pose _⟩

/-! ### The geometric method on a mesh -/

theorem Spec.norm_neg3 (v : V3 ℝ) : V3.norm (V3.neg v) = V3.norm v := by
  rw [V3.norm_eq, V3.norm_eq, length3, length3]
  simp only [V3.real_neg]
  congr 1; ring

theorem Inter.lineSegment_neg (o d : V3 ℝ) (s : Segment ℝ) (tol : ℝ) :
    Inter.lineSegment ⟨o, V3.neg d⟩ s tol = Inter.lineSegment ⟨o, d⟩ s tol := by
  have h1 : Inter.isParallel (V3.neg d) s.toUnitVector tol = Inter.isParallel d s.toUnitVector tol := by
    unfold Inter.isParallel
    rw [neg_cross_left]
    rw [norm_neg3]
  unfold Inter.lineSegment
  dsimp only
  rw [h1]
  split
  · rfl
  have e1 : V3.dot (V3.cross (V3.sub o s.v0) (V3.neg d)) (V3.neg (V3.cross (V3.neg d) s.toVector)) =
      V3.dot (V3.cross (V3.sub o s.v0) d) (V3.neg (V3.cross d s.toVector)) := by
    simp only [V3.real_dot, V3.real_cross, V3.real_neg]; ring
  have e2 : V3.dot (V3.neg (V3.cross (V3.neg d) s.toVector)) (V3.neg (V3.cross (V3.neg d) s.toVector)) =
      V3.dot (V3.neg (V3.cross d s.toVector)) (V3.neg (V3.cross d s.toVector)) := by
    simp only [V3.real_dot, V3.real_cross, V3.real_neg]; ring
  have e3 : V3.dot (V3.cross (V3.sub s.v0 o) s.toVector) (V3.cross (V3.neg d) s.toVector) =
      -V3.dot (V3.cross (V3.sub s.v0 o) s.toVector) (V3.cross d s.toVector) := by
    simp only [V3.real_dot, V3.real_cross, V3.real_neg]; ring
  have e4 : V3.dot (V3.cross (V3.neg d) s.toVector) (V3.cross (V3.neg d) s.toVector) =
      V3.dot (V3.cross d s.toVector) (V3.cross d s.toVector) := by
    simp only [V3.real_dot, V3.real_cross, V3.real_neg]; ring
  rw [e1, e2, e3, e4]
  split
  · rfl
  · congr 1
    simp only [V3.real_add, V3.real_smul, V3.real_neg, real_div]
    congr 1 <;> ring

theorem Inter.planePlane_neg (p : Plane ℝ) (q : Plane ℝ) (tol : ℝ) :
    Inter.planePlane ⟨p.origin, V3.neg p.normal⟩ q tol =
      (Inter.planePlane p q tol).map fun l => ⟨l.origin, V3.neg l.direction⟩ := by
  have hn : V3.normalized (V3.neg p.normal) = V3.neg (V3.normalized p.normal) := neg_normalized _
  have hd : -. (Plane.d (⟨p.origin, V3.neg p.normal⟩ : Plane ℝ)) = -(-. p.d) := by
    simp only [Plane.d, V3.real_dot, V3.real_neg, real_neg]; ring
  have hdot : V3.dot (V3.neg (V3.normalized p.normal)) (V3.normalized q.normal) =
      -V3.dot (V3.normalized p.normal) (V3.normalized q.normal) := by
    simp only [V3.real_dot, V3.real_neg]; ring
  unfold Inter.planePlane
  dsimp only
  rw [hn, hd, hdot, neg_cross_left, norm_neg3]
  split
  · rfl
  · simp only [Option.map_some, Option.some.injEq, Line.mk.injEq, and_true]
    generalize V3.normalized p.normal = n0
    generalize V3.normalized q.normal = n1
    generalize V3.dot n0 n1 = c
    simp only [V3.real_add, V3.real_smul, V3.real_neg, real_sub, real_mul, real_div, real_one, real_neg, neg_mul_neg]
    congr 1 <;> ring

/-- The section of a triangle by a disk does not depend on the side the normal of the disk points to. -/
theorem Inter.triangleDisk_neg (T : Triangle ℝ) (R : ℝ) (o n : V3 ℝ) (tol : ℝ) :
    Inter.triangleDisk T ⟨R, ⟨o, V3.neg n⟩⟩ tol = Inter.triangleDisk T ⟨R, ⟨o, n⟩⟩ tol := by
  have h : Inter.planeTriangle ⟨o, V3.neg n⟩ T tol = Inter.planeTriangle ⟨o, n⟩ T tol := by
    unfold Inter.planeTriangle
    have := Inter.planePlane_neg ⟨o, n⟩ T.layingPlane tol
    dsimp only at this
    rw [this]
    rcases Inter.planePlane ⟨o, n⟩ T.layingPlane tol with _ | l
    · rfl
    · simp only [Option.map_some]
      unfold Inter.lineTriangleSeg
      simp only [Inter.lineSegment_neg l.origin l.direction]
  unfold Inter.triangleDisk
  show (Inter.planeTriangle ⟨o, V3.neg n⟩ T tol >>= _) = (Inter.planeTriangle ⟨o, n⟩ T tol >>= _)
  rw [h]
  rcases Inter.planeTriangle ⟨o, n⟩ T tol with s | e | e
  · rcases s with _ | s
    · rfl
    · have hdeg : Disk.isDegenerated (⟨R, ⟨o, V3.neg n⟩⟩ : Disk ℝ) tol = Disk.isDegenerated ⟨R, ⟨o, n⟩⟩ tol := by
        simp only [Disk.isDegenerated, Plane.isDegenerated, Spec.norm_neg3]
      simp only [Res.bind_ok, Inter.segmentDisk, hdeg]
      rfl
  · rfl
  · rfl

theorem Spec.MirrorRib.diskGrd_round {r r' : Rib ℝ} (h : MirrorRib r r') (hr : IsRib r) (hr' : IsRib r') (pose : Affine ℝ) :
    r'.diskGrd (roundPose pose) = ⟨r.radius, ⟨r.centerGrd pose, V3.neg (r.normalGrd pose)⟩⟩ := by
  unfold Rib.diskGrd
  rw [h.centerGrd_round hr hr', h.radius, Rib.normalGrd_eq hr', Rib.normalGrd_eq hr]
  simp [roundPose, V3.real_neg]

/-- The level of the axle of the wheel: the plane through its centre that its vertical axis is perpendicular to. -/
def Spec.OnAxleLevel (pose : Affine ℝ) (p : V3 ℝ) : Prop := ∃ x y, p = pose.apply ⟨x, y, 0⟩

/-- The section of the triangle by the rib does not meet the level of the axle: it lies below it, as the ground does, or above it. -/
def Spec.OffAxleLevel (r : Rib ℝ) (pose : Affine ℝ) (t : TriangleGround ℝ) : Prop :=
  ∀ seg, Inter.triangleDisk t.tri (r.diskGrd pose) Scalar.eps = .ok (some seg) → ∀ p, OnSeg seg p → ¬ OnAxleLevel pose p

theorem Rib.not_level {r : Rib ℝ} (hr : IsRib r) {pose : Affine ℝ} (hp : IsRigid pose) {seg : Segment ℝ}
    (h : ∀ p, OnSeg seg p → ¬ OnAxleLevel pose p) :
    let a := M3.mulVec (M3.transpose pose.linear) (V3.sub seg.v0 (r.centerGrd pose))
    let b := M3.mulVec (M3.transpose pose.linear) (V3.sub seg.v1 (r.centerGrd pose))
    (a.z < 0 ∧ b.z < 0) ∨ (0 < a.z ∧ 0 < b.z) := by
  intro a b
  have n : ∀ k : ℝ, 0 ≤ k → k ≤ 1 → a.z + k * (b.z - a.z) ≠ 0 := by
    intro k k0 k1 hz
    refine h _ ⟨k, k0, k1, rfl⟩ ⟨a.x + k * (b.x - a.x), r.y + (a.y + k * (b.y - a.y)), ?_⟩
    have hc : r.centerGrd pose = pose.apply ⟨0, r.y, 0⟩ := by
      rw [Rib.centerGrd_eq]; show pose.apply r.disk.plane.origin = _; rw [hr.center]
    have e0 : M3.mulVec pose.linear a = V3.sub seg.v0 (r.centerGrd pose) := hp.mulVec_transpose _
    have e1 : M3.mulVec pose.linear b = V3.sub seg.v1 (r.centerGrd pose) := hp.mulVec_transpose _
    rw [hc] at e0 e1
    simp only [Affine.apply, M3.mulVec, V3.add, V3.sub, real_add, real_mul, real_sub, V3.mk.injEq] at e0 e1 ⊢
    obtain ⟨x0, y0, z0⟩ := e0
    obtain ⟨x1, y1, z1⟩ := e1
    refine ⟨?_, ?_, ?_⟩
    · linear_combination -(1 - k) * x0 - k * x1 + pose.linear.c2.x * hz
    · linear_combination -(1 - k) * y0 - k * y1 + pose.linear.c2.y * hz
    · linear_combination -(1 - k) * z0 - k * z1 + pose.linear.c2.z * hz
  have na : a.z ≠ 0 := by simpa using n 0 le_rfl zero_le_one
  have nb : b.z ≠ 0 := by simpa using n 1 zero_le_one le_rfl
  rcases lt_or_gt_of_ne na with ha | ha <;> rcases lt_or_gt_of_ne nb with hb | hb
  · exact .inl ⟨ha, hb⟩
  · exfalso
    have hden : 0 < b.z - a.z := by linarith
    refine n (-a.z / (b.z - a.z)) (div_nonneg (by linarith) hden.le) (by rw [div_le_one hden]; linarith) ?_
    field_simp; ring
  · exfalso
    have hden : 0 < a.z - b.z := by linarith
    refine n (a.z / (a.z - b.z)) (div_nonneg (by linarith) hden.le) (by rw [div_le_one hden]; linarith) ?_
    field_simp; ring
  · exact .inr ⟨ha, hb⟩

/-- Mirroring a direction below (above) the horizontal at the vertical. -/
theorem Spec.arg_round (x z : ℝ) : (z < 0 → Complex.arg ⟨-x, z⟩ = -Real.pi - Complex.arg ⟨x, z⟩) ∧
    (0 < z → Complex.arg ⟨-x, z⟩ = Real.pi - Complex.arg ⟨x, z⟩) := by
  have e : (⟨-x, z⟩ : ℂ) = -(starRingEnd ℂ) ⟨x, z⟩ := by
    apply Complex.ext <;> simp
  have hc : ∀ z : ℝ, z ≠ 0 → Complex.arg ((starRingEnd ℂ) ⟨x, z⟩) = -Complex.arg ⟨x, z⟩ := by
    intro z hz
    rw [Complex.arg_conj, if_neg]
    intro h
    rw [Complex.arg_eq_pi_iff] at h
    exact hz h.2
  constructor
  · intro hz
    rw [e, Complex.arg_neg_eq_arg_sub_pi_of_im_pos (by simpa using hz), hc _ hz.ne]
    ring
  · intro hz
    rw [e, Complex.arg_neg_eq_arg_add_pi_of_im_neg (by simpa using hz), hc _ hz.ne']
    ring

/-- A section off the level of the axle makes the same contribution after the wheel is turned round. -/
theorem Rib.contrib_round {r r' : Rib ℝ} (hr : IsRib r) (hr' : IsRib r') (h : MirrorRib r r') {pose : Affine ℝ} (hp : IsRigid pose)
    (t : TriangleGround ℝ) {seg : Segment ℝ} (hl : ∀ p, OnSeg seg p → ¬ OnAxleLevel pose p) :
    r'.contrib (roundPose pose) t seg = r.contrib pose t seg := by
  have hz := Rib.not_level hr hp hl
  have hng : r'.normalGrd (roundPose pose) = V3.neg (r.normalGrd pose) := by
    rw [Rib.normalGrd_eq hr, Rib.normalGrd_eq hr']; simp [roundPose, V3.real_neg]
  have hn : ∀ a b n : V3 ℝ, V3.add a (V3.smul (V3.dot b (V3.neg n)) (V3.neg n)) = V3.add a (V3.smul (V3.dot b n) n) := by
    intro a b n
    simp only [V3.real_add, V3.real_smul, V3.real_dot, V3.real_neg]
    congr 1 <;> ring
  have hpt : ∀ v : V3 ℝ, V3.add (roundPose pose).trans (M3.mulVec (roundPose pose).linear (V3.add r'.center v)) =
      V3.add pose.trans (M3.mulVec pose.linear (V3.add r.center (halfTurn v))) := by
    intro v
    rw [roundPose_linear, h.center_round hr hr']
    have : halfTurn (V3.add (halfTurn r.center) v) = V3.add r.center (halfTurn v) := by
      simp only [halfTurn, V3.real_add]; congr 1 <;> ring
    rw [this]; rfl
  have hnorm : ∀ v : V3 ℝ, V3.norm (halfTurn v) = V3.norm v := by
    intro v
    rw [V3.norm_eq, V3.norm_eq, length3, length3]
    simp only [halfTurn]
    congr 1; ring
  unfold Rib.contrib
  dsimp only at hz ⊢
  simp only [hpt]
  simp only [h.centerGrd_round hr hr', roundPose_transpose, hnorm, hng, hn, roundPose_linear, h.radius, h.width]
  set a := M3.mulVec (M3.transpose pose.linear) (V3.sub seg.v0 (r.centerGrd pose)) with ha
  set b := M3.mulVec (M3.transpose pose.linear) (V3.sub seg.v1 (r.centerGrd pose)) with hb
  obtain ⟨P, e1, e2, cP, sP⟩ : ∃ P, Complex.arg ⟨-a.x, a.z⟩ = P - Complex.arg ⟨a.x, a.z⟩ ∧
      Complex.arg ⟨-b.x, b.z⟩ = P - Complex.arg ⟨b.x, b.z⟩ ∧ Real.cos P = -1 ∧ Real.sin P = 0 := by
    rcases hz with ⟨h1, h2⟩ | ⟨h1, h2⟩
    · exact ⟨-Real.pi, (arg_round _ _).1 h1, (arg_round _ _).1 h2, by simp, by simp⟩
    · exact ⟨Real.pi, (arg_round _ _).2 h1, (arg_round _ _).2 h2, by simp, by simp⟩
  simp only [halfTurn, real_atan2, e1, e2]
  generalize Complex.arg ⟨a.x, a.z⟩ = A
  generalize Complex.arg ⟨b.x, b.z⟩ = B
  have dir : ∀ A B : ℝ, Real.cos ((P - B + (P - A)) / 2) = -Real.cos ((A + B) / 2) ∧
      Real.sin ((P - B + (P - A)) / 2) = Real.sin ((A + B) / 2) := by
    intro A B
    rw [show (P - B + (P - A)) / 2 = P - (A + B) / 2 by ring, Real.cos_sub, Real.sin_sub, cP, sP]
    constructor <;> ring
  have dif : ∀ A B : ℝ, P - B - (P - A) = A - B := by intros; ring
  rcases lt_trichotomy B A with hBA | hBA | hBA
  · have h1 : ¬ (P - B < P - A) := by linarith
    simp only [real_lt, decide_eq_true_eq, if_pos hBA, if_neg h1, real_add, real_sub, real_div, real_two, real_cos, real_sin,
      real_neg, real_zero, V3.smul, real_mul, mul_zero, neg_zero]
    simp only [(dir B A).1, (dir B A).2, dif, neg_neg, mul_neg]
  · subst hBA
    simp only [real_lt, decide_eq_true_eq, lt_irrefl, if_false, real_add, real_sub, real_div, real_two, real_cos, real_sin,
      real_neg, real_zero, V3.smul, real_mul, mul_zero, neg_zero]
    simp only [(dir B B).1, (dir B B).2, dif, neg_neg, mul_neg]
  · have h1 : P - B < P - A := by linarith
    have h2 : ¬ B < A := by linarith
    simp only [real_lt, decide_eq_true_eq, if_pos h1, if_neg h2, real_add, real_sub, real_div, real_two, real_cos, real_sin,
      real_neg, real_zero, V3.smul, real_mul, mul_zero, neg_zero]
    simp only [(dir A B).1, (dir A B).2, dif, neg_neg, mul_neg]

/-- **C143, one rib, geometric method on a mesh (partial).**  Missing: sections that meet the level of the axle
(`C143_geometric_mesh_refuted`). -/
theorem C143_geometric_mesh_partial {r r' : Rib ℝ} (hr : IsRib r) (hr' : IsRib r') (h : MirrorRib r r') {pose : Affine ℝ}
    (hp : IsRigid pose) {ts : List (TriangleGround ℝ)} (hts : ∀ t ∈ ts, OffAxleLevel r pose t) :
    r'.envelopGeometricMesh ts (roundPose pose) = r.envelopGeometricMesh ts pose := by
  have hloop : ∀ acc, r'.geomLoop (roundPose pose) ts acc = r.geomLoop pose ts acc := by
    induction ts with
    | nil => intro acc; rfl
    | cons t ts ih =>
      intro acc
      have ih := ih (fun t ht => hts t (List.mem_cons_of_mem _ ht))
      have ht := hts t List.mem_cons_self
      unfold Spec.OffAxleLevel at ht
      rw [Rib.geomLoop, Rib.geomLoop, h.diskGrd_round hr hr', Inter.triangleDisk_neg]
      change Inter.triangleDisk t.tri (r.diskGrd pose) Scalar.eps >>= _ = _
      rcases hd : Inter.triangleDisk t.tri (r.diskGrd pose) Scalar.eps with o | e | e
      · rcases o with _ | seg
        · simp only [Res.bind_ok, ih]
        · simp only [Res.bind_ok]
          rw [Rib.contrib_round hr hr' h hp t (fun p hp => ht seg hd p hp)]
          cases r.contrib pose t seg with
          | none => rfl
          | some c => exact ih _
      · rfl
      · rfl
  unfold Rib.envelopGeometricMesh
  rw [hloop]
  unfold Rib.geomFinish
  rw [h.centerGrd_round hr hr', h.noContact_round hr hr', h.radius]

/-- **C143 is false for the geometric method on a mesh when the section meets the level of the axle.**  A wheel with one rib, half a radius
above a large triangle, that has rolled a quarter of a turn: turned round, it reports another volume. -/
theorem C143_geometric_mesh_refuted :
    ∃ (r : Rib ℝ) (pose : Affine ℝ) (t : TriangleGround ℝ) (o o' : Output ℝ), IsRib r ∧ MirrorRib r r ∧ IsRigid pose ∧
      TriangleGround.make 0 1 ⟨0, 10, 0⟩ ⟨-30, -10, 0⟩ ⟨30, -10, 0⟩ = .ok t ∧
      r.envelopGeometricMesh [t] pose = .ok (true, o) ∧
      r.envelopGeometricMesh [t] (roundPose pose) = .ok (true, o') ∧
      o'.volume < Real.pi / 2 ∧ Real.pi / 2 < o.volume := by
  obtain ⟨h1, h2, h3⟩ := Demo.sqrt34
  have hpos := real_eps_pos
  have heps : (Scalar.eps : ℝ) ≤ 1 / 10 := by rw [real_eps]; norm_num
  have hr := Demo.ribOf_isRib (w := 1) zero_le_one
  have hc : (Demo.ribOf 1).center = ⟨0, 0, 0⟩ := by simp [Demo.ribOf, Rib.center, Rib.make, Disk.center]
  have hmr : MirrorRib (Demo.ribOf 1) (Demo.ribOf 1) := ⟨by simp [Demo.ribOf, Rib.make], rfl, rfl⟩
  set pose' : Affine ℝ := ⟨⟨⟨0, 0, 1⟩, ⟨0, 1, 0⟩, ⟨-1, 0, 0⟩⟩, ⟨0, 0, 1 / 2⟩⟩ with hpose'
  have hrig : IsRigid pose' :=
    ⟨by norm_num [pose'], by norm_num [pose'], by norm_num [pose'], by norm_num [pose'], by norm_num [pose'],
      by norm_num [pose'], by norm_num [pose']⟩
  have hdg : (Demo.ribOf 1).diskGrd pose' = (Demo.ribOf 1).diskGrd (Demo.upright (1 / 2)) := by
    rw [Rib.diskGrd_upright hr hc]
    unfold Rib.diskGrd Rib.centerGrd Rib.normalGrd
    rw [hc, show (Demo.ribOf 1).disk.normal = ⟨0, 1, 0⟩ from hr.normal]
    simp only [pose']
    congr 2
    · v3; congr 1 <;> ring
    · v3; congr 1 <;> ring
  have hdg' : ∀ T : Triangle ℝ, Inter.triangleDisk T ((Demo.ribOf 1).diskGrd (roundPose pose')) Scalar.eps =
      Inter.triangleDisk T ((Demo.ribOf 1).diskGrd (Demo.upright (1 / 2))) Scalar.eps := by
    intro T
    rw [hmr.diskGrd_round hr hr, Inter.triangleDisk_neg, ← hdg]
    rfl
  have hlen : Segment.length (⟨⟨Real.sqrt (3 / 4), 0, 0⟩, ⟨-Real.sqrt (3 / 4), 0, 0⟩⟩ : Segment ℝ) = 2 * Real.sqrt (3 / 4) := by
    rw [Segment.length, V3.norm_sub]
    unfold dist3
    dsimp only
    rw [show (Real.sqrt (3 / 4) - -Real.sqrt (3 / 4)) ^ 2 + (0 - 0) ^ 2 + (0 - 0) ^ 2 = (2 * Real.sqrt (3 / 4)) ^ 2 by ring,
      Real.sqrt_sq (by linarith)]
  generalize hS : Real.sqrt (3 / 4) = S at *
  have hcg : ∀ p : Affine ℝ, p.trans = ⟨0, 0, 1 / 2⟩ → (Demo.ribOf 1).centerGrd p = ⟨0, 0, 1 / 2⟩ := by
    intro p hp
    unfold Rib.centerGrd
    rw [hc, hp]
    v3
    congr 1 <;> ring
  have hcon : ∀ (p : Affine ℝ) (pa pb : V3 ℝ), p.trans = ⟨0, 0, 1 / 2⟩ →
      M3.mulVec (M3.transpose p.linear) (V3.sub ⟨S, 0, 0⟩ ⟨0, 0, 1 / 2⟩) = pa →
      M3.mulVec (M3.transpose p.linear) (V3.sub ⟨-S, 0, 0⟩ ⟨0, 0, 1 / 2⟩) = pb →
      V3.norm pa = 1 → V3.norm pb = 1 →
      ∃ c, (Demo.ribOf 1).contrib p Demo.field ⟨⟨S, 0, 0⟩, ⟨-S, 0, 0⟩⟩ = some c ∧ c.area = 2 * S ∧
        c.volume = |Complex.arg ⟨pb.x, pb.z⟩ - Complex.arg ⟨pa.x, pa.z⟩| / 2 -
          Real.sin |Complex.arg ⟨pb.x, pb.z⟩ - Complex.arg ⟨pa.x, pa.z⟩| / 2 := by
    intro p pa pb hp ha hb na nb
    unfold Rib.contrib
    dsimp only
    rw [hcg p hp, ha, hb, na, nb, hlen, if_neg]
    · refine ⟨_, rfl, ?_, ?_⟩
      · dsimp only
        rw [show (Demo.ribOf 1).width = 1 from rfl, real_mul, mul_one]
      · dsimp only
        rw [show (Demo.ribOf 1).width = 1 from rfl, show (Demo.ribOf 1).radius = 1 from rfl]
        simp only [real_mul, real_sub, real_min, min_self, real_two, real_div, real_sin, real_atan2, real_lt, one_mul,
          mul_one, decide_eq_true_eq]
        generalize Complex.arg ⟨pa.x, pa.z⟩ = A
        generalize Complex.arg ⟨pb.x, pb.z⟩ = B
        by_cases hlt : B < A
        · simp only [hlt, if_true]
          rw [abs_of_neg (by linarith), neg_sub]
        · simp only [hlt, if_false]
          rw [abs_of_nonneg (by linarith)]
    · simp only [real_lt, Bool.and_eq_true, decide_eq_true_eq, not_and]
      intro _
      linarith
  have hnorm : ∀ x z : ℝ, x ^ 2 + z ^ 2 = 1 → V3.norm (⟨x, 0, z⟩ : V3 ℝ) = 1 := by
    intro x z h
    rw [V3.norm_eq, length3]
    dsimp only
    rw [show x ^ 2 + 0 ^ 2 + z ^ 2 = 1 by linarith, Real.sqrt_one]
  obtain ⟨d, hd1, da, dv⟩ := hcon pose' ⟨-(1 / 2), 0, -S⟩ ⟨-(1 / 2), 0, S⟩ rfl
    (by simp only [pose']; v3; congr 1 <;> ring) (by simp only [pose']; v3; congr 1 <;> ring)
    (hnorm _ _ (by linarith)) (hnorm _ _ (by linarith))
  obtain ⟨c, hc1, ca, cv⟩ := hcon (roundPose pose') ⟨1 / 2, 0, -S⟩ ⟨1 / 2, 0, S⟩ rfl
    (by simp only [pose', roundPose]; v3; congr 1 <;> ring) (by simp only [pose', roundPose]; v3; congr 1 <;> ring)
    (hnorm _ _ (by linarith)) (hnorm _ _ (by linarith))
  have hgeom : ∀ p e, (∀ T : Triangle ℝ, Inter.triangleDisk T ((Demo.ribOf 1).diskGrd p) Scalar.eps =
      Inter.triangleDisk T ((Demo.ribOf 1).diskGrd (Demo.upright (1 / 2))) Scalar.eps) →
      (Demo.ribOf 1).contrib p Demo.field ⟨⟨S, 0, 0⟩, ⟨-S, 0, 0⟩⟩ = some e → e.area = 2 * S →
      ∃ o, (Demo.ribOf 1).envelopGeometricMesh [Demo.field] p = .ok (true, o) ∧ o.volume = e.volume := by
    intro p e hp he hea
    have hcut := Demo.field_cut
    rw [hS] at hcut
    have : (Demo.ribOf 1).envelopGeometricMesh [Demo.field] p =
        .ok (Rib.geomFinish (Demo.ribOf 1) p (Rib.Acc.init.add e)) := by
      unfold Rib.envelopGeometricMesh
      simp only [Rib.geomLoop, hp, hcut, Res.bind_ok, he, Res.pure_eq]
    rw [Rib.geomFinish, if_pos (by
      simp only [Rib.Acc.add, Rib.Acc.init, real_add, real_zero, hea, real_lt, Bool.true_and, Bool.or_eq_true,
        decide_eq_true_eq]
      left
      linarith)] at this
    exact ⟨_, this, by simp [Rib.Acc.add, Rib.Acc.init]⟩
  obtain ⟨o', ho', ov'⟩ := hgeom _ c hdg' hc1 ca
  obtain ⟨o, ho, ov⟩ := hgeom _ d (fun T => by rw [hdg]) hd1 da
  refine ⟨Demo.ribOf 1, pose', Demo.field, o, o', hr, hmr, hrig, Demo.field_make, ho, ho', ?_, ?_⟩
  · rw [ov', cv]
    have a1 := Complex.abs_arg_le_pi_div_two_iff.2 (show 0 ≤ (⟨1 / 2, -S⟩ : ℂ).re by norm_num)
    have b1 := Complex.abs_arg_le_pi_div_two_iff.2 (show 0 ≤ (⟨1 / 2, S⟩ : ℂ).re by norm_num)
    have a2 : Complex.arg ⟨1 / 2, -S⟩ < 0 := Complex.arg_neg_iff.2 (by show -S < 0; linarith)
    have b2 : 0 < Complex.arg ⟨1 / 2, S⟩ := by
      refine lt_of_le_of_ne (Complex.arg_nonneg_iff.2 (by show 0 ≤ S; linarith)) fun h => ?_
      have := (Complex.arg_eq_zero_iff.1 h.symm).2
      change S = 0 at this
      linarith
    have b3 : Complex.arg ⟨1 / 2, S⟩ ≠ Real.pi / 2 := by
      intro h
      have := (Complex.arg_eq_pi_div_two_iff.1 h).1
      norm_num at this
    dsimp only
    generalize Complex.arg ⟨1 / 2, -S⟩ = A at *
    generalize Complex.arg ⟨1 / 2, S⟩ = B at *
    rw [abs_le] at a1 b1
    have b4 := lt_of_le_of_ne b1.2 b3
    rw [abs_of_pos (by linarith)]
    have := Real.sin_nonneg_of_nonneg_of_le_pi (x := B - A) (by linarith) (by linarith)
    linarith
  · rw [ov, dv]
    have a1 : Complex.arg ⟨-(1 / 2), -S⟩ < -(Real.pi / 2) := by
      by_contra hh
      push Not at hh
      have := Complex.abs_arg_le_pi_div_two_iff.1 (abs_le.2 ⟨hh, by
        have : Complex.arg ⟨-(1 / 2), -S⟩ < 0 := Complex.arg_neg_iff.2 (by show -S < 0; linarith)
        have := Real.pi_pos
        linarith⟩)
      norm_num at this
    have a2 := Complex.neg_pi_lt_arg ⟨-(1 / 2), -S⟩
    have b1 : Real.pi / 2 < Complex.arg ⟨-(1 / 2), S⟩ := by
      by_contra hh
      push Not at hh
      have := Complex.abs_arg_le_pi_div_two_iff.1 (abs_le.2 ⟨by
        have : 0 ≤ Complex.arg ⟨-(1 / 2), S⟩ := Complex.arg_nonneg_iff.2 (by show 0 ≤ S; linarith)
        have := Real.pi_pos
        linarith, hh⟩)
      norm_num at this
    have b2 := Complex.arg_le_pi ⟨-(1 / 2), S⟩
    dsimp only
    generalize Complex.arg ⟨-(1 / 2), -S⟩ = A at *
    generalize Complex.arg ⟨-(1 / 2), S⟩ = B at *
    rw [abs_of_pos (by linarith)]
    have : Real.sin (B - A) ≤ 0 := by
      have := Real.sin_nonneg_of_nonneg_of_le_pi (x := B - A - Real.pi) (by linarith) (by linarith)
      rw [Real.sin_sub_pi] at this
      linarith
    linarith

/-! ## The whole tyre -/

/-- The reports of `s'` are those of `s` after the wheel is turned round: rib `n - 1 - i` reports what rib `i` reported. -/
structure Spec.RoundShell (pol : Policy) (s s' : Shell ℝ) : Prop where
  size : s'.size = s.size
  pose : s'.pose = roundPose s.pose
  records : ∀ i < s.size, ∃ o, s.out.read pol i = .ok o ∧ s'.out.read pol (s.size - 1 - i) = .ok o

/-- **C143, the tyre on flat ground**, both methods: the same records in the opposite order.  The flag, which is that of the last rib
(`C38_flat_flag_refuted`), is now that of the rib that was the first: what it returns is whether this rib shows a contact. -/
theorem C143_setup_flat_partial {pol : Policy} {s sA sB : Shell ℝ} (hreach : s.Reachable pol) (hsym : SymmetricTyre s)
    {pose : Affine ℝ} (hp : IsRigid pose) {f : ℝ} {o n : V3 ℝ} {g : Flat ℝ} (hg : Flat.make f o n = .ok g)
    {method : String} {b b' : Bool} (hA : s.setupFlat pol g pose method = .ok sA b)
    (hB : s.setupFlat pol g (roundPose pose) method = .ok sB b') :
    RoundShell pol sA sB ∧ ∀ r, s.ribs[0]? = some r → ∃ o, r.envelopFlat g pose method = .ok (b', o) := by
  have e1 := Shell.setupFlat_rel (.inl ⟨b, hA⟩)
  have e2 := Shell.setupFlat_rel (.inl ⟨b', hB⟩)
  have z1 : sA.size = s.size := by unfold Shell.size; rw [e1.ribs]
  have z2 : sB.size = s.size := by unfold Shell.size; rw [e2.ribs]
  have hpA : sA.pose = pose := by rw [e1.pose]
  have hpB : sB.pose = roundPose pose := by rw [e2.pose]
  obtain ⟨f1, r1, a1, -⟩ := C38_flat_flag_partial pol s sA g pose method b hA
  obtain ⟨f2, r2, a2, w2, -⟩ := C38_flat_flag_partial pol s sB _ _ method b' hB
  have key : ∀ i < s.size, sA.out.read pol i = .ok (r1 i) ∧ sB.out.read pol (s.size - 1 - i) = .ok (r2 (s.size - 1 - i)) ∧
      r2 (s.size - 1 - i) = r1 i ∧ f2 (s.size - 1 - i) = f1 i := by
    intro i hi
    obtain ⟨r, g1, g2, g3⟩ := a1 i hi
    obtain ⟨r', g1', g2', g3'⟩ := a2 (s.size - 1 - i) (by omega)
    refine ⟨g3, g3', ?_⟩
    have q1 : s.ribs[i]? = some r := by rw [← g1]; exact congrArg (·[i]?) e1.ribs.symm
    have q2 : s.ribs[s.size - 1 - i]? = some r' := by rw [← g1']; exact congrArg (·[s.size - 1 - i]?) e2.ribs.symm
    obtain ⟨r'', q3, hmr⟩ := hsym i r q1
    rw [q2] at q3
    cases q3
    have hr := hreach.isRib r (List.mem_of_getElem? q1)
    have hr' := hreach.isRib r' (List.mem_of_getElem? q2)
    have g2 : r.envelopFlat g pose method = .ok (f1 i, r1 i) := g2
    have g2' : r'.envelopFlat g (roundPose pose) method = .ok (f2 _, r2 _) := g2'
    have hsame : r'.envelopFlat g (roundPose pose) method = r.envelopFlat g pose method := by
      unfold Rib.envelopFlat
      rw [C143_geometric_flat hr hr' hmr hp hg, (C143_sampling hr hr' hmr pose).1 g]
    rw [hsame, g2] at g2'
    obtain ⟨u1, u2⟩ := Prod.mk.inj (Res.ok.inj g2')
    exact ⟨u2.symm, u1.symm⟩
  refine ⟨⟨by rw [z1, z2], by rw [hpA, hpB], ?_⟩, ?_⟩
  · intro i hi
    rw [z1] at hi ⊢
    obtain ⟨k1, k2, k3, -⟩ := key i hi
    exact ⟨_, k1, by rw [k2, k3]⟩
  · intro r hr
    have h0 : 0 < s.size := (List.getElem?_eq_some_iff.1 hr).1
    obtain ⟨r', g1, g2, -⟩ := a1 0 h0
    have q1 : s.ribs[0]? = some r' := by rw [← g1]; exact congrArg (·[0]?) e1.ribs.symm
    rw [hr] at q1
    cases q1
    obtain ⟨-, -, -, k4⟩ := key 0 h0
    rw [Nat.sub_zero] at k4
    refine ⟨r1 0, ?_⟩
    rw [w2, k4, decide_eq_true (by omega : 1 ≤ s.size), Bool.true_and]
    exact g2

theorem Shell.ribCandidates_round {r r' : Rib ℝ} (h : MirrorRib r r') (hr : IsRib r) (hr' : IsRib r') (pose : Affine ℝ) (method : String)
    (loc : List (TriangleGround ℝ)) :
    Shell.ribCandidates (roundPose pose) method loc r' = Shell.ribCandidates pose method loc r := by
  have hy : r'.center.y = -r.center.y := by rw [h.center_round hr hr']; rfl
  have hpl : Plane.normalize (⟨(roundPose pose).trans, (roundPose pose).linear.c1⟩ : Plane ℝ) =
      ⟨(Plane.normalize ⟨pose.trans, pose.linear.c1⟩).origin, V3.neg (Plane.normalize ⟨pose.trans, pose.linear.c1⟩).normal⟩ := by
    unfold Plane.normalize
    rw [← neg_normalized]
    simp [roundPose, V3.real_neg]
  have hsg : ∀ x : ℝ, Scalar.sign (-x) = -Scalar.sign x := by
    intro x
    simp only [Scalar.sign, real_lt, real_zero, decide_eq_true_eq, Left.neg_pos_iff, Left.neg_neg_iff]
    ring
  unfold Shell.ribCandidates
  rw [hpl, hy]
  generalize Plane.normalize (⟨pose.trans, pose.linear.c1⟩ : Plane ℝ) = M
  have hd : ∀ v : V3 ℝ, Plane.signedDistance ⟨M.origin, V3.neg M.normal⟩ v -. -r.center.y = -(M.signedDistance v -. r.center.y) := by
    intro v
    simp only [Plane.signedDistance, V3.real_dot, V3.real_neg, real_sub]; ring
  congr 1
  funext t
  unfold Shell.isCandidate
  dsimp only
  simp only [hd, hsg]
  split
  · rfl
  · generalize Scalar.sign (M.signedDistance t.tri.v0 -. r.center.y) = a
    generalize Scalar.sign (M.signedDistance t.tri.v1 -. r.center.y) = b
    generalize Scalar.sign (M.signedDistance t.tri.v2 -. r.center.y) = c
    rw [Bool.and_comm]
    congr 1 <;> rw [decide_eq_decide] <;> omega

/-- **C143, the tyre on a mesh (partial)**: with the sampling method, and with the geometric method if no section of a triangle near the
tyre meets the level of the axle, the flag is the same and the ribs report the same in the opposite order. -/
theorem C143_setup_mesh_partial {pol : Policy} {s sA sB : Shell ℝ} (hs : s.Reachable pol) (hsym : SymmetricTyre s) {m : Mesh ℝ}
    {pose : Affine ℝ} (hp : IsRigid pose) {method : String}
    (h : method = "geometric" → ∀ loc, m.intersection (s.transform pose).updateBBox.bbox = .ok loc →
      ∀ t ∈ loc, ∀ r ∈ s.ribs, OffAxleLevel r pose t)
    {b b' : Bool} (hA : s.setupMesh pol m pose method = .ok sA b)
    (hB : s.setupMesh pol m (roundPose pose) method = .ok sB b') :
    b' = b ∧ RoundShell pol sA sB := by
  obtain ⟨loc, hloc⟩ : ∃ loc, m.intersection (s.transform pose).updateBBox.bbox = .ok loc := by
    cases hi : m.intersection (s.transform pose).updateBBox.bbox with
    | ok loc => exact ⟨loc, rfl⟩
    | throw m => simp [Shell.setupMesh, hi] at hA
    | ub w => simp [Shell.setupMesh, hi] at hA
  have hloc' : m.intersection (s.transform (roundPose pose)).updateBBox.bbox = .ok loc := hloc
  obtain ⟨f1, r1, a1, c1⟩ := C38_mesh_flag pol s sA hs m pose method loc b hloc hA
  obtain ⟨f2, r2, a2, c2⟩ := C38_mesh_flag pol s sB hs m (roundPose pose) method loc b' hloc' hB
  have e1 := Shell.setupMesh_rel (.inl ⟨b, hA⟩)
  have e2 := Shell.setupMesh_rel (.inl ⟨b', hB⟩)
  have z1 : sA.size = s.size := by unfold Shell.size; rw [e1.ribs]
  have z2 : sB.size = s.size := by unfold Shell.size; rw [e2.ribs]
  have hpA : sA.pose = pose := by rw [e1.pose]
  have hpB : sB.pose = roundPose pose := by rw [e2.pose]
  have key : ∀ i < s.size, f2 (s.size - 1 - i) = f1 i ∧ r2 (s.size - 1 - i) = r1 i := by
    intro i hi
    obtain ⟨r, g1, g2, -⟩ := a1 i hi
    obtain ⟨r', g1', g2', -⟩ := a2 (s.size - 1 - i) (by omega)
    have k1 : s.ribs[i]? = some r := by rw [← g1]; exact congrArg (·[i]?) e1.ribs.symm
    have k2 : s.ribs[s.size - 1 - i]? = some r' := by rw [← g1']; exact congrArg (·[s.size - 1 - i]?) e2.ribs.symm
    obtain ⟨r'', k3, hmr⟩ := hsym i r k1
    rw [k2] at k3
    cases k3
    have hmem := List.mem_of_getElem? k1
    have hr := hs.isRib r hmem
    have hr' := hs.isRib r' (List.mem_of_getElem? k2)
    have g2 : (if loc = [] then Res.ok (false, r.noContact pose) else
      r.envelopMesh (Shell.ribCandidates pose method loc r) pose method) = .ok (f1 i, r1 i) := g2
    have g2' : (if loc = [] then Res.ok (false, r'.noContact (roundPose pose)) else
      r'.envelopMesh (Shell.ribCandidates (roundPose pose) method loc r') (roundPose pose) method) = .ok (f2 _, r2 _) := g2'
    have hen : r'.envelopMesh (Shell.ribCandidates pose method loc r) (roundPose pose) method =
        r.envelopMesh (Shell.ribCandidates pose method loc r) pose method := by
      unfold Rib.envelopMesh
      by_cases hm : method = "geometric"
      · rw [if_pos hm, if_pos hm, C143_geometric_mesh_partial hr hr' hmr hp
          fun t ht => h hm loc hloc t (Shell.ribCandidates_sub ht) r hmem]
      · rw [if_neg hm, if_neg hm, (C143_sampling hr hr' hmr pose).2]
    rw [Shell.ribCandidates_round hmr hr hr', hen, hmr.noContact_round hr hr', g2] at g2'
    obtain ⟨u1, u2⟩ := Prod.mk.inj (Res.ok.inj g2')
    exact ⟨u1.symm, u2.symm⟩
  refine ⟨?_, by rw [z1, z2], by rw [hpA, hpB], ?_⟩
  · rw [Bool.eq_iff_iff, c1, c2]
    constructor
    · rintro ⟨i, hi, hf⟩
      refine ⟨s.size - 1 - i, by omega, ?_⟩
      rw [← (key (s.size - 1 - i) (by omega)).1, show s.size - 1 - (s.size - 1 - i) = i by omega]
      exact hf
    · rintro ⟨i, hi, hf⟩
      exact ⟨s.size - 1 - i, by omega, by rw [(key i hi).1]; exact hf⟩
  · intro i hi
    rw [z1] at hi ⊢
    obtain ⟨_, _, _, g⟩ := a1 i hi
    obtain ⟨_, _, _, g'⟩ := a2 (s.size - 1 - i) (by omega)
    exact ⟨_, g, by rw [g', (key i hi).2]⟩

/-- **C143 is false for the flag on flat ground**: a leaning wheel with two ribs, of which the first is in contact, answers "no contact"
and, turned round, "contact". -/
theorem C143_flag_refuted (fresh : Nat → Output ℝ) :
    ∃ (s sA sB : Shell ℝ) (g : Flat ℝ) (pose : Affine ℝ), Shell.make fresh 2 1 2 2 2 1 = .ok s ∧ IsRigid pose ∧
      Flat.make 1 ⟨0, 0, 0⟩ ⟨0, 0, 1⟩ = .ok g ∧ s.setupFlat .raw g pose "geometric" = .ok sA false ∧
      s.setupFlat .raw g (roundPose pose) "geometric" = .ok sB true := by
  obtain ⟨s, sA, g, pose, o, h1, hp, hg, hA, h5, h6, h7⟩ := C38_flat_flag_refuted fresh
  have hv : ValidProfile (1 : ℝ) 2 2 2 1 :=
    ⟨by norm_num, by norm_num, by norm_num, by norm_num, by norm_num, by norm_num⟩
  have hreach : s.Reachable .raw := .make h1
  have hsym := (C99_symmetric fresh (by norm_num)).2 _ _ _ _ _ s hv h1
  obtain ⟨s2, k1, k2, -⟩ := C04_construct fresh 2 (by norm_num) 1 2 2 2 1 hv
  rw [h1] at k1
  cases k1
  obtain ⟨sB, b', hB⟩ := Shell.setupFlat_total hreach (by omega) g (roundPose pose) (.inl rfl)
  refine ⟨s, sA, sB, g, pose, h1, hp, hg, hA, ?_⟩
  obtain ⟨f1, r1, a1, -⟩ := C38_flat_flag_partial .raw s sA g pose "geometric" false hA
  obtain ⟨r, g1, g2, g3⟩ := a1 0 (by omega)
  rw [h5] at g3
  cases g3
  have q1 : s.ribs[0]? = some r := by
    rw [← g1]; exact congrArg (·[0]?) (Shell.setupFlat_rel (.inl ⟨_, hA⟩)).ribs.symm
  obtain ⟨o', ho'⟩ := (C143_setup_flat_partial hreach hsym hp hg hA hB).2 r q1
  have g2 : r.envelopFlat g pose "geometric" = .ok (f1 0, r1 0) := g2
  rw [ho'] at g2
  obtain ⟨u1, u2⟩ := Prod.mk.inj (Res.ok.inj g2)
  rw [hB]
  cases b' with
  | true => rfl
  | false =>
    exfalso
    have hc : r.envelopFlat g pose "geometric" = .ok (r.envelopGeometricFlat g pose) := by simp [Rib.envelopFlat]
    rw [hc] at ho'
    have ho' := Res.ok.inj ho'
    have hr := hreach.isRib r (List.mem_of_getElem? q1)
    rcases Rib.geometricFlat_closed hr hp (Flat.make_unit hg) with ⟨-, w⟩ | ⟨-, w⟩
    · rw [w] at ho'; cases ho'
    · rw [w] at ho'
      have := (Prod.mk.inj ho').2
      rw [← u2, ← this] at h7
      simp [Rib.noContact] at h7

/-- **C143, the values of the whole tyre** are the same after the wheel is turned round: volume, area, depth, point, normal and friction;
the contact frames are turned round with the wheel. -/
theorem C143_values {pol : Policy} {s s' : Shell ℝ} (h : RoundShell pol s s') :
    s'.contactVolume pol = s.contactVolume pol ∧ s'.contactArea pol = s.contactArea pol ∧
    s'.contactDepth pol = s.contactDepth pol ∧ s'.contactPoint pol = s.contactPoint pol ∧
    s'.contactNormal pol = s.contactNormal pol ∧ s'.contactFriction pol = s.contactFriction pol ∧
    (∃ F, s.contactPointAffine pol = .ok F ∧ s'.contactPointAffine pol = .ok (roundPose F)) ∧
    ∀ i < s.size, ∃ F, s.contactPointAffineAt pol i = .ok F ∧
      s'.contactPointAffineAt pol (s.size - 1 - i) = .ok (roundPose F) := by
  have hframe : ∀ m p : V3 ℝ, Shell.contactFrame s'.yAxis m p = roundPose (Shell.contactFrame s.yAxis m p) := by
    intro m p
    have hy : s'.yAxis = V3.neg s.yAxis := by
      unfold Shell.yAxis
      rw [h.pose]
      simp [roundPose, V3.real_neg]
    unfold Shell.contactFrame
    rw [hy]
    simp only [neg_cross_left, neg_cross_right, neg_normalized, roundPose]
    simp only [V3.real_neg]
  have hall : ∀ i, ∃ x, i < s.size → s.out.read pol i = .ok x ∧ s'.out.read pol (s.size - 1 - i) = .ok x := by
    intro i
    by_cases hi : i < s.size
    · obtain ⟨x, hx, hx'⟩ := h.records i hi
      exact ⟨x, fun _ => ⟨hx, hx'⟩⟩
    · exact ⟨Output.default, fun hc => absurd hc hi⟩
  choose o ho using hall
  set o' : Nat → Output ℝ := fun i => o (s.size - 1 - i) with hdef
  have ho' : ∀ i < s.size, s'.out.read pol i = .ok (o' i) := by
    intro i hi
    have := (ho (s.size - 1 - i) (by omega)).2
    rwa [show s.size - 1 - (s.size - 1 - i) = i by omega] at this
  have hm : ∀ i < s.size, o' (s.size - 1 - i) = o i := by
    intro i hi
    show o (s.size - 1 - (s.size - 1 - i)) = o i
    rw [show s.size - 1 - (s.size - 1 - i) = i by omega]
  have hrep : Reports pol s o := Shell.reports_iff.2 fun i hi => (ho i hi).1
  have hrep' : Reports pol s' o' := Shell.reports_iff.2 (by rw [h.size]; exact ho')
  have hV := C42_total_real hrep
  have hV' := C42_total_real hrep'
  have hr := Shell.records_of_reports hrep
  have hr' := Shell.records_of_reports hrep'
  rw [h.size] at hV' hr'
  have sum : ∀ q : Output ℝ → ℝ, ∑ i ∈ Finset.range s.size, q (o' i) = ∑ i ∈ Finset.range s.size, q (o i) := fun q =>
    sum_mirror fun i hi => by rw [hm i hi]
  have sv := sum (·.volume)
  rw [sv] at hV'
  have fold : ∀ q : Output ℝ → ℝ, ribSum s.size (fun i => q (o' i)) = ribSum s.size (fun i => q (o i)) := by
    intro q
    rw [ribSum_real, ribSum_real, sum]
  have fold3 : ∀ q : Output ℝ → V3 ℝ, ((List.range s.size).map o').foldl (fun a r => V3.add a (q r)) V3.zeros =
      ((List.range s.size).map o).foldl (fun a r => V3.add a (q r)) V3.zeros := by
    intro q
    rw [Shell.foldl_range3, Shell.foldl_range3, fold fun r => (q r).x, fold fun r => (q r).y, fold fun r => (q r).z]
  have fold1 : ∀ q : Output ℝ → ℝ, ((List.range s.size).map o').foldl (fun a r => a +. q r) zero =
      ((List.range s.size).map o).foldl (fun a r => a +. q r) zero := by
    intro q
    rw [Shell.foldl_range, Shell.foldl_range, fold]
  have hpt : s'.contactPoint pol = s.contactPoint pol := by
    rw [Shell.contactPoint, hV', hr', Res.bind_ok, Res.bind_ok, Shell.contactPoint, hV, hr, Res.bind_ok, Res.bind_ok,
      h.size, fold3 (·.point), fold3 fun r => V3.smul r.volume r.point]
  have hno : s'.contactNormal pol = s.contactNormal pol := by
    rw [Shell.contactNormal, hV', hr', Res.bind_ok, Res.bind_ok, Shell.contactNormal, hV, hr, Res.bind_ok, Res.bind_ok,
      h.size, fold3 (·.normal), fold3 fun r => V3.smul r.volume r.normal]
  have hpt0 : ∃ p, s.contactPoint pol = .ok p := by
    rw [Shell.contactPoint, hV, hr, Res.bind_ok, Res.bind_ok]
    split <;> exact ⟨_, rfl⟩
  have hno0 : ∃ m, s.contactNormal pol = .ok m := by
    rw [Shell.contactNormal, hV, hr, Res.bind_ok, Res.bind_ok]
    split <;> exact ⟨_, rfl⟩
  refine ⟨by rw [hV, hV'], ?_, ?_, hpt, hno, ?_, ?_, ?_⟩
  · rw [Shell.contactArea, hr', Res.bind_ok, Shell.contactArea, hr, Res.bind_ok, fold1 (·.friction)]
  · rw [Shell.contactDepth, hV', hr', Res.bind_ok, Res.bind_ok, Shell.contactDepth, hV, hr, Res.bind_ok, Res.bind_ok,
      h.size, fold1 fun r => r.depth *. r.volume]
  · rw [Shell.contactFriction, hV', hr', Res.bind_ok, Res.bind_ok, Shell.contactFriction, hV, hr, Res.bind_ok,
      Res.bind_ok, h.size, fold1 fun r => r.friction *. r.volume, fold1 (·.friction)]
  · obtain ⟨p, p1⟩ := hpt0
    obtain ⟨m, m1⟩ := hno0
    refine ⟨_, by rw [Shell.contactPointAffine, p1, m1, Res.bind_ok, Res.bind_ok, Res.pure_eq], ?_⟩
    rw [Shell.contactPointAffine, hpt, hno, p1, m1, Res.bind_ok, Res.bind_ok, Res.pure_eq, hframe]
  · intro i hi
    refine ⟨_, by rw [Shell.contactPointAffineAt, (ho i hi).1, Res.bind_ok, Res.pure_eq], ?_⟩
    rw [Shell.contactPointAffineAt, (ho i hi).2, Res.bind_ok, Res.pure_eq, hframe]

/-! ### Examples -/

/-- A tyre with 25 ribs, leaning or not, on the flat road. -/
example (fresh : Nat → Output ℝ) (method : String) (hmeth : method = "geometric" ∨ method = "sampling") :
    ∃ (s sA sB : Shell ℝ) (b b' : Bool), SymmetricTyre s ∧ s.size = 25 ∧
      s.setupFlat .raw Demo.road ⟨Demo.turn.linear, ⟨3, -2, 1 / 4⟩⟩ method = .ok sA b ∧
      s.setupFlat .raw Demo.road (roundPose ⟨Demo.turn.linear, ⟨3, -2, 1 / 4⟩⟩) method = .ok sB b' ∧
      RoundShell .raw sA sB := by
  have hv : ValidProfile (1/2 : ℝ) 4 (1/4) 2 (1/8) :=
    ⟨by norm_num, by norm_num, by norm_num, by norm_num, by norm_num, by norm_num⟩
  obtain ⟨s, h1, h2, -⟩ := C04_construct fresh 25 (by norm_num) (1/2) 4 (1/4) 2 (1/8) hv
  have hreach : s.Reachable .raw := .make h1
  have hsym := (C99_symmetric fresh (by norm_num)).2 _ _ _ _ _ s hv h1
  obtain ⟨sA, b, hA⟩ := Shell.setupFlat_total hreach (by omega) Demo.road ⟨Demo.turn.linear, ⟨3, -2, 1 / 4⟩⟩ hmeth
  obtain ⟨sB, b', hB⟩ := Shell.setupFlat_total hreach (by omega) Demo.road
    (roundPose ⟨Demo.turn.linear, ⟨3, -2, 1 / 4⟩⟩) hmeth
  have k := C143_setup_flat_partial hreach hsym (pose := ⟨Demo.turn.linear, ⟨3, -2, 1 / 4⟩⟩) Demo.turn_rigid Demo.road_make hA hB
  exact ⟨s, sA, sB, b, b', hsym, h2, hA, hB, k.1⟩

/-- The same tyre on a mesh, by sampling. -/
example (fresh : Nat → Output ℝ) : ∃ (s sA sB : Shell ℝ) (b : Bool), SymmetricTyre s ∧ s.size = 25 ∧
    s.setupMesh .raw (Mesh.ofTriangles [Demo.field]) (Demo.upright (1 / 4)) "sampling" = .ok sA b ∧
    s.setupMesh .raw (Mesh.ofTriangles [Demo.field]) (roundPose (Demo.upright (1 / 4))) "sampling" = .ok sB b ∧
    RoundShell .raw sA sB := by
  have hv : ValidProfile (1/2 : ℝ) 4 (1/4) 2 (1/8) :=
    ⟨by norm_num, by norm_num, by norm_num, by norm_num, by norm_num, by norm_num⟩
  obtain ⟨s, h1, h2, -⟩ := C04_construct fresh 25 (by norm_num) (1/2) 4 (1/4) 2 (1/8) hv
  have hreach : s.Reachable .raw := .make h1
  have hsym := (C99_symmetric fresh (by norm_num)).2 _ _ _ _ _ s hv h1
  obtain ⟨sA, b, hA⟩ := Shell.setupMesh_sampling_total hreach (by omega) Demo.field_built (Demo.upright (1 / 4))
  obtain ⟨sB, b', hB⟩ := Shell.setupMesh_sampling_total hreach (by omega) Demo.field_built (roundPose (Demo.upright (1 / 4)))
  obtain ⟨rfl, k⟩ := C143_setup_mesh_partial hreach hsym (Demo.upright_rigid _) (fun h => absurd h (by decide)) hA hB
  exact ⟨s, sA, sB, _, hsym, h2, hA, hB, k⟩

/-- A wheel half a radius above a field: the section lies below the level of the axle. -/
example : OffAxleLevel (Demo.ribOf 1) (Demo.upright (1 / 2)) Demo.field ∧
    ∃ seg, Inter.triangleDisk Demo.field.tri ((Demo.ribOf 1).diskGrd (Demo.upright (1 / 2))) Scalar.eps = .ok (some seg) := by
  refine ⟨fun seg hseg p hp => ?_, _, Demo.field_cut⟩
  rw [Demo.field_cut] at hseg
  cases hseg
  obtain ⟨k, -, -, rfl⟩ := hp
  rintro ⟨x, y, h⟩
  have := congrArg V3.z h
  rw [Demo.upright_z] at this
  norm_num at this

end Enve
