import Verif.Props.IntersectProps

/-! # Intersections in the coordinates of a rigid frame

The intersection functions evaluated on a line, a triangle and a disk given by coordinates in a frame
whose x axis is the line, whose y axis is orthogonal to the disk and whose z axis is orthogonal to the
triangle. -/

namespace Enve
open Scalar Spec

namespace Spec.IsRotation
variable {m : M3 ℝ} (h : IsRotation m)
include h

theorem normalized_mulVec (a : V3 ℝ) : V3.normalized (M3.mulVec m a) = M3.mulVec m (V3.normalized a) := by
  by_cases ha : a = ⟨0, 0, 0⟩
  · have : M3.mulVec m a = ⟨0, 0, 0⟩ := by subst ha; v3; simp
    rw [V3.normalized_zero this, V3.normalized_zero ha]
  · have hn : M3.mulVec m a ≠ ⟨0, 0, 0⟩ := by
      rw [← V3.norm_pos, h.norm_mulVec, V3.norm_pos]; exact ha
    rw [V3.normalized_of_ne hn, V3.normalized_of_ne ha, h.norm_mulVec]
    generalize V3.norm a = k
    v3
    congr 1 <;> ring

theorem dotv_mulVec (a b : V3 ℝ) : V3.dot (M3.mulVec m a) (M3.mulVec m b) = V3.dot a b := by
  rw [V3.dot_eq, V3.dot_eq, h.dot_mulVec]

end Spec.IsRotation

namespace M3

theorem mulVec_e0 (m : M3 ℝ) : M3.mulVec m ⟨1, 0, 0⟩ = m.c0 := by v3; simp
theorem mulVec_e1 (m : M3 ℝ) : M3.mulVec m ⟨0, 1, 0⟩ = m.c1 := by v3; simp
theorem mulVec_e2 (m : M3 ℝ) : M3.mulVec m ⟨0, 0, 1⟩ = m.c2 := by v3; simp
theorem neg_mulVec (m : M3 ℝ) (a : V3 ℝ) : V3.neg (M3.mulVec m a) = M3.mulVec m (V3.neg a) := by
  v3; congr 1 <;> ring
theorem smul_mulVec (m : M3 ℝ) (k : ℝ) (a : V3 ℝ) :
    V3.smul k (M3.mulVec m a) = M3.mulVec m (V3.smul k a) := by
  v3; congr 1 <;> ring
theorem add_mulVec (m : M3 ℝ) (a b : V3 ℝ) :
    V3.add (M3.mulVec m a) (M3.mulVec m b) = M3.mulVec m (V3.add a b) := by
  v3; congr 1 <;> ring
theorem sub_mulVec (m : M3 ℝ) (a b : V3 ℝ) :
    V3.sub (M3.mulVec m a) (M3.mulVec m b) = M3.mulVec m (V3.sub a b) := by
  v3; congr 1 <;> ring

end M3

namespace Affine

theorem sub_apply (F : Affine ℝ) (a b : V3 ℝ) :
    V3.sub (F.apply a) (F.apply b) = M3.mulVec F.linear (V3.sub a b) := by
  v3; congr 1 <;> ring
theorem apply_zero (F : Affine ℝ) : F.apply ⟨0, 0, 0⟩ = F.trans := by v3; simp
theorem apply_add (F : Affine ℝ) (a b : V3 ℝ) :
    V3.add (F.apply a) (M3.mulVec F.linear b) = F.apply (V3.add a b) := by
  v3; congr 1 <;> ring

theorem apply_inj {F : Affine ℝ} (hF : IsRigid F) {a b : V3 ℝ} (h : F.apply a = F.apply b) : a = b := by
  have h1 : V3.sub (F.apply a) (F.apply b) = ⟨0, 0, 0⟩ := by rw [h]; v3; simp
  rw [sub_apply] at h1
  have h2 : V3.norm (V3.sub a b) = 0 := by rw [← hF.norm_mulVec, h1, V3.norm_eq_zero]
  rw [V3.norm_eq_zero, V3.real_sub, V3.mk.injEq] at h2
  ext <;> linarith [h2.1, h2.2.1, h2.2.2]

theorem dist_apply {F : Affine ℝ} (hF : IsRigid F) (a b : V3 ℝ) : dist3 (F.apply a) (F.apply b) = dist3 a b := by
  rw [← V3.norm_sub, sub_apply, hF.norm_mulVec, V3.norm_sub]

end Affine

/-- The x axis of a frame as a line. -/
def Spec.xAxis (F : Affine ℝ) : Line ℝ := ⟨F.trans, F.linear.c0⟩

theorem V3.norm_planar (x y : ℝ) : V3.norm ⟨x, y, 0⟩ = Real.sqrt (x ^ 2 + y ^ 2) := by
  rw [V3.norm_eq, length3]; congr 1; ring

/-- The x axis against a segment of the xy plane. -/
theorem Inter.lineSegment_planar {F : Affine ℝ} (hF : IsRigid F) (tol : ℝ) (ht : 0 < tol) (x0 y0 x1 y1 : ℝ) :
    Inter.lineSegment (xAxis F) ⟨F.apply ⟨x0, y0, 0⟩, F.apply ⟨x1, y1, 0⟩⟩ tol =
      if |y1 - y0| < tol * Real.sqrt ((x1 - x0) ^ 2 + (y1 - y0) ^ 2) ∨ y0 = y1 then none
      else if y0 / (y0 - y1) < -tol ∨ 1 + tol < y0 / (y0 - y1) then none
      else some (F.apply ⟨x0 + y0 / (y0 - y1) * (x1 - x0), 0, 0⟩) := by
  have hR : IsRotation F.linear := hF
  have hpar : Inter.isParallel (xAxis F).direction
      (Segment.toUnitVector ⟨F.apply ⟨x0, y0, 0⟩, F.apply ⟨x1, y1, 0⟩⟩) tol = true ↔
      (|y1 - y0| < tol * Real.sqrt ((x1 - x0) ^ 2 + (y1 - y0) ^ 2) ∨ y0 = y1) := by
    simp only [Inter.isParallel, Segment.toUnitVector, xAxis, Affine.sub_apply, hR.normalized_mulVec]
    rw [← M3.mulVec_e0 F.linear, ← hR.mulVec_cross, hR.norm_mulVec]
    simp only [Scalar.isApprox, real_lt, real_sub, real_zero, sub_zero, real_abs, decide_eq_true_eq]
    by_cases hv : V3.sub (⟨x1, y1, 0⟩ : V3 ℝ) ⟨x0, y0, 0⟩ = ⟨0, 0, 0⟩
    · rw [V3.normalized_zero hv, hv]
      rw [V3.real_sub, V3.mk.injEq] at hv
      have h1 : V3.cross (⟨1, 0, 0⟩ : V3 ℝ) ⟨0, 0, 0⟩ = ⟨0, 0, 0⟩ := by v3; simp
      rw [h1, V3.norm_eq_zero.2 rfl, abs_zero]
      exact ⟨fun _ => .inr (by have := hv.2.1; dsimp only at this; linarith), fun _ => ht⟩
    · rw [V3.normalized_of_ne hv]
      have hn : V3.norm (V3.sub (⟨x1, y1, 0⟩ : V3 ℝ) ⟨x0, y0, 0⟩) =
          Real.sqrt ((x1 - x0) ^ 2 + (y1 - y0) ^ 2) := by
        rw [← V3.norm_planar]; congr 1; v3; congr 1; ring
      have hnp := V3.norm_pos.2 hv
      rw [hn] at hnp ⊢
      generalize Real.sqrt ((x1 - x0) ^ 2 + (y1 - y0) ^ 2) = L at *
      have e : V3.norm (V3.cross (⟨1, 0, 0⟩ : V3 ℝ) ⟨(V3.sub (⟨x1, y1, 0⟩ : V3 ℝ) ⟨x0, y0, 0⟩).x / L,
          (V3.sub (⟨x1, y1, 0⟩ : V3 ℝ) ⟨x0, y0, 0⟩).y / L,
          (V3.sub (⟨x1, y1, 0⟩ : V3 ℝ) ⟨x0, y0, 0⟩).z / L⟩) = |y1 - y0| / L := by
        rw [V3.norm_eq, length3]
        v3
        rw [show ((0 * ((0 - 0) / L) - 0 * ((y1 - y0) / L)) ^ 2 + (0 * ((x1 - x0) / L) - 1 * ((0 - 0) / L)) ^ 2 +
          (1 * ((y1 - y0) / L) - 0 * ((x1 - x0) / L)) ^ 2 : ℝ) = ((y1 - y0) / L) ^ 2 by ring, Real.sqrt_sq_eq_abs,
          abs_div, abs_of_pos hnp]
      rw [e, abs_of_nonneg (by positivity), div_lt_iff₀ hnp]
      constructor
      · exact .inl
      · rintro (h | h)
        · exact h
        · subst h; rw [sub_self, abs_zero]; positivity
  unfold Inter.lineSegment
  by_cases hp : |y1 - y0| < tol * Real.sqrt ((x1 - x0) ^ 2 + (y1 - y0) ^ 2) ∨ y0 = y1
  · rw [if_pos (hpar.2 hp), if_pos hp]
  rw [if_neg (fun h => hp (hpar.1 h)), if_neg hp]
  push Not at hp
  have hne : y0 - y1 ≠ 0 := sub_ne_zero.2 hp.2
  dsimp only
  have eT := (Affine.apply_zero F).symm
  have e0 := (M3.mulVec_e0 F.linear).symm
  simp only [Segment.toVector, xAxis, eT, e0]
  simp only [Affine.sub_apply, ← hR.mulVec_cross, M3.neg_mulVec, hR.dotv_mulVec, M3.smul_mulVec,
    Affine.apply_add]
  have t1 : V3.dot (V3.cross (V3.sub (⟨0, 0, 0⟩ : V3 ℝ) ⟨x0, y0, 0⟩) ⟨1, 0, 0⟩)
      (V3.neg (V3.cross ⟨1, 0, 0⟩ (V3.sub (⟨x1, y1, 0⟩ : V3 ℝ) ⟨x0, y0, 0⟩))) /.
      V3.dot (V3.neg (V3.cross ⟨1, 0, 0⟩ (V3.sub (⟨x1, y1, 0⟩ : V3 ℝ) ⟨x0, y0, 0⟩)))
      (V3.neg (V3.cross ⟨1, 0, 0⟩ (V3.sub (⟨x1, y1, 0⟩ : V3 ℝ) ⟨x0, y0, 0⟩))) = y0 / (y0 - y1) := by
    v3
    have : y1 - y0 ≠ 0 := fun h => hne (by linarith)
    rw [div_eq_div_iff _ hne]
    · ring
    · intro h
      apply this
      have : (y1 - y0) ^ 2 = 0 := by linear_combination h
      exact pow_eq_zero_iff two_ne_zero |>.1 this
  have t0 : V3.dot (V3.cross (V3.sub (⟨x0, y0, 0⟩ : V3 ℝ) ⟨0, 0, 0⟩) (V3.sub (⟨x1, y1, 0⟩ : V3 ℝ) ⟨x0, y0, 0⟩))
      (V3.cross ⟨1, 0, 0⟩ (V3.sub (⟨x1, y1, 0⟩ : V3 ℝ) ⟨x0, y0, 0⟩)) /.
      V3.dot (V3.cross ⟨1, 0, 0⟩ (V3.sub (⟨x1, y1, 0⟩ : V3 ℝ) ⟨x0, y0, 0⟩))
      (V3.cross ⟨1, 0, 0⟩ (V3.sub (⟨x1, y1, 0⟩ : V3 ℝ) ⟨x0, y0, 0⟩)) = x0 + y0 / (y0 - y1) * (x1 - x0) := by
    v3
    have : y1 - y0 ≠ 0 := fun h => hne (by linarith)
    rw [div_eq_iff]
    · field_simp; ring
    · intro h
      apply this
      have : (y1 - y0) ^ 2 = 0 := by linear_combination h
      exact pow_eq_zero_iff two_ne_zero |>.1 this
  rw [t1, t0]
  generalize y0 / (y0 - y1) = t
  simp only [real_lt, real_sub, real_zero, real_one, real_add, zero_sub, Bool.or_eq_true, decide_eq_true_eq]
  congr 2
  v3
  simp

/-- The x axis misses a segment that is on one side of it, far enough from it relative to its slope. -/
theorem Inter.lineSegment_miss {F : Affine ℝ} (hF : IsRigid F) {tol : ℝ} (ht : 0 < tol) {x0 y0 x1 y1 : ℝ}
    (h : 0 < y0 * y1) (h0 : tol * |y0 - y1| < |y0|) (h1 : tol * |y0 - y1| < |y1|) :
    Inter.lineSegment (xAxis F) ⟨F.apply ⟨x0, y0, 0⟩, F.apply ⟨x1, y1, 0⟩⟩ tol = none := by
  rw [Inter.lineSegment_planar hF tol ht]
  split
  · rfl
  · rename_i hp
    push Not at hp
    rw [if_pos]
    rcases lt_or_gt_of_ne hp.2 with hlt | hgt
    · -- y0 < y1
      have hd : y0 - y1 < 0 := by linarith
      rcases pos_and_pos_or_neg_and_neg_of_mul_pos h with ⟨a, b⟩ | ⟨a, b⟩
      · left
        rw [div_lt_iff_of_neg hd]
        rw [abs_of_neg hd, abs_of_pos a] at h0
        linarith
      · right
        rw [lt_div_iff_of_neg hd]
        rw [abs_of_neg hd, abs_of_neg b] at h1
        linarith
    · have hd : 0 < y0 - y1 := by linarith
      rcases pos_and_pos_or_neg_and_neg_of_mul_pos h with ⟨a, b⟩ | ⟨a, b⟩
      · right
        rw [lt_div_iff₀ hd]
        rw [abs_of_pos hd, abs_of_pos b] at h1
        linarith
      · left
        rw [div_lt_iff₀ hd]
        rw [abs_of_pos hd, abs_of_neg a] at h0
        linarith

/-- The x axis hits a segment that crosses it (or touches it) and is not almost parallel to it. -/
theorem Inter.lineSegment_hit {F : Affine ℝ} (hF : IsRigid F) {tol : ℝ} (ht : 0 < tol) {x0 y0 x1 y1 : ℝ}
    (h : y0 * y1 ≤ 0) (hne : y0 ≠ y1) (h0 : tol * Real.sqrt ((x1 - x0) ^ 2 + (y1 - y0) ^ 2) ≤ |y1 - y0|) :
    Inter.lineSegment (xAxis F) ⟨F.apply ⟨x0, y0, 0⟩, F.apply ⟨x1, y1, 0⟩⟩ tol =
      some (F.apply ⟨x0 + y0 / (y0 - y1) * (x1 - x0), 0, 0⟩) := by
  have : 0 ≤ y0 / (y0 - y1) ∧ y0 / (y0 - y1) ≤ 1 := by
    rcases lt_or_gt_of_ne hne with hlt | hgt
    · have hd : y0 - y1 < 0 := by linarith
      have : y0 ≤ 0 := by by_contra hc; push Not at hc; nlinarith
      have : 0 ≤ y1 := by by_contra hc; push Not at hc; nlinarith
      exact ⟨div_nonneg_of_nonpos (by linarith) hd.le, by rw [div_le_one_of_neg hd]; linarith⟩
    · have hd : 0 < y0 - y1 := by linarith
      have : 0 ≤ y0 := by by_contra hc; push Not at hc; nlinarith
      have : y1 ≤ 0 := by by_contra hc; push Not at hc; nlinarith
      exact ⟨div_nonneg (by linarith) hd.le, by rw [div_le_one hd]; linarith⟩
  rw [Inter.lineSegment_planar hF tol ht, if_neg, if_neg]
  · push Not; constructor <;> linarith [this.1, this.2]
  · push Not; exact ⟨h0, hne⟩

/-! ## The common line of a disk plane and a triangle plane -/

/-- The frame of the section: x along the common line, y along the axis of the disk, z along the
normal of the triangle; its origin is the one the code chooses on the line. -/
structure Spec.SectionFrame (F : Affine ℝ) (d : Disk ℝ) (T : Triangle ℝ) : Prop where
  rigid : IsRigid F
  axis : d.plane.normal = F.linear.c1
  normal : T.normal = F.linear.c2
  origin0 : dot3 F.trans F.linear.c0 = 0
  origin1 : dot3 F.trans F.linear.c1 = dot3 d.plane.origin F.linear.c1
  origin2 : dot3 F.trans F.linear.c2 = dot3 T.centroid F.linear.c2

/-- A vector in the axes of a rotation. -/
theorem Spec.IsRotation.expand {m : M3 ℝ} (h : IsRotation m) (v : V3 ℝ) :
    v = M3.mulVec m ⟨dot3 v m.c0, dot3 v m.c1, dot3 v m.c2⟩ := by
  have := h.mulVec_transpose v
  conv_lhs => rw [← this]
  congr 1
  simp only [dot3]
  v3
  congr 1 <;> ring

theorem Inter.planePlane_section {F : Affine ℝ} {d : Disk ℝ} {T : Triangle ℝ} (h : SectionFrame F d T)
    {tol : ℝ} (ht : tol ≤ 1) : Inter.planePlane d.layingPlane T.layingPlane tol = some (xAxis F) := by
  have hR : IsRotation F.linear := h.rigid
  unfold Inter.planePlane
  simp only [Disk.layingPlane, Triangle.layingPlane, h.axis, h.normal, Plane.d]
  rw [V3.normalized_unit hR.unit1, V3.normalized_unit hR.unit2, hR.cross12, V3.norm_eq_one.2 hR.unit0]
  have hd : V3.dot F.linear.c1 F.linear.c2 = 0 := by rw [V3.dot_eq]; exact hR.orth12
  rw [hd]
  simp only [Scalar.isApprox, real_mul, real_sub, real_zero, real_abs, real_lt, real_one, real_div, real_neg, V3.dot_eq,
    decide_eq_true_eq]
  rw [if_neg (by norm_num; exact ht), ← h.origin1, ← h.origin2]
  congr 1
  unfold xAxis
  congr 1
  conv_rhs => rw [hR.expand F.trans, h.origin0]
  v3
  congr 1 <;> ring

/-- The points of the triangle plane in the section frame. -/
theorem Spec.SectionFrame.coords {F : Affine ℝ} {d : Disk ℝ} {T : Triangle ℝ} (h : SectionFrame F d T) {p : V3 ℝ}
    (hp : OnPlane T.layingPlane p) :
    p = F.apply ⟨dot3 p F.linear.c0, dot3 (minus p d.plane.origin) F.linear.c1, 0⟩ := by
  have hR : IsRotation F.linear := h.rigid
  have h1 : dot3 (minus p T.centroid) F.linear.c2 = 0 := by
    have : dot3 (minus p T.centroid) T.normal = 0 := hp
    rwa [h.normal] at this
  have e := hR.expand (minus p F.trans)
  have o0 := h.origin0
  have o1 := h.origin1
  have o2 := h.origin2
  have e0 : dot3 (minus p F.trans) F.linear.c0 = dot3 p F.linear.c0 := by
    simp only [dot3, minus] at *; linear_combination -o0
  have e1 : dot3 (minus p F.trans) F.linear.c1 = dot3 (minus p d.plane.origin) F.linear.c1 := by
    simp only [dot3, minus] at *; linear_combination -o1
  have e2 : dot3 (minus p F.trans) F.linear.c2 = 0 := by
    simp only [dot3, minus] at *; linear_combination h1 - o2
  rw [e0, e1, e2] at e
  have e' : p = V3.add (minus p F.trans) F.trans := by simp only [minus]; v3; simp
  conv_lhs => rw [e', e]
  rfl

/-- The disk centre in the section frame. -/
theorem Spec.SectionFrame.center {F : Affine ℝ} {d : Disk ℝ} {T : Triangle ℝ} (h : SectionFrame F d T) :
    d.plane.origin = F.apply ⟨dot3 d.plane.origin F.linear.c0, 0,
      dot3 (minus d.plane.origin T.centroid) F.linear.c2⟩ := by
  have hR : IsRotation F.linear := h.rigid
  have e := hR.expand (minus d.plane.origin F.trans)
  have o0 := h.origin0
  have o1 := h.origin1
  have o2 := h.origin2
  have e0 : dot3 (minus d.plane.origin F.trans) F.linear.c0 = dot3 d.plane.origin F.linear.c0 := by
    simp only [dot3, minus] at *; linear_combination -o0
  have e1 : dot3 (minus d.plane.origin F.trans) F.linear.c1 = 0 := by
    simp only [dot3, minus] at *; linear_combination -o1
  have e2 : dot3 (minus d.plane.origin F.trans) F.linear.c2 =
      dot3 (minus d.plane.origin T.centroid) F.linear.c2 := by
    simp only [dot3, minus] at *; linear_combination - o2
  rw [e0, e1, e2] at e
  have e' : d.plane.origin = V3.add (minus d.plane.origin F.trans) F.trans := by simp only [minus]; v3; simp
  conv_lhs => rw [e', e]
  rfl

/-- Orthogonal disk and triangle have a section frame. -/
noncomputable def Spec.sectionFrame (d : Disk ℝ) (T : Triangle ℝ) : Affine ℝ :=
  ⟨⟨V3.cross d.plane.normal T.normal, d.plane.normal, T.normal⟩,
   V3.add (V3.smul (dot3 d.plane.origin d.plane.normal) d.plane.normal)
    (V3.smul (dot3 T.centroid T.normal) T.normal)⟩

theorem Spec.sectionFrame_spec {d : Disk ℝ} {T : Triangle ℝ} (hd : Unit3 d.plane.normal)
    (hT : Unit3 T.normal) (ho : dot3 d.plane.normal T.normal = 0) : SectionFrame (sectionFrame d T) d T := by
  generalize hn : d.plane.normal = n at *
  generalize hN : T.normal = N at *
  unfold Unit3 at hd hT
  unfold dot3 at ho
  have hF : sectionFrame d T = ⟨⟨V3.cross n N, n, N⟩,
    V3.add (V3.smul (dot3 d.plane.origin n) n) (V3.smul (dot3 T.centroid N) N)⟩ := by
    unfold sectionFrame; rw [hn, hN]
  rw [hF]
  have hsq : (n.y * N.z - n.z * N.y) ^ 2 + (n.z * N.x - n.x * N.z) ^ 2 + (n.x * N.y - n.y * N.x) ^ 2 = 1 := by
    linear_combination (n.x ^ 2 + n.y ^ 2 + n.z ^ 2) * hT + hd - (n.x * N.x + n.y * N.y + n.z * N.z) * ho
  refine ⟨⟨?_, hd, hT, ?_, ?_, ho, ?_⟩, hn, hN, ?_, ?_, ?_⟩
  · v3; exact hsq
  · v3; ring
  · v3; ring
  · v3; linear_combination hsq
  · simp only [dot3]; v3; ring
  · generalize d.plane.origin = c
    generalize T.centroid = e
    simp only [dot3]; v3
    linear_combination (c.x * n.x + c.y * n.y + c.z * n.z) * hd + (e.x * N.x + e.y * N.y + e.z * N.z) * ho
  · generalize d.plane.origin = c
    generalize T.centroid = e
    simp only [dot3]; v3
    linear_combination (c.x * n.x + c.y * n.y + c.z * n.z) * ho + (e.x * N.x + e.y * N.y + e.z * N.z) * hT

/-! ## A segment of the x axis against a disk of the xz plane -/

/-- The clamping of `std::max(0, std::min(t, 1))`. -/
noncomputable def Spec.clamp01 (t : ℝ) : ℝ := Max.max 0 (Min.min t 1)

theorem Inter.segmentDisk_planar {F : Affine ℝ} (hF : IsRigid F) (tol a b k h R : ℝ) (ht : 0 < tol) (ht1 : tol ≤ 1)
    (hR : tol ≤ R) (hab : tol ≤ |b - a|) :
    Inter.segmentDisk ⟨F.apply ⟨a, 0, 0⟩, F.apply ⟨b, 0, 0⟩⟩ ⟨R, ⟨F.apply ⟨k, 0, h⟩, F.linear.c1⟩⟩ tol =
      if (b - a) ^ 2 * (R ^ 2 - h ^ 2) < -tol then none
      else if |(b - a) ^ 2 * (R ^ 2 - h ^ 2)| < tol then
        if (k - a) / (b - a) < 0 ∨ 1 < (k - a) / (b - a) then none
        else some ⟨F.apply ⟨k, 0, 0⟩, F.apply ⟨k, 0, 0⟩⟩
      else
        let t0 := (k - a) / (b - a) - Real.sqrt (R ^ 2 - h ^ 2) / |b - a|
        let t1 := (k - a) / (b - a) + Real.sqrt (R ^ 2 - h ^ 2) / |b - a|
        if (t0 < 0 ∧ t1 < 0) ∨ (1 < t0 ∧ 1 < t1) then none
        else some ⟨F.apply ⟨a + clamp01 t0 * (b - a), 0, 0⟩, F.apply ⟨a + clamp01 t1 * (b - a), 0, 0⟩⟩ := by
  have hRot : IsRotation F.linear := hF
  have hba : 0 < |b - a| := ht.trans_le hab
  have hne : b - a ≠ 0 := abs_pos.1 hba
  unfold Inter.segmentDisk
  have hs : Segment.isDegenerated ⟨F.apply ⟨a, 0, 0⟩, F.apply ⟨b, 0, 0⟩⟩ tol = false := by
    simp only [Segment.isDegenerated, Affine.sub_apply, hRot.norm_mulVec, Scalar.isApprox, real_lt, real_sub,
      real_zero, sub_zero, real_abs, decide_eq_false_iff_not, not_lt]
    have : V3.sub (⟨a, 0, 0⟩ : V3 ℝ) ⟨b, 0, 0⟩ = ⟨a - b, 0, 0⟩ := by v3; simp
    rw [this, V3.norm_eq, length3]
    have e2 : Real.sqrt ((a - b) ^ 2 + 0 ^ 2 + 0 ^ 2) = |b - a| := by
      rw [show ((a - b) ^ 2 + 0 ^ 2 + 0 ^ 2 : ℝ) = (b - a) ^ 2 by ring, Real.sqrt_sq_eq_abs]
    rw [e2, abs_abs]; exact hab
  have hd : Disk.isDegenerated ⟨R, ⟨F.apply ⟨k, 0, h⟩, F.linear.c1⟩⟩ tol = false := by
    simp only [Disk.isDegenerated, Plane.isDegenerated, V3.norm_eq_one.2 hRot.unit1, Scalar.isApprox, real_lt,
      real_sub, real_zero, sub_zero, real_abs, Bool.or_eq_false_iff, decide_eq_false_iff_not, not_lt, abs_one]
    exact ⟨hR.trans (le_abs_self R), ht1⟩
  rw [hs, hd, if_neg (by simp)]
  simp only [Segment.toVector, Disk.center, Affine.sub_apply, hRot.dotv_mulVec, M3.smul_mulVec, Affine.apply_add]
  have a2 : V3.dot (V3.sub (⟨b, 0, 0⟩ : V3 ℝ) ⟨a, 0, 0⟩) (V3.sub (⟨b, 0, 0⟩ : V3 ℝ) ⟨a, 0, 0⟩) = (b - a) ^ 2 := by
    v3; ring
  have a1 : V3.dot (V3.sub (⟨a, 0, 0⟩ : V3 ℝ) ⟨k, 0, h⟩) (V3.sub (⟨b, 0, 0⟩ : V3 ℝ) ⟨a, 0, 0⟩) =
      (a - k) * (b - a) := by
    v3; ring
  have a0 : V3.dot (V3.sub (⟨a, 0, 0⟩ : V3 ℝ) ⟨k, 0, h⟩) (V3.sub (⟨a, 0, 0⟩ : V3 ℝ) ⟨k, 0, h⟩) =
      (a - k) ^ 2 + h ^ 2 := by
    v3; ring
  simp only [a2, a1, a0, real_mul, real_sub, real_lt, real_neg, real_abs, real_div, real_one, real_add,
    real_sqrt, real_zero, real_max, real_min]
  have hdisc : (a - k) * (b - a) * ((a - k) * (b - a)) - ((a - k) ^ 2 + h ^ 2 - R * R) * (b - a) ^ 2 =
      (b - a) ^ 2 * (R ^ 2 - h ^ 2) := by ring
  rw [hdisc]
  simp only [decide_eq_true_eq]
  have hroot : Real.sqrt ((b - a) ^ 2 * (R ^ 2 - h ^ 2)) = |b - a| * Real.sqrt (R ^ 2 - h ^ 2) := by
    rw [Real.sqrt_mul (sq_nonneg _), Real.sqrt_sq_eq_abs]
  rw [hroot]
  have habs : |b - a| * |b - a| = (b - a) ^ 2 := by rw [abs_mul_abs_self, sq]
  have hX : -((a - k) * (b - a)) * (1 / (b - a) ^ 2) = (k - a) / (b - a) := by field_simp; ring
  have hX0 : -((a - k) * (b - a) + |b - a| * Real.sqrt (R ^ 2 - h ^ 2)) * (1 / (b - a) ^ 2) =
      (k - a) / (b - a) - Real.sqrt (R ^ 2 - h ^ 2) / |b - a| := by
    rw [neg_add, add_mul, hX, sub_eq_add_neg]
    congr 1
    rw [← habs]; field_simp
  have hX1 : -((a - k) * (b - a) - |b - a| * Real.sqrt (R ^ 2 - h ^ 2)) * (1 / (b - a) ^ 2) =
      (k - a) / (b - a) + Real.sqrt (R ^ 2 - h ^ 2) / |b - a| := by
    rw [neg_sub, sub_mul, sub_eq_add_neg, ← neg_mul, hX, add_comm]
    congr 1
    rw [← habs]; field_simp
  rw [hX, hX0, hX1]
  have hv : ∀ t : ℝ, V3.add (⟨a, 0, 0⟩ : V3 ℝ) (V3.smul t (V3.sub (⟨b, 0, 0⟩ : V3 ℝ) ⟨a, 0, 0⟩)) =
      ⟨a + t * (b - a), 0, 0⟩ := by
    intro t; v3; simp
  simp only [hv, Bool.or_eq_true, Bool.and_eq_true, decide_eq_true_eq]
  have hk : a + (k - a) / (b - a) * (b - a) = k := by field_simp; ring
  rw [hk]
  rfl

/-- A segment inside the disk is returned unchanged. -/
theorem Inter.segmentDisk_inside {F : Affine ℝ} (hF : IsRigid F) {tol a b k h R : ℝ} (ht : 0 < tol) (ht1 : tol ≤ 1)
    (hR : tol ≤ R) (hab : tol ≤ |b - a|) (hD : tol ≤ (b - a) ^ 2 * (R ^ 2 - h ^ 2))
    (ha : (a - k) ^ 2 ≤ R ^ 2 - h ^ 2) (hb : (b - k) ^ 2 ≤ R ^ 2 - h ^ 2) :
    Inter.segmentDisk ⟨F.apply ⟨a, 0, 0⟩, F.apply ⟨b, 0, 0⟩⟩ ⟨R, ⟨F.apply ⟨k, 0, h⟩, F.linear.c1⟩⟩ tol =
      some ⟨F.apply ⟨a, 0, 0⟩, F.apply ⟨b, 0, 0⟩⟩ := by
  have hba : 0 < |b - a| := ht.trans_le hab
  have hne : b - a ≠ 0 := abs_pos.1 hba
  rw [Inter.segmentDisk_planar hF tol a b k h R ht ht1 hR hab, if_neg (by linarith),
    if_neg (by rw [abs_of_nonneg (by linarith)]; linarith)]
  have ha' := Real.abs_le_sqrt ha
  have hb' := Real.abs_le_sqrt hb
  have hS := Real.sqrt_nonneg (R ^ 2 - h ^ 2)
  generalize Real.sqrt (R ^ 2 - h ^ 2) = S at *
  rw [abs_le] at ha' hb'
  have h0 : (k - a) / (b - a) - S / |b - a| ≤ 0 := by
    rcases lt_or_gt_of_ne hne with hlt | hgt
    · rw [abs_of_neg hlt, div_neg, sub_neg_eq_add, ← add_div]
      exact div_nonpos_of_nonneg_of_nonpos (by linarith) hlt.le
    · rw [abs_of_pos hgt, ← sub_div]
      exact div_nonpos_of_nonpos_of_nonneg (by linarith) hgt.le
  have h1 : 1 ≤ (k - a) / (b - a) + S / |b - a| := by
    rcases lt_or_gt_of_ne hne with hlt | hgt
    · rw [abs_of_neg hlt, div_neg, ← sub_eq_add_neg, ← sub_div, one_le_div_of_neg hlt]
      linarith
    · rw [abs_of_pos hgt, ← add_div, one_le_div hgt]
      linarith
  dsimp only
  rw [if_neg (by rintro (⟨-, c⟩ | ⟨c, -⟩) <;> linarith)]
  have c0 : clamp01 ((k - a) / (b - a) - S / |b - a|) = 0 := by
    unfold clamp01; rw [max_eq_left]; exact (min_le_left _ _).trans h0
  have c1 : clamp01 ((k - a) / (b - a) + S / |b - a|) = 1 := by
    unfold clamp01; rw [min_eq_right h1, max_eq_right zero_le_one]
  rw [c0, c1]
  simp

/-- A segment containing the chord is cut to the chord, in the direction of the segment. -/
theorem Inter.segmentDisk_cover {F : Affine ℝ} (hF : IsRigid F) {tol a b k h R : ℝ} (ht : 0 < tol) (ht1 : tol ≤ 1)
    (hR : tol ≤ R) (hab : tol ≤ |b - a|) (hD : tol ≤ (b - a) ^ 2 * (R ^ 2 - h ^ 2)) :
    (a ≤ k - Real.sqrt (R ^ 2 - h ^ 2) → k + Real.sqrt (R ^ 2 - h ^ 2) ≤ b →
      Inter.segmentDisk ⟨F.apply ⟨a, 0, 0⟩, F.apply ⟨b, 0, 0⟩⟩ ⟨R, ⟨F.apply ⟨k, 0, h⟩, F.linear.c1⟩⟩ tol =
      some ⟨F.apply ⟨k - Real.sqrt (R ^ 2 - h ^ 2), 0, 0⟩, F.apply ⟨k + Real.sqrt (R ^ 2 - h ^ 2), 0, 0⟩⟩) ∧
    (b ≤ k - Real.sqrt (R ^ 2 - h ^ 2) → k + Real.sqrt (R ^ 2 - h ^ 2) ≤ a →
      Inter.segmentDisk ⟨F.apply ⟨a, 0, 0⟩, F.apply ⟨b, 0, 0⟩⟩ ⟨R, ⟨F.apply ⟨k, 0, h⟩, F.linear.c1⟩⟩ tol =
      some ⟨F.apply ⟨k + Real.sqrt (R ^ 2 - h ^ 2), 0, 0⟩, F.apply ⟨k - Real.sqrt (R ^ 2 - h ^ 2), 0, 0⟩⟩) := by
  have hba : 0 < |b - a| := ht.trans_le hab
  have hne : b - a ≠ 0 := abs_pos.1 hba
  rw [Inter.segmentDisk_planar hF tol a b k h R ht ht1 hR hab, if_neg (by linarith),
    if_neg (by rw [abs_of_nonneg (by linarith)]; linarith)]
  have hS := Real.sqrt_nonneg (R ^ 2 - h ^ 2)
  generalize Real.sqrt (R ^ 2 - h ^ 2) = S at *
  dsimp only
  constructor
  · intro h1 h2
    have hgt : 0 < b - a := lt_of_le_of_ne (by linarith) (Ne.symm hne)
    rw [abs_of_pos hgt, ← sub_div, ← add_div]
    have e0 : 0 ≤ (k - a - S) / (b - a) := div_nonneg (by linarith) hgt.le
    have e0' : (k - a - S) / (b - a) ≤ 1 := by rw [div_le_one hgt]; linarith
    have e1 : 0 ≤ (k - a + S) / (b - a) := div_nonneg (by linarith) hgt.le
    have e1' : (k - a + S) / (b - a) ≤ 1 := by rw [div_le_one hgt]; linarith
    rw [if_neg (by rintro (⟨c, -⟩ | ⟨c, -⟩) <;> linarith)]
    unfold clamp01
    rw [min_eq_left e0', min_eq_left e1', max_eq_right e0, max_eq_right e1, div_mul_cancel₀ _ hne, div_mul_cancel₀ _ hne]
    rw [show a + (k - a - S) = k - S by ring, show a + (k - a + S) = k + S by ring]
  · intro h1 h2
    have hlt : b - a < 0 := lt_of_le_of_ne (by linarith) hne
    rw [abs_of_neg hlt, div_neg, sub_neg_eq_add, ← sub_eq_add_neg, ← sub_div, ← add_div]
    have e0 : 0 ≤ (k - a - S) / (b - a) := div_nonneg_of_nonpos (by linarith) hlt.le
    have e0' : (k - a - S) / (b - a) ≤ 1 := by rw [div_le_one_of_neg hlt]; linarith
    have e1 : 0 ≤ (k - a + S) / (b - a) := div_nonneg_of_nonpos (by linarith) hlt.le
    have e1' : (k - a + S) / (b - a) ≤ 1 := by rw [div_le_one_of_neg hlt]; linarith
    rw [if_neg (by rintro (⟨c, -⟩ | ⟨c, -⟩) <;> linarith)]
    unfold clamp01
    rw [min_eq_left e0', min_eq_left e1', max_eq_right e0, max_eq_right e1, div_mul_cancel₀ _ hne, div_mul_cancel₀ _ hne]
    rw [show a + (k - a - S) = k - S by ring, show a + (k - a + S) = k + S by ring]

/-! ## A triangle of the xy plane crossed by the x axis -/

/-- Where the segment from `(x0, y0)` to `(x1, y1)` meets the x axis. -/
noncomputable def Spec.crossX (x0 y0 x1 y1 : ℝ) : ℝ := x0 + y0 / (y0 - y1) * (x1 - x0)

theorem Spec.crossX_comm {x0 y0 x1 y1 : ℝ} (h : y0 ≠ y1) : crossX x0 y0 x1 y1 = crossX x1 y1 x0 y0 := by
  have h1 : y0 - y1 ≠ 0 := sub_ne_zero.2 h
  have h2 : y1 - y0 ≠ 0 := sub_ne_zero.2 h.symm
  unfold crossX
  rw [show y0 - y1 = -(y1 - y0) by ring]
  field_simp
  ring

/-- A point of the x axis inside a triangle is between the two crossings. -/
theorem Spec.cross_between {xa ya xb yb xc yc α β γ : ℝ} (hab : ya * yb < 0) (hac : ya * yc < 0)
    (hβ : 0 ≤ β) (hγ : 0 ≤ γ) (h1 : α + β + γ = 1) (hy : α * ya + β * yb + γ * yc = 0) :
    α * xa + β * xb + γ * xc ∈ Set.uIcc (crossX xa ya xb yb) (crossX xa ya xc yc) := by
  have ha : ya ≠ 0 := by rintro rfl; simp at hab
  have hb : ya - yb ≠ 0 := by intro h; have : ya = yb := by linarith
                              subst this; nlinarith [mul_self_nonneg ya]
  have hc : ya - yc ≠ 0 := by intro h; have : ya = yc := by linarith
                              subst this; nlinarith [mul_self_nonneg ya]
  have hsq : 0 < ya ^ 2 := by positivity
  have w1 : 0 ≤ (ya - yb) / ya := by
    have : (ya - yb) / ya = (ya ^ 2 - ya * yb) / ya ^ 2 := by field_simp
    rw [this]; exact div_nonneg (by linarith) hsq.le
  have w2 : 0 ≤ (ya - yc) / ya := by
    have : (ya - yc) / ya = (ya ^ 2 - ya * yc) / ya ^ 2 := by field_simp
    rw [this]; exact div_nonneg (by linarith) hsq.le
  have hl : 0 ≤ β * ((ya - yb) / ya) := mul_nonneg hβ w1
  have hm : 0 ≤ γ * ((ya - yc) / ya) := mul_nonneg hγ w2
  have hs : β * ((ya - yb) / ya) + γ * ((ya - yc) / ya) = 1 := by
    field_simp; linear_combination ya * h1 - hy
  have e : α * xa + β * xb + γ * xc = β * ((ya - yb) / ya) * crossX xa ya xb yb +
      γ * ((ya - yc) / ya) * crossX xa ya xc yc := by
    unfold crossX
    have e1 : β * ((ya - yb) / ya) * (xa + ya / (ya - yb) * (xb - xa)) =
        β * ((ya - yb) / ya) * xa + β * (xb - xa) := by field_simp
    have e2 : γ * ((ya - yc) / ya) * (xa + ya / (ya - yc) * (xc - xa)) =
        γ * ((ya - yc) / ya) * xa + γ * (xc - xa) := by field_simp
    rw [e1, e2]
    linear_combination xa * h1 - xa * hs
  rw [e]
  generalize crossX xa ya xb yb = P at *
  generalize crossX xa ya xc yc = Q at *
  generalize β * ((ya - yb) / ya) = l at *
  generalize γ * ((ya - yc) / ya) = m at *
  rw [Set.mem_uIcc]
  have hm' : m = 1 - l := by linarith
  subst hm'
  rcases le_total P Q with h | h
  · left; constructor <;> nlinarith
  · right; constructor <;> nlinarith

/-- The x axis of the frame separates the point `(xa, ya)` from the two others, clearly enough for the
tolerance `tol`. -/
structure Spec.Crosses (tol xa ya xb yb xc yc : ℝ) : Prop where
  ab : ya * yb < 0
  ac : ya * yc < 0
  slopeAB : tol * Real.sqrt ((xa - xb) ^ 2 + (ya - yb) ^ 2) ≤ |ya - yb|
  slopeAC : tol * Real.sqrt ((xa - xc) ^ 2 + (ya - yc) ^ 2) ≤ |ya - yc|
  clearB : tol * |yb - yc| < |yb|
  clearC : tol * |yb - yc| < |yc|

namespace Spec.Crosses
variable {tol xa ya xb yb xc yc : ℝ} (h : Crosses tol xa ya xb yb xc yc)
include h

theorem neB : ya ≠ yb := by rintro rfl; have := h.ab; nlinarith [mul_self_nonneg ya]
theorem neC : ya ≠ yc := by rintro rfl; have := h.ac; nlinarith [mul_self_nonneg ya]
theorem bc : 0 < yb * yc := by
  have h1 := h.ab; have h2 := h.ac
  have ha : ya ≠ 0 := by rintro rfl; simp at h1
  have hsq : 0 < ya ^ 2 := by positivity
  have : 0 < (ya * yb) * (ya * yc) := mul_pos_of_neg_of_neg h1 h2
  by_contra hc
  push Not at hc
  nlinarith [mul_nonpos_of_nonneg_of_nonpos hsq.le hc]

variable {F : Affine ℝ} (hF : IsRigid F) (ht : 0 < tol)
include hF ht

theorem hitAB : Inter.lineSegment (xAxis F) ⟨F.apply ⟨xa, ya, 0⟩, F.apply ⟨xb, yb, 0⟩⟩ tol =
    some (F.apply ⟨crossX xa ya xb yb, 0, 0⟩) :=
  Inter.lineSegment_hit hF ht h.ab.le h.neB (by
    rw [show (xb - xa) ^ 2 + (yb - ya) ^ 2 = (xa - xb) ^ 2 + (ya - yb) ^ 2 by ring, abs_sub_comm]; exact h.slopeAB)

theorem hitAC : Inter.lineSegment (xAxis F) ⟨F.apply ⟨xa, ya, 0⟩, F.apply ⟨xc, yc, 0⟩⟩ tol =
    some (F.apply ⟨crossX xa ya xc yc, 0, 0⟩) :=
  Inter.lineSegment_hit hF ht h.ac.le h.neC (by
    rw [show (xc - xa) ^ 2 + (yc - ya) ^ 2 = (xa - xc) ^ 2 + (ya - yc) ^ 2 by ring, abs_sub_comm]; exact h.slopeAC)

theorem hitBA : Inter.lineSegment (xAxis F) ⟨F.apply ⟨xb, yb, 0⟩, F.apply ⟨xa, ya, 0⟩⟩ tol =
    some (F.apply ⟨crossX xa ya xb yb, 0, 0⟩) := by
  rw [crossX_comm h.neB]
  exact Inter.lineSegment_hit hF ht (by have := h.ab; linarith [mul_comm ya yb]) h.neB.symm h.slopeAB

theorem hitCA : Inter.lineSegment (xAxis F) ⟨F.apply ⟨xc, yc, 0⟩, F.apply ⟨xa, ya, 0⟩⟩ tol =
    some (F.apply ⟨crossX xa ya xc yc, 0, 0⟩) := by
  rw [crossX_comm h.neC]
  exact Inter.lineSegment_hit hF ht (by have := h.ac; linarith [mul_comm ya yc]) h.neC.symm h.slopeAC

theorem missBC : Inter.lineSegment (xAxis F) ⟨F.apply ⟨xb, yb, 0⟩, F.apply ⟨xc, yc, 0⟩⟩ tol = none :=
  Inter.lineSegment_miss hF ht h.bc h.clearB h.clearC

/-- The first vertex alone on its side. -/
theorem seg0 : Inter.lineTriangleSeg (xAxis F)
    ⟨F.apply ⟨xa, ya, 0⟩, F.apply ⟨xb, yb, 0⟩, F.apply ⟨xc, yc, 0⟩⟩ tol =
    .ok (some ⟨F.apply ⟨crossX xa ya xc yc, 0, 0⟩, F.apply ⟨crossX xa ya xb yb, 0, 0⟩⟩) := by
  unfold Inter.lineTriangleSeg
  simp only [Triangle.edge0, Triangle.edge1, Triangle.edge2]
  rw [h.hitAB hF ht, h.missBC hF ht, h.hitCA hF ht]

/-- The second vertex alone on its side. -/
theorem seg1 : Inter.lineTriangleSeg (xAxis F)
    ⟨F.apply ⟨xc, yc, 0⟩, F.apply ⟨xa, ya, 0⟩, F.apply ⟨xb, yb, 0⟩⟩ tol =
    .ok (some ⟨F.apply ⟨crossX xa ya xc yc, 0, 0⟩, F.apply ⟨crossX xa ya xb yb, 0, 0⟩⟩) := by
  unfold Inter.lineTriangleSeg
  simp only [Triangle.edge0, Triangle.edge1, Triangle.edge2]
  rw [h.hitCA hF ht, h.hitAB hF ht, h.missBC hF ht]

/-- The third vertex alone on its side. -/
theorem seg2 : Inter.lineTriangleSeg (xAxis F)
    ⟨F.apply ⟨xb, yb, 0⟩, F.apply ⟨xc, yc, 0⟩, F.apply ⟨xa, ya, 0⟩⟩ tol =
    .ok (some ⟨F.apply ⟨crossX xa ya xc yc, 0, 0⟩, F.apply ⟨crossX xa ya xb yb, 0, 0⟩⟩) := by
  unfold Inter.lineTriangleSeg
  simp only [Triangle.edge0, Triangle.edge1, Triangle.edge2]
  rw [h.hitCA hF ht, h.hitAB hF ht, h.missBC hF ht]

end Spec.Crosses

end Enve
