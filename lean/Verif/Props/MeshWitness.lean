import Verif.Props.AgreeProps

/-! # The geometric method on particular meshes: C36, C37 (first part) -/

namespace Enve
open Scalar Spec

/-- The horizontal frame at height `z`. -/
def Spec.levelFrame (z : ℝ) : Affine ℝ := ⟨⟨⟨1, 0, 0⟩, ⟨0, 1, 0⟩, ⟨0, 0, 1⟩⟩, ⟨0, 0, z⟩⟩

theorem Spec.levelFrame_rigid (z : ℝ) : IsRigid (levelFrame z) := Demo.upright_rigid z

theorem Spec.levelFrame_apply (z x y : ℝ) : (levelFrame z).apply ⟨x, y, 0⟩ = ⟨x, y, z⟩ := by
  simp only [levelFrame]; v3; congr 1 <;> ring

theorem Spec.levelFrame_apply3 (z x y w : ℝ) : (levelFrame z).apply ⟨x, y, w⟩ = ⟨x, y, w + z⟩ := by
  simp only [levelFrame]; v3; congr 1 <;> ring

/-- The disk of a rib in the middle of the shell, in an upright pose at height `h`. -/
theorem Rib.diskGrd_upright {r : Rib ℝ} (hr : IsRib r) (hc : r.center = ⟨0, 0, 0⟩) (h : ℝ) :
    r.diskGrd (Demo.upright h) = ⟨r.radius, ⟨⟨0, 0, h⟩, ⟨0, 1, 0⟩⟩⟩ := by
  have hn : r.disk.normal = ⟨0, 1, 0⟩ := hr.normal
  unfold Rib.diskGrd Rib.centerGrd Rib.normalGrd
  rw [hc, hn]
  simp only [Demo.upright]
  congr 2
  · v3; congr 1 <;> ring
  · v3; congr 1 <;> ring

/-- The normal of a triangle in a horizontal plane, turned upwards. -/
theorem Spec.level_normal {x0 y0 x1 y1 x2 y2 z : ℝ} (h : 0 < (x1 - x0) * (y2 - y0) - (y1 - y0) * (x2 - x0)) :
    Triangle.normal ⟨⟨x0, y0, z⟩, ⟨x1, y1, z⟩, ⟨x2, y2, z⟩⟩ = (⟨0, 0, 1⟩ : V3 ℝ) := by
  have e : V3.cross (V3.sub (⟨x1, y1, z⟩ : V3 ℝ) ⟨x0, y0, z⟩) (V3.sub ⟨x2, y2, z⟩ ⟨x0, y0, z⟩) =
      ⟨0, 0, (x1 - x0) * (y2 - y0) - (y1 - y0) * (x2 - x0)⟩ := by
    v3; congr 1 <;> ring
  unfold Triangle.normal
  dsimp only
  rw [e]
  generalize (x1 - x0) * (y2 - y0) - (y1 - y0) * (x2 - x0) = k at *
  have hne : (⟨0, 0, k⟩ : V3 ℝ) ≠ ⟨0, 0, 0⟩ := by
    intro hc; rw [V3.mk.injEq] at hc; exact h.ne' hc.2.2
  rw [V3.normalized_of_ne hne]
  have hn : V3.norm (⟨0, 0, k⟩ : V3 ℝ) = k := by
    rw [V3.norm_eq, length3]
    dsimp only
    rw [show ((0 : ℝ) ^ 2 + 0 ^ 2 + k ^ 2) = k ^ 2 by ring, Real.sqrt_sq h.le]
  rw [hn]
  dsimp only
  rw [zero_div, div_self h.ne']

/-- The section of an upward horizontal triangle by the disk of a rib in an upright pose. -/
theorem Spec.level_section {r : Rib ℝ} (hr : IsRib r) (hc : r.center = ⟨0, 0, 0⟩) (h : ℝ)
    {x0 y0 x1 y1 x2 y2 z : ℝ} (hT : 0 < (x1 - x0) * (y2 - y0) - (y1 - y0) * (x2 - x0)) :
    SectionFrame (levelFrame z) (r.diskGrd (Demo.upright h)) ⟨⟨x0, y0, z⟩, ⟨x1, y1, z⟩, ⟨x2, y2, z⟩⟩ := by
  rw [Rib.diskGrd_upright hr hc]
  refine ⟨levelFrame_rigid z, rfl, level_normal hT, ?_, ?_, ?_⟩
  · simp [levelFrame, dot3]
  · simp [levelFrame, dot3]
  · simp only [levelFrame, dot3, Triangle.centroid]
    v3
    simp only [real_lit]
    push_cast
    ring

/-- The triangle/disk intersection for such a triangle. -/
theorem Spec.level_disk {r : Rib ℝ} (hr : IsRib r) (hc : r.center = ⟨0, 0, 0⟩) (h : ℝ)
    {x0 y0 x1 y1 x2 y2 z : ℝ} (hT : 0 < (x1 - x0) * (y2 - y0) - (y1 - y0) * (x2 - x0)) :
    Inter.triangleDisk ⟨⟨x0, y0, z⟩, ⟨x1, y1, z⟩, ⟨x2, y2, z⟩⟩ (r.diskGrd (Demo.upright h)) Scalar.eps =
    (do
      let o ← Inter.lineTriangleSeg (xAxis (levelFrame z)) ⟨(levelFrame z).apply ⟨x0, y0, 0⟩,
        (levelFrame z).apply ⟨x1, y1, 0⟩, (levelFrame z).apply ⟨x2, y2, 0⟩⟩ Scalar.eps
      return o.bind fun s => Inter.segmentDisk s
        ⟨r.radius, ⟨(levelFrame z).apply ⟨0, 0, h - z⟩, (levelFrame z).linear.c1⟩⟩ Scalar.eps) := by
  have hF := level_section hr hc h hT (z := z)
  have heps := real_eps_lt_one
  unfold Inter.triangleDisk Inter.planeTriangle
  rw [Inter.planePlane_section hF heps.le]
  simp only [levelFrame_apply3, zero_add]
  rw [Rib.diskGrd_upright hr hc, sub_add_cancel]
  congr 1
  funext o
  cases o <;> rfl

/-! ## C36: a contact of zero volume -/

/-- A triangle cut by the plane `y = 0` along a radius of the rib disk. -/
noncomputable def Demo.radial : TriangleGround ℝ :=
  TriangleGround.updateBBox (TriangleGround.updateNormal
    ⟨⟨⟨1 / 5, 1, 0⟩, ⟨1 / 5, -1, 0⟩, ⟨7 / 5, -1, 0⟩⟩, 0, 1, V3.nan, Box.default⟩)

theorem Demo.radial_make :
    TriangleGround.make 0 (1 : ℝ) ⟨1 / 5, 1, 0⟩ ⟨1 / 5, -1, 0⟩ ⟨7 / 5, -1, 0⟩ = .ok Demo.radial := by
  simp [TriangleGround.make, Demo.radial]

/-- **C36 is false.**  A rib whose disk is cut along a part of a radius reports contact with volume zero;
the friction is then the quotient of two zeros, which is not between the smallest and the largest friction
of the triangles (here all are 1; the quotient is 0 on the reals and NaN in floating point). -/
theorem C36_zero_volume_refuted :
    ∃ (r : Rib ℝ) (pose : Affine ℝ) (t : TriangleGround ℝ) (o : Output ℝ), IsRib r ∧ IsRigid pose ∧
      TriangleGround.make 0 1 ⟨1 / 5, 1, 0⟩ ⟨1 / 5, -1, 0⟩ ⟨7 / 5, -1, 0⟩ = .ok t ∧
      r.envelopGeometricMesh [t] pose = .ok (true, o) ∧ o.area = 3 / 5 ∧ o.volume = 0 ∧
      t.friction = 1 ∧ o.friction = 0 / 0 ∧ o.friction < t.friction := by
  have hr := Demo.ribOf_isRib (w := 1) zero_le_one
  have hc : (Demo.ribOf 1).center = ⟨0, 0, 0⟩ := by simp [Demo.ribOf, Rib.center, Rib.make, Disk.center]
  have hR : (Demo.ribOf 1).radius = 1 := rfl
  have hW : (Demo.ribOf 1).width = 1 := rfl
  have heps := real_eps_le_half
  have heps0 : (Scalar.eps : ℝ) ≤ 1 / 10 := by rw [real_eps]; norm_num
  have hpos := real_eps_pos
  have hcross : Crosses (Scalar.eps : ℝ) (1 / 5) 1 (1 / 5) (-1) (7 / 5) (-1) := by
    have e : ∀ x : ℝ, x ≤ 9 → Real.sqrt x ≤ 3 := fun x hx => by
      rw [show (3 : ℝ) = Real.sqrt (3 ^ 2) by rw [Real.sqrt_sq (by norm_num)]]
      exact Real.sqrt_le_sqrt (by norm_num; exact hx)
    refine ⟨by norm_num, by norm_num, ?_, ?_, ?_, ?_⟩
    · have := e ((1 / 5 - 1 / 5) ^ 2 + (1 - -1) ^ 2) (by norm_num)
      have := Real.sqrt_nonneg ((1 / 5 - 1 / 5 : ℝ) ^ 2 + (1 - -1) ^ 2)
      rw [show |(1 : ℝ) - -1| = 2 by norm_num]
      nlinarith
    · have := e ((1 / 5 - 7 / 5) ^ 2 + (1 - -1) ^ 2) (by norm_num)
      have := Real.sqrt_nonneg ((1 / 5 - 7 / 5 : ℝ) ^ 2 + (1 - -1) ^ 2)
      rw [show |(1 : ℝ) - -1| = 2 by norm_num]
      nlinarith
    · norm_num
    · norm_num
  have hseg := hcross.seg0 (levelFrame_rigid 0) hpos
  have c1 : crossX (1 / 5) 1 (7 / 5) (-1) = 4 / 5 := by norm_num [crossX]
  have c2 : crossX (1 / 5) 1 (1 / 5) (-1) = 1 / 5 := by norm_num [crossX]
  rw [c1, c2] at hseg
  have hin := Inter.segmentDisk_inside (levelFrame_rigid 0) (tol := (Scalar.eps : ℝ)) (a := 4 / 5) (b := 1 / 5)
    (k := 0) (h := 0 - 0) (R := 1) hpos real_eps_lt_one.le real_eps_lt_one.le
    (by rw [show |(1 / 5 : ℝ) - 4 / 5| = 3 / 5 by norm_num [abs_of_neg]]; linarith) (by norm_num; linarith)
    (by norm_num) (by norm_num)
  have hdisk := level_disk hr hc 0 (x0 := 1 / 5) (y0 := 1) (x1 := 1 / 5) (y1 := -1) (x2 := 7 / 5) (y2 := -1) (z := 0)
    (by norm_num)
  rw [hseg, Res.bind_ok] at hdisk
  rw [Option.bind_some, hR, hin, levelFrame_apply, levelFrame_apply, Res.pure_eq] at hdisk
  -- the contribution
  have hlen : Segment.length (⟨⟨4 / 5, 0, 0⟩, ⟨1 / 5, 0, 0⟩⟩ : Segment ℝ) = 3 / 5 := by
    rw [Segment.length, V3.norm_sub]
    unfold dist3
    dsimp only
    rw [show ((4 / 5 - 1 / 5 : ℝ) ^ 2 + (0 - 0) ^ 2 + (0 - 0) ^ 2) = (3 / 5) ^ 2 by norm_num,
      Real.sqrt_sq (by norm_num)]
  have hcg : (Demo.ribOf 1).centerGrd (Demo.upright 0) = ⟨0, 0, 0⟩ := by
    unfold Rib.centerGrd
    rw [hc]
    simp only [Demo.upright]
    v3
    congr 1 <;> ring
  have hloc : ∀ x : ℝ, M3.mulVec (M3.transpose (Demo.upright 0).linear) (V3.sub ⟨x, 0, 0⟩ ⟨0, 0, 0⟩) = ⟨x, 0, 0⟩ := by
    intro x
    simp only [Demo.upright]
    v3
    congr 1 <;> ring
  have harg : ∀ x : ℝ, 0 ≤ x → Complex.arg ⟨x, 0⟩ = 0 := fun x hx => by
    rw [show (⟨x, 0⟩ : ℂ) = (x : ℂ) from rfl]; exact Complex.arg_ofReal_of_nonneg hx
  obtain ⟨c, hcon, ca, cv, cf⟩ : ∃ c, (Demo.ribOf 1).contrib (Demo.upright 0) Demo.radial
      ⟨⟨4 / 5, 0, 0⟩, ⟨1 / 5, 0, 0⟩⟩ = some c ∧ c.area = 3 / 5 ∧ c.volume = 0 ∧ c.friction = 1 := by
    unfold Rib.contrib
    dsimp only
    rw [hcg, hloc, hloc, hlen]
    simp only [real_atan2, harg _ (show (0 : ℝ) ≤ 4 / 5 by norm_num), harg _ (show (0 : ℝ) ≤ 1 / 5 by norm_num)]
    have : ¬ (3 / 5 : ℝ) < Scalar.eps := by linarith
    simp only [real_lt, this, decide_false, Bool.and_false, Bool.false_eq_true, if_false]
    refine ⟨_, rfl, ?_, ?_, rfl⟩
    · simp [hW]
    · simp
  have hgeom : (Demo.ribOf 1).envelopGeometricMesh [Demo.radial] (Demo.upright 0) =
      .ok (Rib.geomFinish (Demo.ribOf 1) (Demo.upright 0) (Rib.Acc.init.add c)) := by
    unfold Rib.envelopGeometricMesh Rib.geomLoop
    rw [show Demo.radial.tri = ⟨⟨1 / 5, 1, 0⟩, ⟨1 / 5, -1, 0⟩, ⟨7 / 5, -1, 0⟩⟩ from rfl, hdisk]
    simp only [Res.bind_ok, hcon, Rib.geomLoop, Res.pure_eq]
  have hfr : Demo.radial.friction = 1 := rfl
  have hacc : (Rib.Acc.init.add c : Rib.Acc ℝ).hit = true ∧ (Rib.Acc.init.add c : Rib.Acc ℝ).area = 3 / 5 ∧
      (Rib.Acc.init.add c : Rib.Acc ℝ).volume = 0 ∧ (Rib.Acc.init.add c : Rib.Acc ℝ).friction = 0 := by
    simp [Rib.Acc.add, Rib.Acc.init, ca, cv]
  obtain ⟨a1, a2, a3, a4⟩ := hacc
  rw [Rib.geomFinish, if_pos (by simp [a1, a2]; left; linarith)] at hgeom
  exact ⟨Demo.ribOf 1, Demo.upright 0, Demo.radial, _, hr, Demo.upright_rigid 0, Demo.radial_make, hgeom, a2, a3, hfr,
    by simp [a3, a4], by simp [a3, hfr]⟩

end Enve
