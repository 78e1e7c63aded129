import Verif.Props.UnitProps
import Verif.Props.RideProps
import Verif.Props.VolumeProps

/-! # The unit of length: C133, whole tyres, coarse units and examples -/

namespace Enve
open Scalar Spec

/-- **C133, triangles**: a triangle built from the vertices in the new unit is the triangle in the new unit. -/
theorem C133_triangle {k : ℝ} (hk : 0 < k) {i j : Int} {f : ℝ} {v0 v1 v2 : V3 ℝ} {t t' : TriangleGround ℝ}
    (h : TriangleGround.make i f v0 v1 v2 = .ok t)
    (h' : TriangleGround.make j f (rescale k v0) (rescale k v1) (rescale k v2) = .ok t') : RescaledTriangle k t t' := by
  have hn : ∀ a b : Triangle ℝ, b.v0 = rescale k a.v0 → b.v1 = rescale k a.v1 → b.v2 = rescale k a.v2 → b.normal = a.normal := by
    intro a b e0 e1 e2
    unfold Triangle.normal
    rw [e0, e1, e2, Units.sub, Units.sub, Units.cross, Units.cross', Units.normalized hk, Units.normalized hk]
  unfold TriangleGround.make at h h'
  obtain ⟨-, -, h⟩ := Res.bind_eq_ok.1 h
  obtain ⟨-, -, h'⟩ := Res.bind_eq_ok.1 h'
  cases h
  cases h'
  refine ⟨rfl, rfl, rfl, ?_, rfl⟩
  simp only [TriangleGround.updateBBox, TriangleGround.updateNormal]
  rw [hn ⟨v0, v1, v2⟩ ⟨rescale k v0, rescale k v1, rescale k v2⟩ rfl rfl rfl]

/-- **C133, tyres**: the tyre built from the dimensions in the new unit, with the same exponents and number of ribs, has the ribs in the new
unit. -/
theorem C133_tyre {k : ℝ} (hk : 0 < k) (fresh fresh' : Nat → Output ℝ) (n : Nat) (hn : 1 ≤ n) {rx mx ry my ly : ℝ}
    (hv : ValidProfile rx mx ry my ly) : ∃ s s' : Shell ℝ, Shell.make fresh n rx mx ry my ly = .ok s ∧
      Shell.make fresh' n (k * rx) mx (k * ry) my (k * ly) = .ok s' ∧ s.size = n ∧ RescaledTyre k s s' := by
  have hv' : ValidProfile (k * rx) mx (k * ry) my (k * ly) :=
    ⟨mul_pos hk hv.rx_pos, hv.mx_pos, mul_pos hk hv.ry_pos, hv.my_pos, mul_pos hk hv.ly_pos, mul_le_mul_of_nonneg_left hv.ly_le hk.le⟩
  obtain ⟨s, a1, a2, -, a4, a3, -⟩ := C04_construct fresh n hn rx mx ry my ly hv
  obtain ⟨s', b1, b2, -, b4, b3, -⟩ := C04_construct fresh' n hn _ mx _ my _ hv'
  have hl : s.ribs.length = n := a2
  have hl' : s'.ribs.length = n := b2
  refine ⟨s, s', a1, b1, a2, List.forall₂_iff_get.2 ⟨by rw [hl, hl'], fun i hi hi' => ?_⟩, by rw [a4, b4]⟩
  have hin : i < n := by omega
  obtain ⟨ρ, -, c1, c2, c3, c4⟩ := a3 i hin
  obtain ⟨ρ', -, d1, d2, d3, d4⟩ := b3 i hin
  have e : s.ribs[i]? = some (s.ribs.get ⟨i, hi⟩) := by simp [List.getElem?_eq_getElem hi]
  have e' : s'.ribs[i]? = some (s'.ribs.get ⟨i, hi'⟩) := by simp [List.getElem?_eq_getElem hi']
  have hr := (Shell.Reachable.make (pol := .raw) a1).isRib _ (List.mem_of_getElem? e)
  have hr' := (Shell.Reachable.make (pol := .raw) b1).isRib _ (List.mem_of_getElem? e')
  rw [Shell.ribCenter, Shell.ribAt, e] at c1
  rw [Shell.ribCenter, Shell.ribAt, e'] at d1
  rw [Shell.ribWidth, Shell.ribAt, e] at c2
  rw [Shell.ribWidth, Shell.ribAt, e'] at d2
  rw [Shell.ribRadius, Shell.ribAt, e] at c3
  rw [Shell.ribRadius, Shell.ribAt, e'] at d3
  have c1 : (s.ribs.get ⟨i, hi⟩).center = _ := Res.ok.inj c1
  have d1 : (s'.ribs.get ⟨i, hi'⟩).center = _ := Res.ok.inj d1
  have c2 : (s.ribs.get ⟨i, hi⟩).width = _ := Res.ok.inj c2
  have d2 : (s'.ribs.get ⟨i, hi'⟩).width = _ := Res.ok.inj d2
  have c3 : (s.ribs.get ⟨i, hi⟩).radius = _ := Res.ok.inj c3
  have d3 : (s'.ribs.get ⟨i, hi'⟩).radius = _ := Res.ok.inj d3
  have y1 := congrArg V3.y (hr.center.symm.trans c1)
  have y2 := congrArg V3.y (hr'.center.symm.trans d1)
  dsimp only at y1 y2
  have hy : |-ly + (2 * (i : ℝ) + 1) * ly / n| ≤ ly := (Shell.real_centre_abs hv.ly_pos hin).le
  have hy' : |-(k * ly) + (2 * (i : ℝ) + 1) * (k * ly) / n| ≤ k * ly := (Shell.real_centre_abs hv'.ly_pos hin).le
  have ey : -(k * ly) + (2 * (i : ℝ) + 1) * (k * ly) / n = k * (-ly + (2 * (i : ℝ) + 1) * ly / n) := by ring
  refine ⟨by rw [y1, y2, ey], ?_, by rw [c2, d2]; ring⟩
  rw [c3, d3, (radAt_profile hv hy _).1 c4, (radAt_profile hv' hy' _).1 d4, ey]
  unfold radAt
  rw [abs_mul, abs_of_pos hk, mul_div_mul_left _ _ hk.ne', mul_assoc]

/-- **C133, whole tyres on flat ground by sampling**: in any unit of length the same flag and the same records up to the unit. -/
theorem C133_setup_flat {pol : Policy} {k : ℝ} (hk : 0 < k) {s s' sA sB : Shell ℝ} (hreach : s.Reachable pol) (hreach' : s'.Reachable pol)
    (hty : RescaledTyre k s s') {pose : Affine ℝ} {g : Flat ℝ} {b b' : Bool}
    (hA : s.setupFlat pol g pose "sampling" = .ok sA b)
    (hB : s'.setupFlat pol (rescaleFlat k g) (rescalePose k pose) "sampling" = .ok sB b') :
    b' = b ∧ RescaledShell pol k sA sB := by
  have hribs := hty.ribs
  have e1 := Shell.setupFlat_rel (.inl ⟨b, hA⟩)
  have e2 := Shell.setupFlat_rel (.inl ⟨b', hB⟩)
  have hl : s'.ribs.length = s.ribs.length := hribs.length_eq.symm
  have z0 : s'.size = s.size := hl
  have z1 : sA.size = s.size := by unfold Shell.size; rw [e1.ribs]
  have z2 : sB.size = s.size := by unfold Shell.size; rw [e2.ribs, hl]
  obtain ⟨f1, r1, a1, a2, -⟩ := C38_flat_flag_partial pol s sA g pose _ b hA
  obtain ⟨f2, r2, b1, b2, -⟩ := C38_flat_flag_partial pol s' sB _ _ _ b' hB
  have key : ∀ i < s.size, sA.out.read pol i = .ok (r1 i) ∧ sB.out.read pol i = .ok (r2 i) ∧ f2 i = f1 i ∧
      r2 i = rescaleRecord k (r1 i) := by
    intro i hi
    obtain ⟨r, g1, g2, g3⟩ := a1 i hi
    obtain ⟨r', g1', g2', g3'⟩ := b1 i (by omega)
    have q1 : s.ribs[i]? = some r := by rw [← g1]; exact congrArg (·[i]?) e1.ribs.symm
    have q2 : s'.ribs[i]? = some r' := by rw [← g1']; exact congrArg (·[i]?) e2.ribs.symm
    have hr := hreach.isRib r (List.mem_of_getElem? q1)
    have hr' := hreach'.isRib r' (List.mem_of_getElem? q2)
    have hrr : RescaledRib k r r' := by
      obtain ⟨h1, h2⟩ := List.forall₂_iff_get.1 hribs
      obtain ⟨i1, v1⟩ := List.getElem?_eq_some_iff.1 q1
      obtain ⟨i2, v2⟩ := List.getElem?_eq_some_iff.1 q2
      have := h2 i i1 i2
      rwa [List.get_eq_getElem, List.get_eq_getElem, v1, v2] at this
    have g2 : r.envelopFlat g pose "sampling" = .ok (f1 i, r1 i) := g2
    have g2' : r'.envelopFlat (rescaleFlat k g) (rescalePose k pose) "sampling" = .ok (f2 i, r2 i) := g2'
    unfold Rib.envelopFlat at g2 g2'
    rw [if_neg (by decide), if_pos rfl] at g2 g2'
    rw [C133_sampling_flat hk hr hr' hrr, Res.ok.inj g2] at g2'
    have := Prod.mk.inj (Res.ok.inj g2')
    exact ⟨g3, g3', this.1.symm, this.2.symm⟩
  refine ⟨?_, by rw [z1, z2], by rw [e1.pose, e2.pose], ?_⟩
  · rw [a2, b2, z0]
    by_cases h : 1 ≤ s.size
    · rw [(key (s.size - 1) (by omega)).2.2.1]
    · simp [h]
  · intro i hi
    rw [z1] at hi
    obtain ⟨k1, k2, -, k4⟩ := key i hi
    exact ⟨_, k1, by rw [k2, k4]⟩

/-! ## Coarse units: the contact is lost -/

/-- The geometric method finds no contact of a small wheel with flat ground, wherever it stands. -/
theorem C133_small_wheel_flat {r : Rib ℝ} (hr : IsRib r) (hR : r.radius ^ 2 < Scalar.eps) {pose : Affine ℝ} (hp : IsRigid pose) {f : ℝ}
    {o n : V3 ℝ} {g : Flat ℝ} (hg : Flat.make f o n = .ok g) : r.envelopGeometricFlat g pose = (false, r.noContact pose) := by
  have hn := Flat.make_unit hg
  rcases Rib.geometricFlat_closed hr hp hn with ⟨⟨h1, h2, -⟩, -⟩ | ⟨-, h⟩
  · exfalso
    have hS : sinSq g.plane.normal pose.linear.c1 ≤ 1 := by
      unfold sinSq; nlinarith [sq_nonneg (dot3 g.plane.normal pose.linear.c1)]
    have := mul_le_mul_of_nonneg_right hS (sq_nonneg r.radius)
    nlinarith [sq_nonneg (height g.plane (ribCentre pose r))]
  · exact h

/-- The sampling method finds no contact with a mesh of small triangles, wherever the wheel stands. -/
theorem C133_fine_mesh_sampling (r : Rib ℝ) (pose : Affine ℝ) {ts : List (TriangleGround ℝ)} (hs : ∀ t ∈ ts, |shadow t.tri| < Scalar.eps) :
    r.envelopSamplingMesh ts pose = (false, r.noContact pose) := by
  have hl : ∀ o : V3 ℝ, Rib.samplingLineMesh ts ⟨o, V3.neg V3.ez⟩ = none := by
    intro o
    have : Rib.samplingHits ts ⟨o, V3.neg V3.ez⟩ = [] := by
      unfold Rib.samplingHits
      rw [List.filterMap_eq_nil_iff]
      intro t ht
      have ha : V3.dot (V3.sub t.tri.v1 t.tri.v0) (V3.cross (V3.neg V3.ez) (V3.sub t.tri.v2 t.tri.v0)) = shadow t.tri := by
        simp only [shadow]
        v3
        ring
      have hnone : Inter.lineTriangle ⟨o, V3.neg V3.ez⟩ t.tri (Scalar.eps : ℝ) = none := by
        unfold Inter.lineTriangle
        dsimp only
        rw [ha, if_pos]
        have := abs_lt.1 (hs t ht)
        simp only [real_lt, real_neg, Bool.and_eq_true, decide_eq_true_eq]
        exact this
      rw [hnone]; rfl
    unfold Rib.samplingLineMesh
    rw [this]
  unfold Rib.envelopSamplingMesh Rib.envelopSampling
  simp only [Rib.lineXp, Rib.lineXm, Rib.lineYp, Rib.lineYm, hl]

theorem Rib.sampling_flag {r : Rib ℝ} {f : Line ℝ → Option (V3 ℝ × ℝ)} {pose : Affine ℝ} (h : 0 < (r.envelopSampling f pose).2.depth) :
    (r.envelopSampling f pose).1 = true := by
  have h0 : (r.noContact pose).depth = 0 := real_zero
  revert h
  unfold Rib.envelopSampling
  split
  · dsimp only
    split
    · intro _; rfl
    · rw [h0]; intro h; exact absurd h (lt_irrefl 0)
  · rw [h0]; intro h; exact absurd h (lt_irrefl 0)

/-- **C133 is false** towards larger units: a wheel of radius 1 half a radius deep in the ground is in contact with flat ground, by the
geometric method, and with a large triangle of the same plane, by the sampling method; in a unit 2²⁰ times as large, and in every larger
one, neither contact is found. -/
theorem C133_coarse_refuted : ∃ (r : Rib ℝ) (pose : Affine ℝ) (g : Flat ℝ) (t : TriangleGround ℝ), IsRib r ∧ IsRigid pose ∧
    Flat.make 1 ⟨0, 0, 0⟩ ⟨0, 0, 1⟩ = .ok g ∧ TriangleGround.make 0 1 ⟨0, 10, 0⟩ ⟨-30, -10, 0⟩ ⟨30, -10, 0⟩ = .ok t ∧
    (r.envelopGeometricFlat g pose).1 = true ∧ (r.envelopSamplingMesh [t] pose).1 = true ∧
    ∀ (k : ℝ) (r' : Rib ℝ) (t' : TriangleGround ℝ), 0 < k → k ≤ 2⁻¹ ^ 20 → IsRib r' → RescaledRib k r r' → RescaledTriangle k t t' →
      r'.envelopGeometricFlat (rescaleFlat k g) (rescalePose k pose) = (false, r'.noContact (rescalePose k pose)) ∧
      r'.envelopSamplingMesh [t'] (rescalePose k pose) = (false, r'.noContact (rescalePose k pose)) := by
  obtain ⟨o, ho, -⟩ := Demo.ribOf_flat (w := 1) zero_le_one
  refine ⟨Demo.ribOf 1, Demo.upright (1 / 2), Demo.road, Demo.field, Demo.ribOf_isRib zero_le_one, Demo.upright_rigid _, Demo.road_make,
    Demo.field_make, by rw [ho], ?_, ?_⟩
  · have h := Demo.field_sampled.1
    refine Rib.sampling_flag (r := Demo.rib) (f := Rib.samplingLineMesh [Demo.field]) ?_
    have h' : (Demo.rib.envelopSampling (Rib.samplingLineMesh [Demo.field]) (Demo.upright (1 / 2))).2.depth = 1 / 2 := h
    rw [h']; norm_num
  · intro k r' t' k0 hk hr' h ht
    have hR : (Demo.ribOf 1).radius = 1 := rfl
    have hkk : k ^ 2 ≤ (2⁻¹ ^ 20) ^ 2 := pow_le_pow_left₀ k0.le hk 2
    rw [← pow_mul] at hkk
    have hrig : IsRigid (rescalePose k (Demo.upright (1 / 2))) := Demo.upright_rigid (1 / 2)
    constructor
    · refine C133_small_wheel_flat (f := 1) (o := ⟨0, 0, 0⟩) (n := ⟨0, 0, 1⟩) hr' ?_ hrig ?_
      · rw [h.radius, hR, mul_one, real_eps]
        refine hkk.trans_lt (by norm_num)
      · have : rescaleFlat k Demo.road = Demo.road := by simp [rescaleFlat, rescale, Demo.road]
        rw [this]; exact Demo.road_make
    · apply C133_fine_mesh_sampling
      intro u hu
      rw [List.mem_singleton] at hu
      subst hu
      have : shadow u.tri = k ^ 2 * 1200 := by
        unfold shadow
        rw [ht.v0, ht.v1, ht.v2]
        simp only [rescale, Demo.field, TriangleGround.updateBBox, TriangleGround.updateNormal]
        ring
      rw [this, abs_of_nonneg (by positivity), real_eps]
      norm_num at hkk ⊢
      linarith

/-! ## The hypotheses are met -/

/-- The wheel half a radius above the field is resolved. -/
theorem Demo.field_resolved : Resolved (Demo.ribOf 1) (Demo.upright (1 / 2)) [Demo.field] := by
  have hr := Demo.ribOf_isRib (w := 1) zero_le_one
  have hc : (Demo.ribOf 1).center = ⟨0, 0, 0⟩ := by simp [Demo.ribOf, Rib.center, Rib.make, Disk.center]
  have hpos := real_eps_pos
  have h1 := real_eps_lt_one
  have hF := levelFrame_rigid 0
  refine ⟨h1.le, fun t ht s hs => ?_, fun t ht s hs => ?_⟩
  · rw [List.mem_singleton] at ht
    subst ht
    have hseg := Demo.field_crosses.seg0 hF hpos
    have c1 : crossX 0 10 30 (-10) = 15 := by norm_num [crossX]
    have c2 : crossX 0 10 (-30) (-10) = -15 := by norm_num [crossX]
    rw [c1, c2] at hseg
    simp only [levelFrame_apply] at hseg
    have hcut : Inter.planeTriangle ((Demo.ribOf 1).diskGrd (Demo.upright (1 / 2))).layingPlane Demo.field.tri (Scalar.eps : ℝ) =
        .ok (some ⟨⟨15, 0, 0⟩, ⟨-15, 0, 0⟩⟩) := by
      have hsec := level_section hr hc (1 / 2) (x0 := 0) (y0 := 10) (x1 := -30) (y1 := -10) (x2 := 30) (y2 := -10) (z := 0) (by norm_num)
      have ht : Demo.field.tri = ⟨⟨0, 10, 0⟩, ⟨-30, -10, 0⟩, ⟨30, -10, 0⟩⟩ := rfl
      rw [ht]
      unfold Inter.planeTriangle
      rw [Inter.planePlane_section hsec h1.le]
      exact hseg
    rw [hcut] at hs
    cases hs
    have hC : ribCentre (Demo.upright (1 / 2)) (Demo.ribOf 1) = ⟨0, 0, 1 / 2⟩ := by
      rw [← Rib.centerGrd_eq, Rib.centerGrd, hc]
      simp only [Demo.upright]; v3; norm_num
    constructor
    · have e : dist3 ⟨15, 0, 0⟩ ⟨-15, 0, 0⟩ = 30 := by
        unfold dist3
        rw [show ((15 : ℝ) - -15) ^ 2 + (0 - 0) ^ 2 + (0 - 0) ^ 2 = 30 ^ 2 by norm_num, Real.sqrt_sq (by norm_num)]
      rw [e]; linarith
    · rw [hC, show (Demo.ribOf 1).radius = 1 from rfl]
      simp only [sectionDisc, dot3, minus]
      norm_num
      linarith
  · rw [List.mem_singleton] at ht
    subst ht
    rw [Demo.field_cut] at hs
    cases hs
    obtain ⟨a1, a2, a3⟩ := Demo.sqrt34
    have e : dist3 ⟨√(3 / 4), 0, 0⟩ ⟨-√(3 / 4), 0, 0⟩ = 2 * √(3 / 4) := by
      unfold dist3
      rw [show (√(3 / 4) - -√(3 / 4)) ^ 2 + (0 - 0) ^ 2 + (0 - 0) ^ 2 = (2 * √(3 / 4)) ^ 2 by ring, Real.sqrt_sq (by positivity)]
    rw [e]; linarith

/-- The same wheel and field in millimetres instead of metres: the hypotheses of `C133_geometric_mesh_partial` are met, with contact. -/
example : ∃ (t' : TriangleGround ℝ) (out : Output ℝ),
    TriangleGround.make 0 1 ⟨0, 10000, 0⟩ ⟨-30000, -10000, 0⟩ ⟨30000, -10000, 0⟩ = .ok t' ∧
    (Demo.ribOf 1).envelopGeometricMesh [Demo.field] (Demo.upright (1 / 2)) = .ok (true, out) ∧
    (Rib.make 0 1000 0 1000 0).envelopGeometricMesh [t'] (Demo.upright 500) = .ok (true, rescaleRecord 1000 out) := by
  obtain ⟨out, ho⟩ := Demo.field_contact le_rfl
  have e0 : ∀ x y z : ℝ, rescale 1000 ⟨x, y, z⟩ = ⟨1000 * x, 1000 * y, 1000 * z⟩ := fun _ _ _ => rfl
  obtain ⟨t', ht'⟩ : ∃ t', TriangleGround.make 0 (1 : ℝ) (rescale 1000 ⟨0, 10, 0⟩) (rescale 1000 ⟨-30, -10, 0⟩) (rescale 1000 ⟨30, -10, 0⟩) =
      .ok t' := by simp [TriangleGround.make]
  have hT := C133_triangle (by norm_num) Demo.field_make ht'
  refine ⟨t', out, by rw [← ht']; simp only [e0]; norm_num, ho, ?_⟩
  have := C133_geometric_mesh_partial (k := 1000) (by norm_num) (Demo.ribOf_isRib zero_le_one)
    (Rib.make_isRib 0 0 0 (radius := 1000) (width := 1000) (by norm_num) (by norm_num))
    ⟨by simp [Demo.ribOf, Rib.make], by simp [Demo.ribOf, Rib.make, Rib.radius], by simp [Demo.ribOf, Rib.make]⟩
    (Demo.upright_rigid (1 / 2)) (.cons hT .nil) Demo.field_resolved ho
  have hp : rescalePose 1000 (Demo.upright (1 / 2)) = Demo.upright 500 := by
    simp only [rescalePose, Demo.upright, rescale]; norm_num
  rw [hp] at this
  exact this

/-- The same by sampling, where the field is `Sampled`, and on flat ground. -/
example : (Rib.make 0 1000 0 1000 0).envelopSamplingFlat Demo.road (Demo.upright 500) =
      ((Demo.rib.envelopSamplingFlat Demo.road (Demo.upright (1 / 2))).1,
        rescaleRecord 1000 (Demo.rib.envelopSamplingFlat Demo.road (Demo.upright (1 / 2))).2) ∧
    (∀ t ∈ [Demo.field], Sampled t) ∧ (Demo.rib.envelopSamplingMesh [Demo.field] (Demo.upright (1 / 2))).2.depth = 1 / 2 := by
  refine ⟨?_, ?_, Demo.field_sampled.1⟩
  · have := C133_sampling_flat (k := 1000) (by norm_num) Demo.rib_isRib
      (Rib.make_isRib 0 0 0 (radius := 1000) (width := 1000) (by norm_num) (by norm_num))
      ⟨by simp [Demo.rib, Rib.make], by simp [Demo.rib, Rib.make, Rib.radius], by simp [Demo.rib, Rib.make]⟩ (Demo.upright (1 / 2)) Demo.road
    have hp : rescalePose 1000 (Demo.upright (1 / 2)) = Demo.upright 500 := by
      simp only [rescalePose, Demo.upright, rescale]; norm_num
    have hg : rescaleFlat 1000 Demo.road = Demo.road := by simp [rescaleFlat, rescale, Demo.road]
    rw [hp, hg] at this
    exact this
  · intro t ht
    rw [List.mem_singleton] at ht
    subst ht
    left
    have := real_eps_lt_one
    simp only [shadow, Demo.field, TriangleGround.updateBBox, TriangleGround.updateNormal]
    norm_num
    linarith

/-- Tyres of any number of ribs, in metres and in millimetres, on flat ground by sampling. -/
example (fresh : Nat → Output ℝ) (n : Nat) (hn : 1 ≤ n) : ∃ s s' : Shell ℝ,
    Shell.make fresh n (3 / 10) 4 (1 / 4) 2 (1 / 8) = .ok s ∧ Shell.make fresh n 300 4 250 2 125 = .ok s' ∧
    ∀ pose sA sB b b', s.setupFlat .raw Demo.road pose "sampling" = .ok sA b →
      s'.setupFlat .raw Demo.road (rescalePose 1000 pose) "sampling" = .ok sB b' → b' = b ∧ RescaledShell .raw 1000 sA sB := by
  obtain ⟨s, s', h1, h2, -, h3⟩ := C133_tyre (k := 1000) (by norm_num) fresh fresh n hn (rx := 3 / 10) (mx := 4) (ry := 1 / 4) (my := 2)
    (ly := 1 / 8) ⟨by norm_num, by norm_num, by norm_num, by norm_num, by norm_num, by norm_num⟩
  refine ⟨s, s', h1, by rw [← h2]; norm_num, fun pose sA sB b b' hA hB => ?_⟩
  have hg : rescaleFlat 1000 Demo.road = Demo.road := by simp [rescaleFlat, rescale, Demo.road]
  exact C133_setup_flat (by norm_num) (.make h1) (.make h2) h3 hA (by rw [hg]; exact hB)

end Enve
