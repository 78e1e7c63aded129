import Verif.Props.AccurateProps

/-! # C106: how deep the sampling method takes a rib to be on sloping ground -/

namespace Enve

open Scalar Spec

/-- `t` is the depth of the deepest point of the rib below the plane through `o` with the unit normal `n`, measured at right angles
to the plane. -/
def Spec.IsDeepest (P : Affine ℝ) (r : Rib ℝ) (o n : V3 ℝ) (t : ℝ) : Prop :=
  (∀ p, OnRibDisk P r p → dot3 n ⟨o.x - p.x, o.y - p.y, o.z - p.z⟩ ≤ t) ∧
  ∃ p, OnRibDisk P r p ∧ dot3 n ⟨o.x - p.x, o.y - p.y, o.z - p.z⟩ = t

namespace Slope

theorem parts {P : Affine ℝ} (hP : IsRigid P) {n : V3 ℝ} (hn : n.x ^ 2 + n.y ^ 2 + n.z ^ 2 = 1) :
    dot3 n P.linear.c0 ^ 2 + dot3 n P.linear.c2 ^ 2 = 1 - dot3 n P.linear.c1 ^ 2 := by
  obtain ⟨⟨r0, r1, r2⟩, r3, r4, r5⟩ := IsRotation.rows hP
  simp only [dot3]
  linear_combination hn + n.x ^ 2 * r0 + n.y ^ 2 * r1 + n.z ^ 2 * r2 + 2 * n.x * n.y * r3 + 2 * n.x * n.z * r4 + 2 * n.y * n.z * r5

/-- The deepest point of a rib. -/
theorem deepest {r : Rib ℝ} (hr : IsRib r) {P : Affine ℝ} (hP : IsRigid P) {o n : V3 ℝ} (hn : n.x ^ 2 + n.y ^ 2 + n.z ^ 2 = 1) :
    IsDeepest P r o n (r.radius * Real.sqrt (1 - dot3 n P.linear.c1 ^ 2) -
      dot3 n ⟨(hub r.y P).x - o.x, (hub r.y P).y - o.y, (hub r.y P).z - o.z⟩) := by
  have hR : 0 < r.radius := hr.radius_pos
  have hc : r.center = ⟨0, r.y, 0⟩ := hr.center
  have hpt : ∀ x z : ℝ, dot3 n ⟨o.x - (P.apply ⟨r.center.x + x, r.center.y, r.center.z + z⟩).x,
      o.y - (P.apply ⟨r.center.x + x, r.center.y, r.center.z + z⟩).y, o.z - (P.apply ⟨r.center.x + x, r.center.y, r.center.z + z⟩).z⟩ =
      -(x * dot3 n P.linear.c0 + z * dot3 n P.linear.c2) -
        dot3 n ⟨(hub r.y P).x - o.x, (hub r.y P).y - o.y, (hub r.y P).z - o.z⟩ := by
    intro x z
    rw [hc]
    simp only [dot3, hub]
    v3
    ring
  have hq := parts hP hn
  obtain ⟨a, ha⟩ : ∃ a, a = dot3 n P.linear.c0 := ⟨_, rfl⟩
  obtain ⟨c, hcd⟩ : ∃ c, c = dot3 n P.linear.c2 := ⟨_, rfl⟩
  simp only [← ha, ← hcd] at hpt hq
  rw [← hq]
  have hs := Real.mul_self_sqrt (by positivity : 0 ≤ a ^ 2 + c ^ 2)
  have hs0 := Real.sqrt_nonneg (a ^ 2 + c ^ 2)
  generalize Real.sqrt (a ^ 2 + c ^ 2) = s at *
  constructor
  · rintro p ⟨x, z, hxz, rfl⟩
    rw [hpt]
    have : -(x * a + z * c) ≤ r.radius * s := by
      refine (le_abs_self _).trans (abs_le_of_sq_le_sq ?_ (by positivity))
      have h1 := mul_le_mul_of_nonneg_right hxz (by positivity : 0 ≤ a ^ 2 + c ^ 2)
      rw [show (r.radius * s) ^ 2 = r.radius ^ 2 * (s * s) by ring, hs]
      nlinarith [sq_nonneg (x * c - z * a)]
    linarith
  · by_cases h0 : s = 0
    · refine ⟨_, ⟨0, 0, by norm_num; positivity, rfl⟩, ?_⟩
      rw [hpt, h0]; ring
    · refine ⟨_, ⟨-(r.radius * a / s), -(r.radius * c / s), ?_, rfl⟩, ?_⟩
      · rw [show (-(r.radius * a / s)) ^ 2 + (-(r.radius * c / s)) ^ 2 = r.radius ^ 2 * ((a ^ 2 + c ^ 2) / (s * s)) by field_simp; try ring, hs]
        rw [div_self (by rw [← hs]; positivity), mul_one]
      · rw [hpt]
        have : r.radius * a / s * a + r.radius * c / s * c = r.radius * s := by
          field_simp; linear_combination (-1 : ℝ) * hs
        linear_combination this

/-- The height over the plane and the vertical distance from it. -/
theorem height {o n c : V3 ℝ} (hz : 0 < n.z) (h : 0 ≤ dot3 n ⟨c.x - o.x, c.y - o.y, c.z - o.z⟩) :
    dist3 c (footAt o n c) * n.z = dot3 n ⟨c.x - o.x, c.y - o.y, c.z - o.z⟩ := by
  have h1 : dist3 c (footAt o n c) = dot3 n ⟨c.x - o.x, c.y - o.y, c.z - o.z⟩ / n.z := by
    rw [dist3, ← Real.sqrt_sq (by positivity : 0 ≤ dot3 n ⟨c.x - o.x, c.y - o.y, c.z - o.z⟩ / n.z)]
    congr 1
    simp only [footAt, dot3]
    field_simp
    ring
  rw [h1, div_mul_cancel₀ _ hz.ne']

end Slope

/-- **C106** (partial: the true depth only on level ground).  A flat ground, a rigid pose with its z axis upwards and the centre of the
rib not below the ground.  Let `pen` be the depth of the deepest point of the rib at right angles to the ground and `h` the
vertical distance of the centre from the ground.  The depth found by the sampling method is `pen - h * (1 - n.z)`: it is
never more than `pen`, and it is `pen` on level ground; there is contact exactly when it is positive. -/
theorem C106_slope_partial {r : Rib ℝ} (hr : IsRib r) (hw : 0 < r.width) {P : Affine ℝ} (hP : IsRigid P) (htop : 0 < P.linear.c2.z)
    {f : ℝ} {o n : V3 ℝ} {g : Flat ℝ} (hg : Flat.make f o n = .ok g) (hup : Scalar.eps < g.plane.normal.z) {pen : ℝ}
    (hpen : IsDeepest P r o g.plane.normal pen) (habove : 0 ≤ dot3 g.plane.normal
      ⟨(hub r.y P).x - o.x, (hub r.y P).y - o.y, (hub r.y P).z - o.z⟩) :
    let N := g.plane.normal
    let h := dist3 (hub r.y P) (footAt o N (hub r.y P))
    let res := r.envelopSamplingFlat g P
    (∃ k > 0, N = ⟨k * n.x, k * n.y, k * n.z⟩) ∧ length3 N = 1 ∧ N.z ≤ 1 ∧ (n.x = 0 ∧ n.y = 0 → N.z = 1) ∧
    (res.1 = true ↔ 0 < pen - h * (1 - N.z)) ∧ (res.1 = true → res.2.depth = pen - h * (1 - N.z) ∧ res.2.depth ≤ pen) := by
  intro N h res
  have hu := Flat.make_unit hg
  unfold Unit3 at hu
  obtain ⟨h1, h2, h3, h4⟩ := C60_inclined hr hw hP htop hg hup
  have hz : 0 < N.z := real_eps_pos.trans hup
  have hz1 : N.z ≤ 1 := by nlinarith [sq_nonneg g.plane.normal.x, sq_nonneg g.plane.normal.y, hu]
  obtain ⟨d1, d2⟩ := Slope.deepest hr hP (o := o) hu
  have hpe : pen = r.radius * Real.sqrt (1 - dot3 N P.linear.c1 ^ 2) -
      dot3 N ⟨(hub r.y P).x - o.x, (hub r.y P).y - o.y, (hub r.y P).z - o.z⟩ := by
    obtain ⟨p, hp1, hp2⟩ := hpen.2
    obtain ⟨q, hq1, hq2⟩ := d2
    exact le_antisymm (hp2 ▸ d1 p hp1) (hq2 ▸ hpen.1 q hq1)
  have hh := Slope.height hz habove
  have hD : sunkDepth r.radius r.y P o N = pen - h * (1 - N.z) := by
    rw [hpe, sunkDepth]
    linear_combination (-1 : ℝ) * hh
  have hh0 : 0 ≤ h := Real.sqrt_nonneg _
  change (res.1 = true ↔ 0 < sunkDepth r.radius r.y P o N) at h3
  rw [hD] at h3
  refine ⟨h1, h2, hz1, ?_, h3, fun hf => ?_⟩
  · rintro ⟨hx, hy⟩
    exact (V3.mk.inj (Flat.make_horizontal hg hx hy).1).2.2
  · have h5 : res.2.depth = sunkDepth r.radius r.y P o N := (h4 hf).1
    rw [hD] at h5
    refine ⟨h5, ?_⟩
    rw [h5]
    have : 0 ≤ h * (1 - N.z) := mul_nonneg hh0 (by linarith)
    linarith

/-- On sloping ground the method can miss a rib that is in the ground: a wheel of radius one, upright, 11/10 above a slope of 3 to 4,
is 3/25 deep in the ground, and no contact is found. -/
theorem C106_slope_refuted : ∃ (r : Rib ℝ) (P : Affine ℝ) (o n : V3 ℝ) (g : Flat ℝ), IsRib r ∧ 0 < r.width ∧ IsRigid P ∧
    P.linear.c2 = ⟨0, 0, 1⟩ ∧ Flat.make 1 o n = .ok g ∧ g.plane.normal = ⟨3 / 5, 0, 4 / 5⟩ ∧
    0 < dot3 g.plane.normal ⟨(hub r.y P).x - o.x, (hub r.y P).y - o.y, (hub r.y P).z - o.z⟩ ∧
    IsDeepest P r o g.plane.normal (3 / 25) ∧ (r.envelopSamplingFlat g P).1 = false := by
  have s25 : Real.sqrt 25 = 5 := by rw [show (25 : ℝ) = 5 ^ 2 by norm_num, Real.sqrt_sq (by norm_num)]
  have hmake : Flat.make 1 (⟨0, 0, 0⟩ : V3 ℝ) ⟨3, 0, 4⟩ = .ok ⟨⟨⟨0, 0, 0⟩, ⟨3 / 5, 0, 4 / 5⟩⟩, 1⟩ := by
    have hn : V3.normalized (⟨3, 0, 4⟩ : V3 ℝ) = ⟨3 / 5, 0, 4 / 5⟩ := by
      rw [V3.normalized_of_ne (by simp), V3.norm_eq, length3]
      norm_num [s25]
    simp [Flat.make, Plane.normalize, hn, Res.assert]
  have hrig := Demo.upright_rigid (11 / 10)
  have hdeep := Slope.deepest Demo.rib_isRib hrig (o := ⟨0, 0, 0⟩) (n := ⟨3 / 5, 0, 4 / 5⟩) (by norm_num)
  have hval : Demo.rib.radius * Real.sqrt (1 - dot3 ⟨3 / 5, 0, 4 / 5⟩ (Demo.upright (11 / 10)).linear.c1 ^ 2) -
      dot3 ⟨3 / 5, 0, 4 / 5⟩ ⟨(hub Demo.rib.y (Demo.upright (11 / 10))).x - 0, (hub Demo.rib.y (Demo.upright (11 / 10))).y - 0,
        (hub Demo.rib.y (Demo.upright (11 / 10))).z - 0⟩ = 3 / 25 := by
    norm_num [Demo.rib, Rib.make, Rib.radius, Demo.upright, hub, dot3]
  rw [hval] at hdeep
  have habove : 0 < dot3 (⟨3 / 5, 0, 4 / 5⟩ : V3 ℝ) ⟨(hub Demo.rib.y (Demo.upright (11 / 10))).x - 0,
      (hub Demo.rib.y (Demo.upright (11 / 10))).y - 0, (hub Demo.rib.y (Demo.upright (11 / 10))).z - 0⟩ := by
    norm_num [Demo.rib, Rib.make, Demo.upright, hub, dot3]
  refine ⟨Demo.rib, Demo.upright (11 / 10), ⟨0, 0, 0⟩, ⟨3, 0, 4⟩, _, Demo.rib_isRib, one_pos, hrig, rfl, hmake, rfl, habove, hdeep, ?_⟩
  obtain ⟨-, -, -, -, h, -⟩ := C106_slope_partial Demo.rib_isRib one_pos hrig (by norm_num [Demo.upright]) hmake
    (by rw [real_eps]; norm_num) hdeep habove.le
  rw [← Bool.not_eq_true, h]
  have : dist3 (hub Demo.rib.y (Demo.upright (11 / 10))) (footAt ⟨0, 0, 0⟩ ⟨3 / 5, 0, 4 / 5⟩ (hub Demo.rib.y (Demo.upright (11 / 10)))) =
      11 / 10 := by
    have hh := Slope.height (o := ⟨0, 0, 0⟩) (n := ⟨3 / 5, 0, 4 / 5⟩) (by norm_num) habove.le
    norm_num [Demo.rib, Rib.make, Demo.upright, hub, dot3] at hh ⊢
    linarith
  dsimp only
  rw [this]
  norm_num

/-- The hypotheses of `C106_slope_partial` are met with contact, on the same slope. -/
example : ∃ (r : Rib ℝ) (P : Affine ℝ) (g : Flat ℝ), Flat.make 1 (⟨0, 0, 0⟩ : V3 ℝ) ⟨3, 0, 4⟩ = .ok g ∧
    (r.envelopSamplingFlat g P).1 = true ∧ IsDeepest P r ⟨0, 0, 0⟩ g.plane.normal (3 / 5) ∧
    (r.envelopSamplingFlat g P).2.depth = 1 / 2 := by
  have s25 : Real.sqrt 25 = 5 := by rw [show (25 : ℝ) = 5 ^ 2 by norm_num, Real.sqrt_sq (by norm_num)]
  have hmake : Flat.make 1 (⟨0, 0, 0⟩ : V3 ℝ) ⟨3, 0, 4⟩ = .ok ⟨⟨⟨0, 0, 0⟩, ⟨3 / 5, 0, 4 / 5⟩⟩, 1⟩ := by
    have hn : V3.normalized (⟨3, 0, 4⟩ : V3 ℝ) = ⟨3 / 5, 0, 4 / 5⟩ := by
      rw [V3.normalized_of_ne (by simp), V3.norm_eq, length3]
      norm_num [s25]
    simp [Flat.make, Plane.normalize, hn, Res.assert]
  have hrig := Demo.upright_rigid (1 / 2)
  have hdeep := Slope.deepest Demo.rib_isRib hrig (o := ⟨0, 0, 0⟩) (n := ⟨3 / 5, 0, 4 / 5⟩) (by norm_num)
  have hval : Demo.rib.radius * Real.sqrt (1 - dot3 ⟨3 / 5, 0, 4 / 5⟩ (Demo.upright (1 / 2)).linear.c1 ^ 2) -
      dot3 ⟨3 / 5, 0, 4 / 5⟩ ⟨(hub Demo.rib.y (Demo.upright (1 / 2))).x - 0, (hub Demo.rib.y (Demo.upright (1 / 2))).y - 0,
        (hub Demo.rib.y (Demo.upright (1 / 2))).z - 0⟩ = 3 / 5 := by
    norm_num [Demo.rib, Rib.make, Rib.radius, Demo.upright, hub, dot3]
  rw [hval] at hdeep
  have habove : 0 < dot3 (⟨3 / 5, 0, 4 / 5⟩ : V3 ℝ) ⟨(hub Demo.rib.y (Demo.upright (1 / 2))).x - 0,
      (hub Demo.rib.y (Demo.upright (1 / 2))).y - 0, (hub Demo.rib.y (Demo.upright (1 / 2))).z - 0⟩ := by
    norm_num [Demo.rib, Rib.make, Demo.upright, hub, dot3]
  obtain ⟨-, -, -, -, h, h'⟩ := C106_slope_partial Demo.rib_isRib one_pos hrig (by norm_num [Demo.upright]) hmake
    (by rw [real_eps]; norm_num) hdeep habove.le
  have hd : dist3 (hub Demo.rib.y (Demo.upright (1 / 2))) (footAt ⟨0, 0, 0⟩ ⟨3 / 5, 0, 4 / 5⟩ (hub Demo.rib.y (Demo.upright (1 / 2)))) =
      1 / 2 := by
    have hh := Slope.height (o := ⟨0, 0, 0⟩) (n := ⟨3 / 5, 0, 4 / 5⟩) (by norm_num) habove.le
    norm_num [Demo.rib, Rib.make, Demo.upright, hub, dot3] at hh ⊢
    linarith
  dsimp only at h h'
  rw [hd] at h h'
  have ht := h.2 (by norm_num)
  exact ⟨Demo.rib, Demo.upright (1 / 2), _, hmake, ht, hdeep, by rw [(h' ht).1]; norm_num⟩

end Enve
