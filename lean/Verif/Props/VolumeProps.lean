import Verif.Props.SmoothProps
import Verif.Lemmas.Riemann
import Verif.Spec.Volume

/-! # C103: the contact volume and the volume of the part of the tyre below the ground -/

namespace Enve

open Scalar Spec MeasureTheory

/-- The radius of the profile at `y`, written out. -/
noncomputable def radAt (rx mx ry my y : ℝ) : ℝ := rx * (1 - (|y| / ry) ^ my) ^ (1 / mx)

section profile

variable {rx mx ry my ly : ℝ} (hv : ValidProfile rx mx ry my ly)

include hv

theorem radAt_profile {y : ℝ} (hy : |y| ≤ ly) (r : ℝ) : OnProfile rx mx ry my y r ↔ r = radAt rx mx ry my y := by
  obtain ⟨r', h1, -, -, h4⟩ := (C01_profile_radius ⟨rx, mx, ry, my, ly⟩ hv).1 y hy
  rw [Shape.surfaceRadius_ok hy] at h1
  cases h1
  exact (h4 r).symm

theorem radAt_mem {y : ℝ} (hy : |y| ≤ ly) : 0 ≤ radAt rx mx ry my y ∧ radAt rx mx ry my y ≤ rx := by
  obtain ⟨r', h1, h2, h3, -⟩ := (C01_profile_radius ⟨rx, mx, ry, my, ly⟩ hv).1 y hy
  rw [Shape.surfaceRadius_ok hy] at h1
  cases h1
  exact ⟨h2, h3⟩

theorem radAt_anti {y y' : ℝ} (hy : |y'| ≤ ly) (h : |y| ≤ |y'|) : radAt rx mx ry my y' ≤ radAt rx mx ry my y :=
  (C01_profile_radius ⟨rx, mx, ry, my, ly⟩ hv).2.2.2 y y' _ _ (Shape.surfaceRadius_ok (h.trans hy))
    (Shape.surfaceRadius_ok hy) h

theorem radAt_zero : radAt rx mx ry my 0 = rx := by
  have h1 := (C01_profile_radius ⟨rx, mx, ry, my, ly⟩ hv).2.1
  rw [Shape.surfaceRadius_ok (by simpa using hv.ly_pos.le)] at h1
  exact Res.ok.inj h1

end profile

theorem radAt_measurable (rx mx ry my : ℝ) : Measurable (radAt rx mx ry my) := by
  unfold radAt
  fun_prop

/-- In the axes of the wheel a unit vector still has length one. -/
theorem Spec.IsRotation.split {m : M3 ℝ} (h : IsRotation m) {v : V3 ℝ} (hv : Unit3 v) :
    dot3 v m.c0 ^ 2 + dot3 v m.c2 ^ 2 = sinSq v m.c1 := by
  obtain ⟨⟨a, b, c⟩, d, e, f⟩ := h.rows
  have hv' := hv.dot
  simp only [sinSq, dot3] at *
  linear_combination v.x ^ 2 * a + v.y ^ 2 * b + v.z ^ 2 * c + 2 * v.x * v.y * d + 2 * v.x * v.z * e +
    2 * v.y * v.z * f + hv'

/-- The height of a point given in the frame of the wheel. -/
theorem height_apply (q : Plane ℝ) (pose : Affine ℝ) (x y z : ℝ) :
    height q (pose.apply ⟨x, y, z⟩) = height q pose.trans + y * dot3 q.normal pose.linear.c1 +
      dot3 q.normal pose.linear.c0 * x + dot3 q.normal pose.linear.c2 * z := by
  simp only [height, Affine.apply, dot3, minus]; v3; ring

/-- The volume below the ground is the integral of the areas of the slices. -/
theorem sunkVolume_eq {rx mx ry my ly : ℝ} (hv : ValidProfile rx mx ry my ly) {pose : Affine ℝ} (hp : IsRigid pose)
    {q : Plane ℝ} (hq : Unit3 q.normal) (hS : 0 < sinSq q.normal pose.linear.c1) :
    sunkVolume rx mx ry my ly pose q.origin q.normal = ∫ y in -ly..ly, segAt (radAt rx mx ry my y)
      ((height q pose.trans + y * dot3 q.normal pose.linear.c1) / √(sinSq q.normal pose.linear.c1)) := by
  set σ := √(sinSq q.normal pose.linear.c1) with hσ
  have hσ0 : 0 < σ := Real.sqrt_pos.2 hS
  set k := dot3 q.normal pose.linear.c1
  set a := dot3 q.normal pose.linear.c0
  set b := dot3 q.normal pose.linear.c2
  set h0 := height q pose.trans
  have hab : a ^ 2 + b ^ 2 = σ ^ 2 := by
    rw [hσ, Real.sq_sqrt hS.le]
    exact IsRotation.split hp hq
  have hset : sunkPart rx mx ry my ly pose q.origin q.normal =
      {p : ℝ × ℝ × ℝ | |p.1| < ly ∧ p.2.1 ^ 2 + p.2.2 ^ 2 < radAt rx mx ry my p.1 ^ 2 ∧
        h0 + p.1 * k + a * p.2.1 + b * p.2.2 < 0} := by
    ext p
    have hh := height_apply q pose p.2.1 p.1 p.2.2
    unfold sunkPart tyreSolid
    simp only [Set.mem_ofPred_eq]
    rw [show dot3 (minus (pose.apply ⟨p.2.1, p.1, p.2.2⟩) q.origin) q.normal =
      height q (pose.apply ⟨p.2.1, p.1, p.2.2⟩) from rfl, hh]
    constructor
    · rintro ⟨⟨h1, r, h2, h3⟩, h4⟩
      rw [radAt_profile hv h1.le] at h2
      rw [h2] at h3
      exact ⟨h1, h3, h4⟩
    · rintro ⟨h1, h3, h4⟩
      exact ⟨⟨h1, _, (radAt_profile hv h1.le _).2 rfl, h3⟩, h4⟩
  have hm : MeasurableSet (sunkPart rx mx ry my ly pose q.origin q.normal) := by
    rw [hset]
    have hR := radAt_measurable rx mx ry my
    have m1 : Measurable fun p : ℝ × ℝ × ℝ => |p.1| := by fun_prop
    have m2 : Measurable fun p : ℝ × ℝ × ℝ => p.2.1 ^ 2 + p.2.2 ^ 2 := by fun_prop
    have m3 : Measurable fun p : ℝ × ℝ × ℝ => radAt rx mx ry my p.1 ^ 2 := by fun_prop
    have m4 : Measurable fun p : ℝ × ℝ × ℝ => h0 + p.1 * k + a * p.2.1 + b * p.2.2 := by fun_prop
    exact (measurableSet_lt m1 measurable_const).inter
      ((measurableSet_lt m2 m3).inter (measurableSet_lt m4 measurable_const))
  have hslice : ∀ y, volume (Prod.mk y ⁻¹' sunkPart rx mx ry my ly pose q.origin q.normal) =
      if y ∈ Set.Ioo (-ly) ly then volume (Seg (radAt rx mx ry my y) ((h0 + y * k) / σ)) else 0 := by
    intro y
    rw [hset]
    split
    · rename_i hy
      rw [← segAt_turned hσ0 hab]
      congr 1
      ext p
      simp only [Set.mem_preimage, Set.mem_ofPred_eq, abs_lt.2 hy, true_and]
    · rename_i hy
      convert measure_empty (μ := volume)
      ext p
      simp only [Set.mem_preimage, Set.mem_ofPred_eq, Set.mem_empty_iff_false, iff_false]
      exact fun h => hy (abs_lt.1 h.1)
  unfold sunkVolume
  rw [Measure.volume_eq_prod, Measure.prod_apply hm, ← integral_toReal (measurable_measure_prodMk_left hm).aemeasurable]
  · rw [intervalIntegral.integral_of_le (by linarith [hv.ly_pos]), integral_Ioc_eq_integral_Ioo,
      ← integral_indicator measurableSet_Ioo]
    · congr 1
      ext y
      rw [hslice, Set.indicator_apply]
      split <;> simp [segAt]
  · refine Filter.Eventually.of_forall fun y => ?_
    rw [hslice]
    split
    · rename_i hy
      exact (Seg.finite (radAt_mem hv (abs_lt.2 hy).le).1 _).lt_top
    · exact ENNReal.zero_lt_top

/-- How much the slices change. -/
theorem slice_variation {rx mx ry my ly : ℝ} (hv : ValidProfile rx mx ry my ly) {h0 k hm : ℝ}
    (hhm : ∀ y, |y| ≤ ly → hm ≤ h0 + y * k) :
    ∃ V : ℝ → ℝ, (∀ x y, -ly ≤ x → x ≤ y → y ≤ ly →
      |segAt (radAt rx mx ry my x) (h0 + x * k) - segAt (radAt rx mx ry my y) (h0 + y * k)| ≤ V y - V x) ∧
      V ly - V (-ly) ≤ 2 * segAt rx hm + 4 * rx * |k| * ly := by
  set u : ℝ → ℝ := fun y => segAt (radAt rx mx ry my y) hm with hu
  set U : ℝ → ℝ := fun y => if y ≤ 0 then u y else 2 * u 0 - u y with hU
  have u_anti : ∀ {y y'}, |y'| ≤ ly → |y| ≤ |y'| → u y' ≤ u y := fun hy h =>
    segAt_mono (radAt_mem hv hy).1 (radAt_anti hv hy h) le_rfl
  have u0 : u 0 = segAt rx hm := by rw [hu]; dsimp only; rw [radAt_zero hv]
  have ly0 := hv.ly_pos
  have hUd : ∀ x y, -ly ≤ x → x ≤ y → y ≤ ly → |u x - u y| ≤ U y - U x := by
    intro x y hx hxy hy
    simp only [hU]
    have hxl : |x| ≤ ly := abs_le.2 ⟨hx, hxy.trans hy⟩
    have hyl : |y| ≤ ly := abs_le.2 ⟨hx.trans hxy, hy⟩
    by_cases h1 : y ≤ 0
    · rw [if_pos h1, if_pos (hxy.trans h1)]
      have := u_anti hxl (by rw [abs_of_nonpos h1, abs_of_nonpos (hxy.trans h1)]; linarith : |y| ≤ |x|)
      rw [abs_of_nonpos (by linarith)]; linarith
    · rw [if_neg h1]
      by_cases h2 : x ≤ 0
      · rw [if_pos h2]
        have a := u_anti hxl (by rw [abs_zero]; exact abs_nonneg _ : |(0:ℝ)| ≤ |x|)
        have b := u_anti hyl (by rw [abs_zero]; exact abs_nonneg _ : |(0:ℝ)| ≤ |y|)
        rw [abs_le]; constructor <;> linarith
      · rw [if_neg h2]
        have := u_anti hyl (by rw [abs_of_pos (not_le.1 h1), abs_of_pos (not_le.1 h2)]; exact hxy : |x| ≤ |y|)
        rw [abs_of_nonneg (by linarith)]; linarith
  refine ⟨fun y => U y + 2 * rx * |k| * y, fun x y hx hxy hy => ?_, ?_⟩
  · have hxl : |x| ≤ ly := abs_le.2 ⟨hx, hxy.trans hy⟩
    have hyl : |y| ≤ ly := abs_le.2 ⟨hx.trans hxy, hy⟩
    have rx' := radAt_mem hv hxl
    have ry' := radAt_mem hv hyl
    have hrad : |segAt (radAt rx mx ry my x) (h0 + x * k) - segAt (radAt rx mx ry my y) (h0 + x * k)| ≤ |u x - u y| := by
      rcases le_total (radAt rx mx ry my x) (radAt rx mx ry my y) with h | h
      · have a := segAt_radius rx'.1 h (hhm x hxl)
        have b := segAt_mono rx'.1 h (le_refl (h0 + x * k))
        rw [abs_sub_comm, abs_of_nonneg (by linarith), abs_sub_comm]
        exact a.trans (le_abs_self _)
      · have a := segAt_radius ry'.1 h (hhm x hxl)
        have b := segAt_mono ry'.1 h (le_refl (h0 + x * k))
        rw [abs_of_nonneg (by linarith)]
        exact a.trans (le_abs_self _)
    have hhei : |segAt (radAt rx mx ry my y) (h0 + x * k) - segAt (radAt rx mx ry my y) (h0 + y * k)| ≤
        2 * rx * |k| * (y - x) := by
      have e : |(h0 + x * k) - (h0 + y * k)| = |k| * (y - x) := by
        rw [show h0 + x * k - (h0 + y * k) = -(k * (y - x)) by ring, abs_neg, abs_mul, abs_of_nonneg (by linarith : 0 ≤ y - x)]
      have hd : ∀ {h h' : ℝ}, h ≤ h' → |segAt (radAt rx mx ry my y) h - segAt (radAt rx mx ry my y) h'| ≤ 2 * rx * (h' - h) := by
        intro h h' hh
        have a := segAt_lip ry'.1 hh
        have b := segAt_mono ry'.1 le_rfl hh
        rw [abs_of_nonneg (by linarith)]
        nlinarith
      rw [mul_assoc _ |k|, ← e]
      rcases le_total (h0 + x * k) (h0 + y * k) with h | h
      · refine (hd h).trans (le_of_eq ?_)
        rw [abs_of_nonpos (by linarith)]; ring
      · rw [abs_sub_comm]
        refine (hd h).trans (le_of_eq ?_)
        rw [abs_of_nonneg (by linarith)]
    have h3 := hUd x y hx hxy hy
    refine (abs_sub_le _ (segAt (radAt rx mx ry my y) (h0 + x * k)) _).trans ?_
    dsimp only
    linarith
  · dsimp only
    simp only [hU]
    rw [if_neg (by linarith), if_pos (by linarith), u0]
    have a := segAt_nonneg (radAt rx mx ry my ly) hm
    have b := segAt_nonneg (radAt rx mx ry my (-ly)) hm
    have : u ly = segAt (radAt rx mx ry my ly) hm := rfl
    have : u (-ly) = segAt (radAt rx mx ry my (-ly)) hm := rfl
    linarith

/-- The volume one rib reports. -/
theorem Rib.geometricFlat_volume {r : Rib ℝ} (hr : IsRib r) {pose : Affine ℝ} (hp : IsRigid pose) {f : ℝ}
    {o n : V3 ℝ} {g : Flat ℝ} (hg : Flat.make f o n = .ok g)
    (hS : Scalar.eps ≤ sinSq g.plane.normal pose.linear.c1) (hH : 0 ≤ height g.plane (ribCentre pose r)) :
    |(r.envelopGeometricFlat g pose).2.volume - r.width * segAt r.radius
      (height g.plane (ribCentre pose r) / √(sinSq g.plane.normal pose.linear.c1))| ≤
      r.width * (2 * (Scalar.eps / sinSq g.plane.normal pose.linear.c1)) := by
  have hn := Flat.make_unit hg
  have hR : 0 < r.radius := hr.radius_pos
  have hw := hr.width_nonneg
  have heps := real_eps_pos
  have heps1 := real_eps_lt_one
  have hS1 : sinSq g.plane.normal pose.linear.c1 ≤ 1 := by
    have := sq_nonneg (dot3 g.plane.normal pose.linear.c1); simp only [sinSq]; linarith
  have hS0 := heps.trans_le hS
  rcases Rib.geometricFlat_closed hr hp hn with ⟨a1, a2⟩ | ⟨a1, a2⟩
  · have hd : 0 < sectionDepth g.plane pose r ∧ sectionDepth g.plane pose r ≤ r.radius := by
      have := C32_contact hr hp hg (by rw [a2])
      rw [a2] at this
      refine ⟨this.2.2.2.2.2.2.1, ?_⟩
      unfold sectionDepth
      have : 0 ≤ |height g.plane (ribCentre pose r)| / √(sinSq g.plane.normal pose.linear.c1) := by positivity
      linarith
    rw [a2]
    dsimp only
    rw [(C31_area_volume r.width hR hd.1.le (by linarith)).2, segAt_eq]
    unfold sectionDepth
    rw [abs_of_nonneg hH, sub_self, abs_zero]
    positivity
  · rw [a2, show (r.noContact pose).volume = 0 by simp [Rib.noContact], zero_sub, abs_neg,
      abs_of_nonneg (mul_nonneg hw (segAt_nonneg _ _))]
    refine mul_le_mul_of_nonneg_left ?_ hw
    refine (segAt_small hR.le (by positivity)).trans ?_
    refine mul_le_mul_of_nonneg_left ?_ (by norm_num)
    have hge : Scalar.eps ≤ Scalar.eps / sinSq g.plane.normal pose.linear.c1 := by
      rw [le_div_iff₀ hS0]; nlinarith
    refine max_le (by positivity) ?_
    rw [div_pow, Real.sq_sqrt hS0.le]
    by_contra hc
    rw [not_le] at hc
    apply a1
    refine ⟨hS, ?_, ?_⟩
    · rw [div_lt_iff₀ hS0] at hc
      have : (r.radius ^ 2 - height g.plane (ribCentre pose r) ^ 2 / sinSq g.plane.normal pose.linear.c1) *
        sinSq g.plane.normal pose.linear.c1 = sinSq g.plane.normal pose.linear.c1 * r.radius ^ 2 -
          height g.plane (ribCentre pose r) ^ 2 := by field_simp
      linarith
    · have h1 : Scalar.eps < √(r.radius ^ 2 - height g.plane (ribCentre pose r) ^ 2 /
          sinSq g.plane.normal pose.linear.c1) := by
        apply Real.lt_sqrt_of_sq_lt
        nlinarith
      linarith

/-- **C103, what holds.**  Put a tyre of `n` ribs on flat ground, the whole wheel axis inside the tyre above the ground.
The contact volume that the geometric method reports differs from the volume of the part of the tyre below the ground
by an amount of order `1/n` (the slices a rib stands for are not all alike: the profile narrows, and a cambered wheel
is deeper at one side) and an amount of order `eps`, the threshold below which a rib reports no contact.  Here
`camber` is the scalar product of the ground normal with the wheel axis, and `low` the distance from the wheel axis to
the ground in the plane of the rib at the lower side. -/
theorem C103_volume_partial {fresh : Nat → Output ℝ} {n : Nat} (hn : 1 ≤ n) {rx mx ry my ly : ℝ}
    (hv : ValidProfile rx mx ry my ly) {s s' : Shell ℝ} (hmake : Shell.make fresh n rx mx ry my ly = .ok s)
    {pose : Affine ℝ} (hp : IsRigid pose) {f : ℝ} {og nn : V3 ℝ} {g : Flat ℝ} (hg : Flat.make f og nn = .ok g)
    {pol : Policy} {b : Bool} (hs : s.setupFlat pol g pose "geometric" = .ok s' b) :
    let camber := dot3 g.plane.normal pose.linear.c1
    let hub := dot3 (minus pose.trans g.plane.origin) g.plane.normal
    let low := (hub - |camber| * ly) / √(1 - camber ^ 2)
    Scalar.eps ≤ 1 - camber ^ 2 → |camber| * ly ≤ hub →
    ∃ v, s'.contactVolume pol = .ok v ∧
      |v - sunkVolume rx mx ry my ly pose g.plane.origin g.plane.normal| ≤
        2 * ly / n * (2 * segmentArea rx (rx - low) + 4 * rx * ly * |camber| / √(1 - camber ^ 2)) +
        4 * ly * Scalar.eps / (1 - camber ^ 2) := by
  intro camber hub low hS hhub
  have hu := Flat.make_unit hg
  have heps := real_eps_pos
  have hS0 : 0 < sinSq g.plane.normal pose.linear.c1 := heps.trans_le hS
  set σ := √(1 - camber ^ 2) with hσ
  have hσ0 : 0 < σ := Real.sqrt_pos.2 hS0
  have ly0 := hv.ly_pos
  have hn' : (0 : ℝ) < n := by exact_mod_cast hn
  have hreach : s.Reachable pol := .make hmake
  obtain ⟨s1, e1, hsize, -, hshape, hribs, -⟩ := C04_construct fresh n hn rx mx ry my ly hv
  rw [hmake] at e1
  cases e1
  obtain ⟨flags, recs, hres, -⟩ := C38_flat_flag_partial pol s s' g pose "geometric" b hs
  have hrel := Shell.setupFlat_rel (.inl ⟨_, hs⟩)
  have hsize' : s'.size = n := by rw [Shell.size, hrel.ribs]; exact hsize
  have hrep : Reports pol s' recs := by
    rw [Shell.reports_iff, hsize', ← hsize]
    intro i hi
    obtain ⟨_, -, -, e⟩ := hres i hi
    exact e
  refine ⟨_, C42_total_real hrep, ?_⟩
  rw [hsize', sunkVolume_eq hv hp hu hS0]
  change |_ - ∫ y in -ly..ly, segAt (radAt rx mx ry my y) ((hub + y * camber) / σ)| ≤ _
  have hrw : ∀ y, (hub + y * camber) / σ = hub / σ + y * (camber / σ) := fun y => by ring
  have hhm : ∀ y, |y| ≤ ly → low ≤ hub / σ + y * (camber / σ) := by
    intro y hy
    rw [← hrw]
    refine div_le_div_of_nonneg_right ?_ hσ0.le
    have h1 : -(y * camber) ≤ |camber| * ly := by
      refine (neg_le_abs _).trans ?_
      rw [abs_mul, mul_comm]
      exact mul_le_mul_of_nonneg_left hy (abs_nonneg _)
    linarith
  obtain ⟨V, hV, hV'⟩ := slice_variation hv hhm
  have hmid := Riemann.midpoint (g := fun y => segAt (radAt rx mx ry my y) (hub / σ + y * (camber / σ))) ly0.le hn hV
  simp only [hrw]
  have hterm : ∀ i ∈ Finset.range n, |(recs i).volume - 2 * ly / n * segAt (radAt rx mx ry my (-ly + (2 * i + 1) * ly / n))
      (hub / σ + (-ly + (2 * i + 1) * ly / n) * (camber / σ))| ≤ 2 * ly / n * (2 * (Scalar.eps / (1 - camber ^ 2))) := by
    intro i hi
    rw [Finset.mem_range] at hi
    obtain ⟨r, hr1, hr2, -⟩ := hres i (by rw [hsize]; exact hi)
    rw [hrel.ribs] at hr1
    have hr1' : s.ribs[i]? = some r := hr1
    have hrib := hreach.isRib r (List.mem_of_getElem? hr1')
    obtain ⟨ρ, hρ0, hc, hw, hrad, hon⟩ := hribs i hi
    have hc' : r.center = ⟨0, -ly + (2 * i + 1) * ly / n, 0⟩ := by
      rw [Shell.ribCenter, Shell.ribAt, hr1'] at hc; exact Res.ok.inj hc
    have hw' : r.width = 2 * ly / n := by
      rw [Shell.ribWidth, Shell.ribAt, hr1'] at hw; exact Res.ok.inj hw
    have hrad' : r.radius = ρ := by
      rw [Shell.ribRadius, Shell.ribAt, hr1'] at hrad; exact Res.ok.inj hrad
    have hy : |-ly + (2 * i + 1) * ly / n| ≤ ly := (Shell.real_centre_abs ly0 hi).le
    have hh : height g.plane (ribCentre pose r) = hub + (-ly + (2 * i + 1) * ly / n) * camber := by
      unfold ribCentre
      rw [hc', height_apply, mul_zero, mul_zero, add_zero, add_zero]
      rfl
    have hpos : 0 ≤ height g.plane (ribCentre pose r) := by
      rw [hh]
      have h2 := hhm _ hy
      rw [← hrw, div_le_div_iff_of_pos_right hσ0] at h2
      linarith
    have := Rib.geometricFlat_volume hrib hp hg hS hpos
    rw [Rib.envelopFlat_geometric_eq hr2, hh, hw', hrad', (radAt_profile hv hy ρ).1 hon] at this
    rw [← hrw]
    exact this
  have hsum := (Finset.abs_sum_le_sum_abs _ (Finset.range n)).trans (Finset.sum_le_sum hterm)
  rw [Finset.sum_sub_distrib, Finset.sum_const, Finset.card_range, nsmul_eq_mul] at hsum
  have e2 : (n : ℝ) * (2 * ly / n * (2 * (Scalar.eps / (1 - camber ^ 2)))) = 4 * ly * Scalar.eps / (1 - camber ^ 2) := by
    field_simp; ring
  rw [e2] at hsum
  have e3 : 2 * ly / n * (V ly - V (-ly)) ≤ 2 * ly / n * (2 * segmentArea rx (rx - low) + 4 * rx * ly * |camber| / σ) := by
    refine mul_le_mul_of_nonneg_left (hV'.trans (le_of_eq ?_)) (by positivity)
    rw [segAt_eq, abs_div, abs_of_pos hσ0]
    ring
  exact (abs_sub_le _ _ _).trans ((add_le_add hsum (hmid.trans e3)).trans (le_of_eq (by ring)))

/-- The hypotheses are met by tyres of 1 to 200 ribs whose hub stands one half above the road, so that the middle of the
tyre reaches one half below it: the error is at most `4/n` times the area of the middle section, up to the tolerance. -/
example (fresh : Nat → Output ℝ) (n : Nat) (hn : 1 ≤ n) (hn' : n ≤ 200) : ∃ (s s' : Shell ℝ) (b : Bool) (v : ℝ),
    Shell.make fresh n 1 2 2 2 1 = .ok s ∧
    s.setupFlat .raw Demo.road (Demo.upright (1 / 2)) "geometric" = .ok s' b ∧ s'.contactVolume .raw = .ok v ∧
    |v - sunkVolume 1 2 2 2 1 (Demo.upright (1 / 2)) ⟨0, 0, 0⟩ ⟨0, 0, 1⟩| ≤ 4 / n * segmentArea 1 (1 / 2) +
      4 * Scalar.eps := by
  have hv : ValidProfile (1 : ℝ) 2 2 2 1 :=
    ⟨by norm_num, by norm_num, by norm_num, by norm_num, by norm_num, by norm_num⟩
  have heps := real_eps_le_half
  obtain ⟨s, h1, h2, -⟩ := C04_construct fresh n hn 1 2 2 2 1 hv
  obtain ⟨s', b, hs, -⟩ := Shell.flat_shows (.make h1) (by rw [h2]; exact hn') Demo.road (Demo.upright (1 / 2)) (.inl rfl)
  have hc : dot3 Demo.road.plane.normal (Demo.upright (1 / 2)).linear.c1 = 0 := by norm_num [dot3, Demo.road, Demo.upright]
  have hh : dot3 (minus (Demo.upright (1 / 2)).trans Demo.road.plane.origin) Demo.road.plane.normal = 1 / 2 := by
    norm_num [dot3, minus, Demo.road, Demo.upright]
  have := C103_volume_partial hn hv h1 (Demo.upright_rigid (1 / 2)) Demo.road_make hs
  dsimp only at this
  rw [hc, hh] at this
  obtain ⟨v, e1, e2⟩ := this (by norm_num; linarith) (by norm_num)
  refine ⟨s, s', b, v, h1, hs, e1, e2.trans (le_of_eq ?_)⟩
  norm_num
  ring

/-- **C103 fails for a wheel below the ground.**  A tyre of any number of ribs wholly below the road reports contact
volume zero, although all of it is below the ground. -/
theorem C103_buried_refuted (fresh : Nat → Output ℝ) (n : Nat) (hn : 1 ≤ n) (hn' : n ≤ 200) :
    ∃ (s s' : Shell ℝ) (b : Bool), Shell.make fresh n 1 2 2 2 1 = .ok s ∧
    s.setupFlat .raw Demo.road (Demo.upright (-2)) "geometric" = .ok s' b ∧ s'.contactVolume .raw = .ok 0 ∧
    (∀ p ∈ tyreSolid 1 2 2 2 1, p ∈ sunkPart 1 2 2 2 1 (Demo.upright (-2)) ⟨0, 0, 0⟩ ⟨0, 0, 1⟩) ∧
    Real.pi / 2 ≤ sunkVolume 1 2 2 2 1 (Demo.upright (-2)) ⟨0, 0, 0⟩ ⟨0, 0, 1⟩ := by
  have hv : ValidProfile (1 : ℝ) 2 2 2 1 :=
    ⟨by norm_num, by norm_num, by norm_num, by norm_num, by norm_num, by norm_num⟩
  have heps := real_eps_pos
  have heps' := real_eps_le_half
  obtain ⟨s, h1, h2, -, -, hribs, -⟩ := C04_construct fresh n hn 1 2 2 2 1 hv
  have hreach : s.Reachable .raw := .make h1
  obtain ⟨s', b, hs, -⟩ := Shell.flat_shows hreach (by rw [h2]; exact hn') Demo.road (Demo.upright (-2)) (.inl rfl)
  have hc : dot3 Demo.road.plane.normal (Demo.upright (-2)).linear.c1 = 0 := by norm_num [dot3, Demo.road, Demo.upright]
  have hsin : sinSq Demo.road.plane.normal (Demo.upright (-2)).linear.c1 = 1 := by rw [sinSq, hc]; norm_num
  have hh : height Demo.road.plane (Demo.upright (-2)).trans = -2 := by
    norm_num [height, dot3, minus, Demo.road, Demo.upright]
  have hu := Flat.make_unit Demo.road_make
  refine ⟨s, s', b, h1, hs, ?_, ?_, ?_⟩
  · obtain ⟨flags, recs, hres, -⟩ := C38_flat_flag_partial .raw s s' Demo.road (Demo.upright (-2)) "geometric" b hs
    have hrel := Shell.setupFlat_rel (.inl ⟨_, hs⟩)
    have hsize' : s'.size = n := by rw [Shell.size, hrel.ribs]; exact h2
    have hrep : Reports .raw s' recs := by
      rw [Shell.reports_iff, hsize', ← h2]
      intro i hi
      obtain ⟨_, -, -, e⟩ := hres i hi
      exact e
    rw [C42_total_real hrep, hsize']
    congr 1
    refine Finset.sum_eq_zero fun i hi => ?_
    rw [Finset.mem_range] at hi
    obtain ⟨r, hr1, hr2, -⟩ := hres i (by rw [h2]; exact hi)
    rw [hrel.ribs] at hr1
    have hr1' : s.ribs[i]? = some r := hr1
    have hrib := hreach.isRib r (List.mem_of_getElem? hr1')
    obtain ⟨ρ, hρ0, hcen, -, hrad, hon⟩ := hribs i hi
    have hc' : r.center = ⟨0, -1 + (2 * i + 1) * 1 / n, 0⟩ := by
      rw [Shell.ribCenter, Shell.ribAt, hr1'] at hcen; exact Res.ok.inj hcen
    have hrad' : r.radius = ρ := by
      rw [Shell.ribRadius, Shell.ribAt, hr1'] at hrad; exact Res.ok.inj hrad
    have hy : |-1 + (2 * (i : ℝ) + 1) * 1 / n| ≤ 1 := (Shell.real_centre_abs one_pos hi).le
    have hρ : ρ ≤ 1 := by rw [(radAt_profile hv hy ρ).1 hon]; exact (radAt_mem hv hy).2
    rcases Rib.geometricFlat_closed hrib (Demo.upright_rigid (-2)) hu with ⟨a1, -⟩ | ⟨-, a2⟩
    · exfalso
      obtain ⟨-, a, -⟩ := a1
      have : height Demo.road.plane (ribCentre (Demo.upright (-2)) r) = -2 := by
        unfold ribCentre
        rw [hc', height_apply, hh, hc]; ring
      rw [hsin, this, hrad'] at a
      nlinarith
    · rw [Rib.envelopFlat_geometric_eq hr2] at a2
      rw [(Prod.mk.inj a2).2]
      simp [Rib.noContact]
  · intro p hp
    refine ⟨hp, ?_⟩
    obtain ⟨h3, r, h4, h5⟩ := hp
    have hr : r ≤ 1 := by rw [(radAt_profile hv h3.le r).1 h4]; exact (radAt_mem hv h3.le).2
    have hr0 := h4.1
    have : dot3 (minus ((Demo.upright (-2)).apply ⟨p.2.1, p.1, p.2.2⟩) ⟨0, 0, 0⟩) ⟨0, 0, 1⟩ = p.2.2 - 2 := by
      simp only [Demo.upright, Affine.apply, dot3, minus]; v3; ring
    rw [this]
    nlinarith [sq_nonneg p.2.1, sq_nonneg (p.2.2 - 1)]
  · have e := sunkVolume_eq hv (Demo.upright_rigid (-2)) hu (by rw [hsin]; norm_num)
    rw [hsin, hh, hc] at e
    simp only [mul_zero, add_zero, Real.sqrt_one, div_one] at e
    have e' : sunkVolume 1 2 2 2 1 (Demo.upright (-2)) ⟨0, 0, 0⟩ ⟨0, 0, 1⟩ = ∫ y in (-1:ℝ)..1, segAt (radAt 1 2 2 2 y) (-2) := e
    rw [e']
    obtain ⟨V, hV, -⟩ := slice_variation hv (h0 := -2) (k := 0) (hm := -2) (fun y _ => by norm_num)
    simp only [mul_zero, add_zero] at hV
    have hint := Riemann.integrable (g := fun y => segAt (radAt 1 2 2 2 y) (-2)) (by norm_num : (-1:ℝ) ≤ 1) hV
    have hlow : ∀ y ∈ Set.Icc (-1:ℝ) 1, Real.pi / 4 ≤ segAt (radAt 1 2 2 2 y) (-2) := by
      intro y hy
      have hy' : |y| ≤ 1 := abs_le.2 hy
      have hr : 1 / 2 ≤ radAt 1 2 2 2 y := by
        obtain ⟨g1, g2⟩ := (radAt_profile hv hy' _).2 rfl
        rw [div_one] at g2
        norm_cast at g2
        have : (|y| / 2) ^ 2 ≤ 1 / 4 := by
          have := abs_nonneg y
          nlinarith
        by_contra hcon
        rw [not_le] at hcon
        nlinarith
      have hs0 : segAt (1 / 2) (-(1 / 2)) = Real.pi / 4 := by
        rw [segAt_eq, segmentArea_eq (by norm_num) (by norm_num) (by norm_num)]
        unfold primSeg
        norm_num
        ring
      rw [← hs0]
      exact segAt_mono (by norm_num) hr (by norm_num)
    have := intervalIntegral.integral_mono_on (by norm_num : (-1:ℝ) ≤ 1) intervalIntegrable_const hint hlow
    rw [intervalIntegral.integral_const, smul_eq_mul] at this
    linarith

end Enve
