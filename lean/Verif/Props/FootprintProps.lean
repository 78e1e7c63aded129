import Verif.Props.VolumeProps
import Verif.Props.SamplingProps
import Verif.Props.SizeProps
import Verif.Spec.Footprint

/-! # C150: the contact areas of the ribs and the area of the footprint -/

namespace Enve

open Scalar Spec MeasureTheory

namespace Footprint

/-- The length of the chord of a circle of radius `R` at the distance `h`, zero if there is none. -/
noncomputable def chord (R h : ℝ) : ℝ := 2 * √(R ^ 2 - h ^ 2)

theorem chord_mono {R R' h : ℝ} (h0 : 0 ≤ R) (hR : R ≤ R') : chord R h ≤ chord R' h := by
  unfold chord
  have : R ^ 2 ≤ R' ^ 2 := by nlinarith
  exact mul_le_mul_of_nonneg_left (Real.sqrt_le_sqrt (by linarith)) (by norm_num)

theorem chord_nonneg (R h : ℝ) : 0 ≤ chord R h := by unfold chord; positivity

/-- A vector given in the axes of the wheel and in those of the plane below it. -/
theorem coords {m : M3 ℝ} (hp : IsRotation m) {N : V3 ℝ} (hN : Unit3 N) (hc : dot3 N m.c1 = 0) {h x y z s t : ℝ}
    (hx : x * m.c0.x + y * m.c1.x + z * m.c2.x = -h * N.x + s * m.c1.x + t * (cross3 m.c1 N).x)
    (hy : x * m.c0.y + y * m.c1.y + z * m.c2.y = -h * N.y + s * m.c1.y + t * (cross3 m.c1 N).y)
    (hz : x * m.c0.z + y * m.c1.z + z * m.c2.z = -h * N.z + s * m.c1.z + t * (cross3 m.c1 N).z) :
    y = s ∧ x ^ 2 + z ^ 2 = t ^ 2 + h ^ 2 := by
  have hN' := hN.dot
  simp only [dot3, cross3] at *
  have h1 : y = s := by
    linear_combination m.c1.x * hx + m.c1.y * hy + m.c1.z * hz - x * hp.orth01 - y * hp.unit1 - z * hp.orth12 -
      h * hc + s * hp.unit1
  refine ⟨h1, ?_⟩
  have hl : (x * m.c0.x + y * m.c1.x + z * m.c2.x) ^ 2 + (x * m.c0.y + y * m.c1.y + z * m.c2.y) ^ 2 +
      (x * m.c0.z + y * m.c1.z + z * m.c2.z) ^ 2 = x ^ 2 + y ^ 2 + z ^ 2 := by
    linear_combination x ^ 2 * hp.unit0 + y ^ 2 * hp.unit1 + z ^ 2 * hp.unit2 + 2 * x * y * hp.orth01 +
      2 * x * z * hp.orth02 + 2 * y * z * hp.orth12
  rw [hx, hy, hz] at hl
  rw [h1] at hl
  linear_combination -hl + h ^ 2 * hN' + s ^ 2 * hp.unit1 - 2 * h * s * hc +
    t ^ 2 * ((m.c1.x ^ 2 + m.c1.y ^ 2 + m.c1.z ^ 2) * hN' + hp.unit1 -
      (N.x * m.c1.x + N.y * m.c1.y + N.z * m.c1.z) * hc)

/-- Which points of the plane below the hub are in the tyre. -/
theorem mem_iff {rx mx ry my ly : ℝ} (hv : ValidProfile rx mx ry my ly) {pose : Affine ℝ} (hp : IsRigid pose)
    {N : V3 ℝ} (hN : Unit3 N) (hc : dot3 N pose.linear.c1 = 0) (h : ℝ) (p : ℝ × ℝ) :
    p ∈ footprint rx mx ry my ly pose (along pose.trans (-h) N) pose.linear.c1 (cross3 pose.linear.c1 N) ↔
      |p.1| < ly ∧ p.2 ^ 2 < radAt rx mx ry my p.1 ^ 2 - h ^ 2 := by
  have key : ∀ x y z : ℝ, pose.apply ⟨x, y, z⟩ = along (along (along pose.trans (-h) N) p.1 pose.linear.c1) p.2
      (cross3 pose.linear.c1 N) ↔
      (x * pose.linear.c0.x + y * pose.linear.c1.x + z * pose.linear.c2.x =
          -h * N.x + p.1 * pose.linear.c1.x + p.2 * (cross3 pose.linear.c1 N).x ∧
        x * pose.linear.c0.y + y * pose.linear.c1.y + z * pose.linear.c2.y =
          -h * N.y + p.1 * pose.linear.c1.y + p.2 * (cross3 pose.linear.c1 N).y ∧
        x * pose.linear.c0.z + y * pose.linear.c1.z + z * pose.linear.c2.z =
          -h * N.z + p.1 * pose.linear.c1.z + p.2 * (cross3 pose.linear.c1 N).z) := by
    intro x y z
    rw [V3.ext_iff]
    simp only [Affine.apply, along]
    v3
    refine and_congr ?_ (and_congr ?_ ?_) <;> constructor <;> intro e <;> linarith
  unfold footprint tyreSolid
  simp only [Set.mem_ofPred_eq]
  constructor
  · rintro ⟨q, ⟨h1, r, h2, h3⟩, h4⟩
    obtain ⟨e1, e2, e3⟩ := (key _ _ _).1 h4
    obtain ⟨f1, f2⟩ := coords hp hN hc e1 e2 e3
    rw [radAt_profile hv h1.le] at h2
    rw [h2, f1] at h3
    rw [f1] at h1
    exact ⟨h1, by linarith⟩
  · rintro ⟨h1, h2⟩
    obtain ⟨⟨ra, rb, rc⟩, rd, re, rf⟩ := IsRotation.rows hp
    have hN' := hN.dot
    set w : V3 ℝ := ⟨-h * N.x + p.1 * pose.linear.c1.x + p.2 * (cross3 pose.linear.c1 N).x,
      -h * N.y + p.1 * pose.linear.c1.y + p.2 * (cross3 pose.linear.c1 N).y,
      -h * N.z + p.1 * pose.linear.c1.z + p.2 * (cross3 pose.linear.c1 N).z⟩
    have hb : dot3 w pose.linear.c1 = p.1 := by
      have hu := IsRotation.unit1 hp
      have hx : w.x = -h * N.x + p.1 * pose.linear.c1.x + p.2 * (cross3 pose.linear.c1 N).x := rfl
      have hy : w.y = -h * N.y + p.1 * pose.linear.c1.y + p.2 * (cross3 pose.linear.c1 N).y := rfl
      have hz : w.z = -h * N.z + p.1 * pose.linear.c1.z + p.2 * (cross3 pose.linear.c1 N).z := rfl
      unfold dot3 at hc ⊢
      rw [hx, hy, hz]
      simp only [cross3]
      linear_combination -h * hc + p.1 * hu
    have e1 : dot3 w pose.linear.c0 * pose.linear.c0.x + p.1 * pose.linear.c1.x +
        dot3 w pose.linear.c2 * pose.linear.c2.x = w.x := by
      rw [← hb]; simp only [dot3]; linear_combination w.x * ra + w.y * rd + w.z * re
    have e2 : dot3 w pose.linear.c0 * pose.linear.c0.y + p.1 * pose.linear.c1.y +
        dot3 w pose.linear.c2 * pose.linear.c2.y = w.y := by
      rw [← hb]; simp only [dot3]; linear_combination w.x * rd + w.y * rb + w.z * rf
    have e3 : dot3 w pose.linear.c0 * pose.linear.c0.z + p.1 * pose.linear.c1.z +
        dot3 w pose.linear.c2 * pose.linear.c2.z = w.z := by
      rw [← hb]; simp only [dot3]; linear_combination w.x * re + w.y * rf + w.z * rc
    obtain ⟨-, f2⟩ := coords hp hN hc e1 e2 e3
    refine ⟨(p.1, dot3 w pose.linear.c0, dot3 w pose.linear.c2), ⟨h1, _, (radAt_profile hv h1.le _).2 rfl, ?_⟩,
      (key _ _ _).2 ⟨e1, e2, e3⟩⟩
    dsimp only
    linarith

/-- The area of the footprint is the integral of the chords. -/
theorem area_eq {rx mx ry my ly : ℝ} (hv : ValidProfile rx mx ry my ly) {pose : Affine ℝ} (hp : IsRigid pose)
    {N : V3 ℝ} (hN : Unit3 N) (hc : dot3 N pose.linear.c1 = 0) (h : ℝ) :
    footprintArea rx mx ry my ly pose (along pose.trans (-h) N) pose.linear.c1 (cross3 pose.linear.c1 N) =
      ∫ y in -ly..ly, chord (radAt rx mx ry my y) h := by
  have hset : footprint rx mx ry my ly pose (along pose.trans (-h) N) pose.linear.c1 (cross3 pose.linear.c1 N) =
      {p : ℝ × ℝ | |p.1| < ly ∧ p.2 ^ 2 < radAt rx mx ry my p.1 ^ 2 - h ^ 2} := by
    ext p; exact mem_iff hv hp hN hc h p
  unfold footprintArea
  rw [hset]
  have hm : MeasurableSet {p : ℝ × ℝ | |p.1| < ly ∧ p.2 ^ 2 < radAt rx mx ry my p.1 ^ 2 - h ^ 2} := by
    have hR := radAt_measurable rx mx ry my
    have m1 : Measurable fun p : ℝ × ℝ => |p.1| := by fun_prop
    have m2 : Measurable fun p : ℝ × ℝ => p.2 ^ 2 := by fun_prop
    have m3 : Measurable fun p : ℝ × ℝ => radAt rx mx ry my p.1 ^ 2 - h ^ 2 := by fun_prop
    exact (measurableSet_lt m1 measurable_const).inter (measurableSet_lt m2 m3)
  have hslice : ∀ y, volume (Prod.mk y ⁻¹' {p : ℝ × ℝ | |p.1| < ly ∧ p.2 ^ 2 < radAt rx mx ry my p.1 ^ 2 - h ^ 2}) =
      if y ∈ Set.Ioo (-ly) ly then ENNReal.ofReal (chord (radAt rx mx ry my y) h) else 0 := by
    intro y
    split
    · rename_i hy
      have : Prod.mk y ⁻¹' {p : ℝ × ℝ | |p.1| < ly ∧ p.2 ^ 2 < radAt rx mx ry my p.1 ^ 2 - h ^ 2} =
          Set.Ioo (-√(radAt rx mx ry my y ^ 2 - h ^ 2)) (√(radAt rx mx ry my y ^ 2 - h ^ 2)) := by
        ext x
        simp only [Set.mem_preimage, Set.mem_ofPred_eq, abs_lt.2 hy, true_and, Set.mem_Ioo]
        rw [← abs_lt, Real.lt_sqrt (abs_nonneg _), sq_abs]
      rw [this, Real.volume_Ioo]
      congr 1
      unfold chord
      ring
    · rename_i hy
      convert measure_empty (μ := volume)
      ext p
      simp only [Set.mem_preimage, Set.mem_ofPred_eq, Set.mem_empty_iff_false, iff_false]
      exact fun h => hy (abs_lt.1 h.1)
  rw [Measure.volume_eq_prod, Measure.prod_apply hm, ← integral_toReal (measurable_measure_prodMk_left hm).aemeasurable]
  · rw [intervalIntegral.integral_of_le (by linarith [hv.ly_pos]), integral_Ioc_eq_integral_Ioo,
      ← integral_indicator measurableSet_Ioo]
    congr 1
    ext y
    rw [hslice, Set.indicator_apply]
    split
    · exact ENNReal.toReal_ofReal (chord_nonneg _ _)
    · simp
  · refine Filter.Eventually.of_forall fun y => ?_
    rw [hslice]
    split
    · exact ENNReal.ofReal_lt_top
    · exact ENNReal.zero_lt_top

/-- How much the chords change. -/
theorem variation {rx mx ry my ly : ℝ} (hv : ValidProfile rx mx ry my ly) (h : ℝ) :
    ∃ V : ℝ → ℝ, (∀ x y, -ly ≤ x → x ≤ y → y ≤ ly →
      |chord (radAt rx mx ry my x) h - chord (radAt rx mx ry my y) h| ≤ V y - V x) ∧
      V ly - V (-ly) ≤ 2 * chord rx h := by
  set u : ℝ → ℝ := fun y => chord (radAt rx mx ry my y) h with hu
  set U : ℝ → ℝ := fun y => if y ≤ 0 then u y else 2 * u 0 - u y with hU
  have u_anti : ∀ {y y'}, |y'| ≤ ly → |y| ≤ |y'| → u y' ≤ u y := fun hy h =>
    chord_mono (radAt_mem hv hy).1 (radAt_anti hv hy h)
  have u0 : u 0 = chord rx h := by rw [hu]; dsimp only; rw [radAt_zero hv]
  have ly0 := hv.ly_pos
  refine ⟨U, ?_, ?_⟩
  · intro x y hx hxy hy
    change |u x - u y| ≤ _
    simp only [hU]
    have hxl : |x| ≤ ly := abs_le.2 ⟨hx, hxy.trans hy⟩
    have hyl : |y| ≤ ly := abs_le.2 ⟨hx.trans hxy, hy⟩
    by_cases h1 : y ≤ 0
    · rw [if_pos h1, if_pos (hxy.trans h1)]
      have := u_anti hxl (by rw [abs_of_nonpos h1, abs_of_nonpos (hxy.trans h1)]; linarith : |y| ≤ |x|)
      rw [abs_of_nonpos (by linarith)]; linarith
    · rw [if_neg h1]
      by_cases h2 : x ≤ 0
      · rw [if_pos h2]
        have a := u_anti hxl (by rw [abs_zero]; exact abs_nonneg _ : |(0:ℝ)| ≤ |x|)
        have b := u_anti hyl (by rw [abs_zero]; exact abs_nonneg _ : |(0:ℝ)| ≤ |y|)
        rw [abs_le]; constructor <;> linarith
      · rw [if_neg h2]
        have := u_anti hyl (by rw [abs_of_pos (not_le.1 h1), abs_of_pos (not_le.1 h2)]; exact hxy : |x| ≤ |y|)
        rw [abs_of_nonneg (by linarith)]; linarith
  · simp only [hU]
    rw [if_neg (by linarith), if_pos (by linarith), u0]
    have a := chord_nonneg (radAt rx mx ry my ly) h
    have b := chord_nonneg (radAt rx mx ry my (-ly)) h
    have : u ly = chord (radAt rx mx ry my ly) h := rfl
    have : u (-ly) = chord (radAt rx mx ry my (-ly)) h := rfl
    linarith

/-- The area one rib reports. -/
theorem rib_area {r : Rib ℝ} (hr : IsRib r) {pose : Affine ℝ} (hp : IsRigid pose) {f : ℝ} {o n : V3 ℝ} {g : Flat ℝ}
    (hg : Flat.make f o n = .ok g) (hc : dot3 g.plane.normal pose.linear.c1 = 0) :
    |(r.envelopGeometricFlat g pose).2.area - r.width * chord r.radius (height g.plane (ribCentre pose r))| ≤
      r.width * (2 * √Scalar.eps) := by
  have hn := Flat.make_unit hg
  have hR : 0 < r.radius := hr.radius_pos
  have hw := hr.width_nonneg
  have heps := real_eps_pos
  have heps1 := real_eps_lt_one
  have hS : sinSq g.plane.normal pose.linear.c1 = 1 := by rw [sinSq, hc]; norm_num
  rcases Rib.geometricFlat_closed hr hp hn with ⟨a1, a2⟩ | ⟨a1, a2⟩
  · rw [a2]
    have : Rib.depthArea r.radius r.width (sectionDepth g.plane pose r) =
        r.width * chord r.radius (height g.plane (ribCentre pose r)) := by
      unfold sectionDepth chord
      rw [hS, Real.sqrt_one, div_one]
      simp only [Rib.depthArea, real_mul, real_sub, real_sqrt, real_two]
      rw [show (r.radius - |height g.plane (ribCentre pose r)|) * (2 * r.radius - (r.radius - |height g.plane (ribCentre pose r)|)) =
        r.radius ^ 2 - height g.plane (ribCentre pose r) ^ 2 by rw [← sq_abs (height _ _)]; ring]
      ring
    dsimp only
    rw [this, sub_self, abs_zero]
    positivity
  · rw [a2, show (r.noContact pose).area = 0 by simp [Rib.noContact], zero_sub, abs_neg,
      abs_of_nonneg (mul_nonneg hw (chord_nonneg _ _))]
    refine mul_le_mul_of_nonneg_left ?_ hw
    unfold chord
    refine mul_le_mul_of_nonneg_left (Real.sqrt_le_sqrt ?_) (by norm_num)
    by_contra hcon
    rw [not_le] at hcon
    apply a1
    unfold FlatContact
    dsimp only
    rw [hS, one_mul, div_one]
    refine ⟨heps1.le, hcon.le, ?_⟩
    have h1 : Scalar.eps < √(r.radius ^ 2 - height g.plane (ribCentre pose r) ^ 2) := by
      apply Real.lt_sqrt_of_sq_lt
      nlinarith
    linarith

/-- The area one rib of an upright wheel reports with the sampling method on level ground below the hub. -/
theorem rib_area_sampling {r : Rib ℝ} (hr : IsRib r) (hw : 0 < r.width) {pose : Affine ℝ} (hp : IsRigid pose)
    (hup : pose.linear.c2 = ⟨0, 0, 1⟩) {f : ℝ} {o n : V3 ℝ} {g : Flat ℝ} (hg : Flat.make f o n = .ok g) (hx : n.x = 0)
    (hy : n.y = 0) (habove : o.z ≤ (pose.apply ⟨0, r.y, 0⟩).z) :
    (r.envelopSamplingFlat g pose).2.area = r.width * chord r.radius ((pose.apply ⟨0, r.y, 0⟩).z - o.z) := by
  have hR : 0 < r.radius := hr.radius_pos
  obtain ⟨-, -, h1, h2⟩ := C60_sampling_flat hr hw hp hup hg hx hy habove
  generalize hres : r.envelopSamplingFlat g pose = res at h1 h2 ⊢
  obtain ⟨flag, out⟩ := res
  cases flag
  · have hlow : ¬ (pose.apply ⟨0, r.y, 0⟩).z - r.radius < o.z := fun e => by simpa using h1.2 e
    have hrec : out = r.noContact pose := by
      have e := hres
      unfold Rib.envelopSamplingFlat at e
      exact Rib.envelopSampling_false e
    rw [hrec, show (r.noContact pose).area = 0 by simp [Rib.noContact]]
    unfold chord
    rw [Real.sqrt_eq_zero_of_nonpos (by nlinarith)]
    ring
  · obtain ⟨d1, -⟩ := h2 rfl
    have e := hres
    unfold Rib.envelopSamplingFlat at e
    obtain ⟨-, -, e3, -⟩ := Rib.envelopSampling_record hR e
    dsimp only at d1 ⊢
    rw [e3, d1]
    unfold chord
    simp only [Rib.depthArea, real_mul, real_sub, real_sqrt, real_two]
    rw [show (o.z - ((pose.apply ⟨0, r.y, 0⟩).z - r.radius)) * (2 * r.radius - (o.z - ((pose.apply ⟨0, r.y, 0⟩).z - r.radius))) =
      r.radius ^ 2 - ((pose.apply ⟨0, r.y, 0⟩).z - o.z) ^ 2 by ring]
    ring

/-- From the ribs to the tyre. -/
theorem total {fresh : Nat → Output ℝ} {n : Nat} (hn : 1 ≤ n) {rx mx ry my ly : ℝ}
    (hv : ValidProfile rx mx ry my ly) {s s' : Shell ℝ} (hmake : Shell.make fresh n rx mx ry my ly = .ok s)
    {pose : Affine ℝ} (hp : IsRigid pose) {f : ℝ} {og nn : V3 ℝ} {g : Flat ℝ} (hg : Flat.make f og nn = .ok g)
    (hc : dot3 g.plane.normal pose.linear.c1 = 0) {method : String}
    {pol : Policy} {b : Bool} (hs : s.setupFlat pol g pose method = .ok s' b) {hub δ : ℝ}
    (hone : ∀ r : Rib ℝ, IsRib r → 0 < r.width → ∀ flag o, r.envelopFlat g pose method = .ok (flag, o) →
      |o.area - r.width * chord r.radius hub| ≤ r.width * δ) :
    ∃ a : Nat → ℝ, (∀ i < n, s'.contactAreaAt pol i = .ok (a i)) ∧
      |∑ i ∈ Finset.range n, a i - footprintArea rx mx ry my ly pose (along pose.trans (-hub) g.plane.normal)
        pose.linear.c1 (cross3 pose.linear.c1 g.plane.normal)| ≤ 2 * ly / n * (4 * √(rx ^ 2 - hub ^ 2)) + 2 * ly * δ := by
  have hu := Flat.make_unit hg
  have ly0 := hv.ly_pos
  have hn' : (0 : ℝ) < n := by exact_mod_cast hn
  have hreach : s.Reachable pol := .make hmake
  obtain ⟨s1, e1, hsize, -, hshape, hribs, -⟩ := C04_construct fresh n hn rx mx ry my ly hv
  rw [hmake] at e1
  cases e1
  obtain ⟨flags, recs, hres, -⟩ := C38_flat_flag_partial pol s s' g pose method b hs
  have hrel := Shell.setupFlat_rel (.inl ⟨_, hs⟩)
  have hsize' : s'.size = n := by rw [Shell.size, hrel.ribs]; exact hsize
  have hrep : Reports pol s' recs := by
    rw [Shell.reports_iff, hsize', ← hsize]
    intro i hi
    obtain ⟨_, -, -, e⟩ := hres i hi
    exact e
  refine ⟨fun i => (recs i).area, fun i hi => hrep.area i (by rw [hsize']; exact hi), ?_⟩
  rw [area_eq hv hp hu hc hub]
  obtain ⟨V, hV, hV'⟩ := variation hv hub
  have hmid := Riemann.midpoint (g := fun y => chord (radAt rx mx ry my y) hub) ly0.le hn hV
  have hterm : ∀ i ∈ Finset.range n, |(recs i).area - 2 * ly / n * chord
      (radAt rx mx ry my (-ly + (2 * i + 1) * ly / n)) hub| ≤ 2 * ly / n * δ := by
    intro i hi
    rw [Finset.mem_range] at hi
    obtain ⟨r, hr1, hr2, -⟩ := hres i (by rw [hsize]; exact hi)
    rw [hrel.ribs] at hr1
    have hr1' : s.ribs[i]? = some r := hr1
    have hrib := hreach.isRib r (List.mem_of_getElem? hr1')
    obtain ⟨ρ, hρ0, -, hw, hrad, hon⟩ := hribs i hi
    have hw' : r.width = 2 * ly / n := by
      rw [Shell.ribWidth, Shell.ribAt, hr1'] at hw; exact Res.ok.inj hw
    have hrad' : r.radius = ρ := by
      rw [Shell.ribRadius, Shell.ribAt, hr1'] at hrad; exact Res.ok.inj hrad
    have hy : |-ly + (2 * i + 1) * ly / n| ≤ ly := (Shell.real_centre_abs ly0 hi).le
    have := hone r hrib (by rw [hw']; positivity) _ _ hr2
    rw [hw', hrad', (radAt_profile hv hy ρ).1 hon] at this
    exact this
  have hsum := (Finset.abs_sum_le_sum_abs _ (Finset.range n)).trans (Finset.sum_le_sum hterm)
  rw [Finset.sum_sub_distrib, Finset.sum_const, Finset.card_range, nsmul_eq_mul] at hsum
  have e2 : (n : ℝ) * (2 * ly / n * δ) = 2 * ly * δ := by field_simp
  rw [e2] at hsum
  have e3 : 2 * ly / n * (V ly - V (-ly)) ≤ 2 * ly / n * (4 * √(rx ^ 2 - hub ^ 2)) := by
    refine mul_le_mul_of_nonneg_left (hV'.trans (le_of_eq ?_)) (by positivity)
    unfold chord; ring
  exact (abs_sub_le _ _ _).trans ((add_le_add hsum (hmid.trans e3)).trans (le_of_eq (by ring)))

end Footprint

/-- **C150, geometric method (partial).**  Put a tyre of `n` ribs at any pose whose wheel axis is parallel to a flat
ground, at any height.  The areas that the ribs report add up to the area of the part of the ground plane inside the
tyre, up to an amount of order `1/n` times the length of the middle chord, and the threshold of a contact.  The plane is
given by the foot of the hub, the wheel axis and the direction at right angles to it. -/
theorem C150_geometric_partial {fresh : Nat → Output ℝ} {n : Nat} (hn : 1 ≤ n) {rx mx ry my ly : ℝ}
    (hv : ValidProfile rx mx ry my ly) {s s' : Shell ℝ} (hmake : Shell.make fresh n rx mx ry my ly = .ok s)
    {pose : Affine ℝ} (hp : IsRigid pose) {f : ℝ} {og nn : V3 ℝ} {g : Flat ℝ} (hg : Flat.make f og nn = .ok g)
    (hc : dot3 g.plane.normal pose.linear.c1 = 0)
    {pol : Policy} {b : Bool} (hs : s.setupFlat pol g pose "geometric" = .ok s' b) :
    let hub := dot3 (minus pose.trans g.plane.origin) g.plane.normal
    let foot := along pose.trans (-hub) g.plane.normal
    ∃ a : Nat → ℝ, (∀ i < n, s'.contactAreaAt pol i = .ok (a i)) ∧
      |∑ i ∈ Finset.range n, a i -
        footprintArea rx mx ry my ly pose foot pose.linear.c1 (cross3 pose.linear.c1 g.plane.normal)| ≤
        2 * ly / n * (4 * √(rx ^ 2 - hub ^ 2)) + 4 * ly * √Scalar.eps := by
  intro hub foot
  have hone : ∀ r : Rib ℝ, IsRib r → 0 < r.width → ∀ flag o, r.envelopFlat g pose "geometric" = .ok (flag, o) →
      |o.area - r.width * Footprint.chord r.radius hub| ≤ r.width * (2 * √Scalar.eps) := by
    intro r hr _ flag o ho
    have hh : height g.plane (ribCentre pose r) = hub := by
      unfold ribCentre
      rw [show r.center = ⟨0, r.y, 0⟩ from hr.center, height_apply, hc, mul_zero, mul_zero, mul_zero, add_zero, add_zero,
        add_zero]
      rfl
    have := Footprint.rib_area hr hp hg hc
    rw [Rib.envelopFlat_geometric_eq ho, hh] at this
    exact this
  obtain ⟨a, h1, h2⟩ := Footprint.total hn hv hmake hp hg hc hs hone
  exact ⟨a, h1, h2.trans (le_of_eq (by ring))⟩

/-- **C150, sampling method (partial).**  The same for an upright wheel on level ground that is not above the hub; no
threshold is involved. -/
theorem C150_sampling_partial {fresh : Nat → Output ℝ} {n : Nat} (hn : 1 ≤ n) {rx mx ry my ly : ℝ}
    (hv : ValidProfile rx mx ry my ly) {s s' : Shell ℝ} (hmake : Shell.make fresh n rx mx ry my ly = .ok s)
    {pose : Affine ℝ} (hp : IsRigid pose) (hup : pose.linear.c2 = ⟨0, 0, 1⟩) {f : ℝ} {og nn : V3 ℝ} {g : Flat ℝ}
    (hg : Flat.make f og nn = .ok g) (hx : nn.x = 0) (hy : nn.y = 0) (habove : og.z ≤ pose.trans.z)
    {pol : Policy} {b : Bool} (hs : s.setupFlat pol g pose "sampling" = .ok s' b) :
    ∃ a : Nat → ℝ, (∀ i < n, s'.contactAreaAt pol i = .ok (a i)) ∧
      |∑ i ∈ Finset.range n, a i - footprintArea rx mx ry my ly pose ⟨pose.trans.x, pose.trans.y, og.z⟩ pose.linear.c1
        (cross3 pose.linear.c1 ⟨0, 0, 1⟩)| ≤ 2 * ly / n * (4 * √(rx ^ 2 - (pose.trans.z - og.z) ^ 2)) := by
  obtain ⟨e1, -, -⟩ := Flat.make_horizontal hg hx hy
  have hax : pose.linear.c1.z = 0 := by
    have := IsRotation.orth12 hp
    rw [hup] at this
    simpa using this
  have hc : dot3 g.plane.normal pose.linear.c1 = 0 := by rw [e1]; simp [dot3, hax]
  have hone : ∀ r : Rib ℝ, IsRib r → 0 < r.width → ∀ flag o, r.envelopFlat g pose "sampling" = .ok (flag, o) →
      |o.area - r.width * Footprint.chord r.radius (pose.trans.z - og.z)| ≤ r.width * 0 := by
    intro r hr hw flag o ho
    have hz : (pose.apply ⟨0, r.y, 0⟩).z = pose.trans.z := by
      simp only [Affine.apply]; v3; rw [hax]; ring
    have := Footprint.rib_area_sampling hr hw hp hup hg hx hy (by rw [hz]; exact habove)
    rw [Rib.envelopFlat_sampling_eq ho, hz] at this
    dsimp only at this
    rw [this, sub_self, abs_zero, mul_zero]
  obtain ⟨a, h1, h2⟩ := Footprint.total hn hv hmake hp hg hc hs hone
  refine ⟨a, h1, ?_⟩
  rw [e1, show along pose.trans (-(pose.trans.z - og.z)) ⟨0, 0, 1⟩ = ⟨pose.trans.x, pose.trans.y, og.z⟩ by
    simp [along]] at h2
  exact h2.trans (le_of_eq (by ring))

/-- The hypotheses are met by tyres of 1 to 200 ribs whose hub stands one half above the road. -/
example (fresh : Nat → Output ℝ) (n : Nat) (hn : 1 ≤ n) (hn' : n ≤ 200) : ∃ (s s' : Shell ℝ) (b : Bool) (a : Nat → ℝ),
    Shell.make fresh n 1 2 2 2 1 = .ok s ∧
    s.setupFlat .raw Demo.road (Demo.upright (1 / 2)) "geometric" = .ok s' b ∧
    (∀ i < n, s'.contactAreaAt .raw i = .ok (a i)) ∧
    |∑ i ∈ Finset.range n, a i - footprintArea 1 2 2 2 1 (Demo.upright (1 / 2)) ⟨0, 0, 0⟩ ⟨0, 1, 0⟩ ⟨1, 0, 0⟩| ≤
      8 / n * √(3 / 4) + 4 * √Scalar.eps := by
  have hv : ValidProfile (1 : ℝ) 2 2 2 1 :=
    ⟨by norm_num, by norm_num, by norm_num, by norm_num, by norm_num, by norm_num⟩
  obtain ⟨s, h1, h2, -⟩ := C04_construct fresh n hn 1 2 2 2 1 hv
  obtain ⟨s', b, hs, -⟩ := Shell.flat_shows (.make h1) (by rw [h2]; exact hn') Demo.road (Demo.upright (1 / 2)) (.inl rfl)
  have hc : dot3 Demo.road.plane.normal (Demo.upright (1 / 2)).linear.c1 = 0 := by norm_num [dot3, Demo.road, Demo.upright]
  have hh : dot3 (minus (Demo.upright (1 / 2)).trans Demo.road.plane.origin) Demo.road.plane.normal = 1 / 2 := by
    norm_num [dot3, minus, Demo.road, Demo.upright]
  have hf : along (Demo.upright (1 / 2)).trans (-(1 / 2)) Demo.road.plane.normal = ⟨0, 0, 0⟩ := by
    norm_num [along, Demo.road, Demo.upright]
  have hx : cross3 (Demo.upright (1 / 2)).linear.c1 Demo.road.plane.normal = ⟨1, 0, 0⟩ := by
    norm_num [cross3, Demo.road, Demo.upright]
  have hl : (Demo.upright (1 / 2)).linear.c1 = ⟨0, 1, 0⟩ := by norm_num [Demo.upright]
  have := C150_geometric_partial hn hv h1 (Demo.upright_rigid (1 / 2)) Demo.road_make hc hs
  dsimp only at this
  rw [hh, hf, hx, hl] at this
  obtain ⟨a, e1, e2⟩ := this
  refine ⟨s, s', b, a, h1, hs, e1, e2.trans (le_of_eq ?_)⟩
  norm_num
  ring

/-- With the sampling method. -/
example (fresh : Nat → Output ℝ) (n : Nat) (hn : 1 ≤ n) (hn' : n ≤ 200) : ∃ (s s' : Shell ℝ) (b : Bool) (a : Nat → ℝ),
    Shell.make fresh n 1 2 2 2 1 = .ok s ∧
    s.setupFlat .raw Demo.road (Demo.upright (1 / 2)) "sampling" = .ok s' b ∧
    (∀ i < n, s'.contactAreaAt .raw i = .ok (a i)) ∧
    |∑ i ∈ Finset.range n, a i - footprintArea 1 2 2 2 1 (Demo.upright (1 / 2)) ⟨0, 0, 0⟩ ⟨0, 1, 0⟩ ⟨1, 0, 0⟩| ≤
      8 / n * √(3 / 4) := by
  have hv : ValidProfile (1 : ℝ) 2 2 2 1 :=
    ⟨by norm_num, by norm_num, by norm_num, by norm_num, by norm_num, by norm_num⟩
  obtain ⟨s, h1, h2, -⟩ := C04_construct fresh n hn 1 2 2 2 1 hv
  obtain ⟨s', b, hs, -⟩ := Shell.flat_shows (.make h1) (by rw [h2]; exact hn') Demo.road (Demo.upright (1 / 2)) (.inr rfl)
  have hl : (Demo.upright (1 / 2)).linear.c1 = ⟨0, 1, 0⟩ := by norm_num [Demo.upright]
  have ht : (Demo.upright (1 / 2)).trans = ⟨0, 0, 1 / 2⟩ := by norm_num [Demo.upright]
  obtain ⟨a, e1, e2⟩ := C150_sampling_partial hn hv h1 (Demo.upright_rigid (1 / 2)) (by norm_num [Demo.upright])
    Demo.road_make rfl rfl (by rw [ht]; norm_num) hs
  rw [ht, hl, show cross3 (⟨0, 1, 0⟩ : V3 ℝ) ⟨0, 0, 1⟩ = ⟨1, 0, 0⟩ by norm_num [cross3]] at e2
  refine ⟨s, s', b, a, h1, hs, e1, e2.trans (le_of_eq ?_)⟩
  norm_num
  ring

/-- A wheel at the origin, leant over so that its axis rises 4 in 5. -/
noncomputable def Demo.leant : Affine ℝ := ⟨⟨⟨1, 0, 0⟩, ⟨0, 3 / 5, 4 / 5⟩, ⟨0, -(4 / 5), 3 / 5⟩⟩, ⟨0, 0, 0⟩⟩

/-- **C150 fails for a wheel that leans.**  The ribs measure the ground across the tyre along the wheel axis, not along the
ground.  However many ribs a tyre of radius 1 and width 1/2 has, leaning with its hub on the road, the reported areas add
up to at most 1, with either method, but at least 3/2 of the road is inside the tyre. -/
theorem C150_camber_refuted (fresh : Nat → Output ℝ) (n : Nat) (hn : 1 ≤ n) (hn' : n ≤ 200) {method : String}
    (hm : method = "geometric" ∨ method = "sampling") :
    ∃ (s s' : Shell ℝ) (b : Bool) (a : Nat → ℝ), Shell.make fresh n 1 2 1 2 (1 / 4) = .ok s ∧ IsRigid Demo.leant ∧
    s.setupFlat .raw Demo.road Demo.leant method = .ok s' b ∧ (∀ i < n, s'.contactAreaAt .raw i = .ok (a i)) ∧
    ∑ i ∈ Finset.range n, a i ≤ 1 ∧
    ENNReal.ofReal (3 / 2) ≤ volume (footprint 1 2 1 2 (1 / 4) Demo.leant ⟨0, 0, 0⟩ ⟨0, 1, 0⟩ ⟨1, 0, 0⟩) := by
  have hv : ValidProfile (1 : ℝ) 2 1 2 (1 / 4) :=
    ⟨by norm_num, by norm_num, by norm_num, by norm_num, by norm_num, by norm_num⟩
  have hp : IsRigid Demo.leant := by constructor <;> norm_num [Demo.leant]
  have hn0 : (0 : ℝ) < n := by exact_mod_cast hn
  obtain ⟨s, h1, h2, -, -, hribs, -⟩ := C04_construct fresh n hn 1 2 1 2 (1 / 4) hv
  have hreach : s.Reachable .raw := .make h1
  obtain ⟨s', b, hs, -⟩ := Shell.flat_shows hreach (by rw [h2]; exact hn') Demo.road Demo.leant hm
  obtain ⟨flags, recs, hres, -⟩ := C38_flat_flag_partial .raw s s' Demo.road Demo.leant method b hs
  have hrel := Shell.setupFlat_rel (.inl ⟨_, hs⟩)
  have hsize' : s'.size = n := by rw [Shell.size, hrel.ribs]; exact h2
  have hrep : Reports .raw s' recs := by
    rw [Shell.reports_iff, hsize', ← h2]
    intro i hi
    obtain ⟨_, -, -, e⟩ := hres i hi
    exact e
  refine ⟨s, s', b, fun i => (recs i).area, h1, hp, hs, fun i hi => hrep.area i (by rw [hsize']; exact hi), ?_, ?_⟩
  · have hterm : ∀ i ∈ Finset.range n, (recs i).area ≤ 1 / n := by
      intro i hi
      rw [Finset.mem_range] at hi
      obtain ⟨r, hr1, hr2, -⟩ := hres i (by rw [h2]; exact hi)
      rw [hrel.ribs] at hr1
      have hr1' : s.ribs[i]? = some r := hr1
      have hrib := hreach.isRib r (List.mem_of_getElem? hr1')
      obtain ⟨ρ, hρ0, -, hw, hrad, hon⟩ := hribs i hi
      have hw' : r.width = 2 * (1 / 4) / n := by
        rw [Shell.ribWidth, Shell.ribAt, hr1'] at hw; exact Res.ok.inj hw
      have hrad' : r.radius = ρ := by
        rw [Shell.ribRadius, Shell.ribAt, hr1'] at hrad; exact Res.ok.inj hrad
      have hy : |-(1 / 4 : ℝ) + (2 * i + 1) * (1 / 4) / n| ≤ 1 / 4 := (Shell.real_centre_abs (by norm_num) hi).le
      have hle : r.radius ≤ 1 := by
        rw [hrad', (radAt_profile hv hy ρ).1 hon]; exact (radAt_mem hv hy).2
      have hfit := (C148_rib_partial hrib hp (.inl ⟨_, _, _, _, _, Demo.road_make, hr2⟩)).1.area
      refine hfit.trans ?_
      rw [hw']
      have : 2 * r.radius * (2 * (1 / 4) / n) = r.radius * (1 / n) := by ring
      rw [this]
      exact mul_le_of_le_one_left (by positivity) hle
    refine (Finset.sum_le_sum hterm).trans (le_of_eq ?_)
    rw [Finset.sum_const, Finset.card_range, nsmul_eq_mul]
    field_simp
  · have hsub : Set.Ioo (-(5 / 12) : ℝ) (5 / 12) ×ˢ Set.Ioo (-(9 / 10) : ℝ) (9 / 10) ⊆
        footprint 1 2 1 2 (1 / 4) Demo.leant ⟨0, 0, 0⟩ ⟨0, 1, 0⟩ ⟨1, 0, 0⟩ := by
      rintro ⟨x, t⟩ ⟨⟨x1, x2⟩, t1, t2⟩
      dsimp only at x1 x2 t1 t2
      refine ⟨(3 / 5 * x, t, -(4 / 5) * x), ⟨?_, √(1 - (3 / 5 * x) ^ 2), ⟨Real.sqrt_nonneg _, ?_⟩, ?_⟩, ?_⟩
      · rw [abs_lt]; constructor <;> linarith
      · rw [div_one, div_one, Real.rpow_two, Real.rpow_two, Real.sq_sqrt (by nlinarith), sq_abs]; ring
      · rw [Real.sq_sqrt (by nlinarith)]
        dsimp only
        nlinarith
      · simp only [Affine.apply, along, Demo.leant]
        v3
        congr 1 <;> ring
    refine le_trans (le_of_eq ?_) (measure_mono hsub)
    rw [Measure.volume_eq_prod, Measure.prod_prod, Real.volume_Ioo, Real.volume_Ioo, ← ENNReal.ofReal_mul (by norm_num)]
    norm_num

end Enve
