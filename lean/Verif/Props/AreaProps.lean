import Verif.Spec.Segment
import Verif.Model.Rib
import Mathlib.Analysis.SpecialFunctions.Trigonometric.InverseDeriv
import Mathlib.Analysis.SpecialFunctions.Sqrt
import Mathlib.Analysis.Calculus.Deriv.MeanValue
import Mathlib.MeasureTheory.Integral.IntervalIntegral.FundThmCalculus
import Mathlib.MeasureTheory.Measure.Lebesgue.Integral
import Mathlib.Tactic.LinearCombination

/-! # Contact area and volume of a given depth: C31 -/

namespace Enve
open Scalar Spec

/-- An antiderivative of `2 √(R² - t²)`. -/
noncomputable def Spec.primSeg (R t : ℝ) : ℝ := t * Real.sqrt (R ^ 2 - t ^ 2) - R ^ 2 * Real.arccos (t / R)

theorem Spec.primSeg_continuous (R : ℝ) : Continuous (primSeg R) := by
  unfold primSeg
  have := Real.continuous_arccos
  fun_prop

theorem Spec.primSeg_deriv {R t : ℝ} (h1 : -R < t) (h2 : t < R) :
    HasDerivAt (primSeg R) (2 * Real.sqrt (R ^ 2 - t ^ 2)) t := by
  have hR : 0 < R := by linarith
  have hpos : 0 < R ^ 2 - t ^ 2 := by nlinarith
  have hs : 0 < Real.sqrt (R ^ 2 - t ^ 2) := Real.sqrt_pos.2 hpos
  have e1 : HasDerivAt (fun t => R ^ 2 - t ^ 2) (-(2 * t)) t := by
    simpa using (hasDerivAt_pow 2 t).const_sub (R ^ 2)
  have e2 := e1.sqrt hpos.ne'
  have e3 := (hasDerivAt_id t).mul e2
  have e4 : HasDerivAt (fun t => Real.arccos (t / R)) (-(1 / Real.sqrt (1 - (t / R) ^ 2)) * (1 / R)) t := by
    refine HasDerivAt.comp (h₂ := Real.arccos) t (Real.hasDerivAt_arccos ?_ ?_) ((hasDerivAt_id t).div_const R)
    · intro h; rw [div_eq_iff hR.ne'] at h; linarith
    · intro h; rw [div_eq_iff hR.ne'] at h; linarith
  have e5 := e3.sub (e4.const_mul (R ^ 2))
  refine HasDerivAt.congr_deriv e5 ?_
  have hsq : Real.sqrt (1 - (t / R) ^ 2) = Real.sqrt (R ^ 2 - t ^ 2) / R := by
    rw [eq_div_iff hR.ne', ← Real.sqrt_sq hR.le, ← Real.sqrt_mul (by
      rw [Real.sqrt_sq hR.le]
      have : (t / R) ^ 2 ≤ 1 := by rw [div_pow, div_le_one (by positivity)]; linarith
      linarith)]
    rw [Real.sqrt_sq hR.le]
    congr 1
    field_simp
  rw [hsq]
  have hss := Real.sq_sqrt hpos.le
  generalize Real.sqrt (R ^ 2 - t ^ 2) = s at *
  simp only [id]
  field_simp
  linear_combination (-1) * hss

theorem Spec.primSeg_right {R : ℝ} (hR : 0 < R) : primSeg R R = 0 := by
  unfold primSeg; rw [div_self hR.ne']; simp

theorem Spec.primSeg_left {R : ℝ} (hR : 0 < R) : primSeg R (-R) = -(Real.pi * R ^ 2) := by
  unfold primSeg
  rw [neg_div, div_self hR.ne', Real.arccos_neg_one]; simp; ring

theorem Spec.primSeg_strictMono {R : ℝ} : StrictMonoOn (primSeg R) (Set.Icc (-R) R) := by
  refine strictMonoOn_of_deriv_pos (convex_Icc _ _) (primSeg_continuous R).continuousOn fun t ht => ?_
  rw [interior_Icc] at ht
  rw [(primSeg_deriv ht.1 ht.2).deriv]
  have : 0 < R ^ 2 - t ^ 2 := by nlinarith [ht.1, ht.2]
  have := Real.sqrt_pos.2 this
  linarith

theorem Spec.integral_seg {R a : ℝ} (h1 : -R ≤ a) (h2 : a ≤ R) :
    ∫ t in a..R, 2 * Real.sqrt (R ^ 2 - t ^ 2) = primSeg R R - primSeg R a := by
  refine intervalIntegral.integral_eq_sub_of_hasDerivAt_of_le h2 (primSeg_continuous R).continuousOn
    (fun t ht => primSeg_deriv (h1.trans_lt ht.1) ht.2) ?_
  apply Continuous.intervalIntegrable
  fun_prop

/-- The area of the circular segment as an integral of chord lengths. -/
theorem Spec.segmentArea_eq {R d : ℝ} (hR : 0 < R) (h1 : 0 ≤ d) (h2 : d ≤ 2 * R) :
    segmentArea R d = - primSeg R (R - d) := by
  have hset : circularSegment R d = regionBetween (fun t => - Real.sqrt (R ^ 2 - t ^ 2))
      (fun t => Real.sqrt (R ^ 2 - t ^ 2)) (Set.Ioc (R - d) R) := by
    ext ⟨x, y⟩
    simp only [circularSegment, regionBetween, Set.mem_ofPred_eq, Set.mem_Ioc, Set.mem_Ioo]
    constructor
    · rintro ⟨h, hx⟩
      have hy : |y| < Real.sqrt (R ^ 2 - x ^ 2) := Real.lt_sqrt_of_sq_lt (by rw [sq_abs]; linarith)
      refine ⟨⟨hx, ?_⟩, (abs_lt.1 hy).1, (abs_lt.1 hy).2⟩
      nlinarith [sq_nonneg y]
    · rintro ⟨⟨hx, -⟩, hy⟩
      refine ⟨?_, hx⟩
      have := Real.lt_sqrt (abs_nonneg y) |>.1 (abs_lt.2 hy)
      rw [sq_abs] at this
      linarith
  unfold segmentArea
  rw [hset, MeasureTheory.Measure.volume_eq_prod, volume_regionBetween_eq_integral (μ := MeasureTheory.volume)
    (Continuous.integrableOn_Ioc (by fun_prop)) (Continuous.integrableOn_Ioc (by fun_prop))
    measurableSet_Ioc (fun x _ => by
      have := Real.sqrt_nonneg (R ^ 2 - x ^ 2); linarith)]
  have e : ∫ t in Set.Ioc (R - d) R, ((fun t => Real.sqrt (R ^ 2 - t ^ 2)) -
      fun t => - Real.sqrt (R ^ 2 - t ^ 2)) t = - primSeg R (R - d) := by
    rw [← intervalIntegral.integral_of_le (by linarith)]
    have := integral_seg (R := R) (a := R - d) (by linarith) (by linarith)
    rw [primSeg_right hR, zero_sub] at this
    rw [← this]
    congr 1
    funext t
    simp only [Pi.sub_apply]
    ring
  rw [e, ENNReal.toReal_ofReal]
  have := (primSeg_strictMono (R := R)).monotoneOn (a := R - d) ⟨by linarith, by linarith⟩
    (b := R) ⟨by linarith, le_refl R⟩ (by linarith)
  rw [primSeg_right hR] at this
  linarith

theorem Rib.depthVolume_eq (R w d : ℝ) :
    Rib.depthVolume R w d = - primSeg R (R - d) * w := by
  simp only [Rib.depthVolume, primSeg, real_sub, real_mul, real_div, real_sqrt, real_two, real_acos]
  rw [show d * (2 * R - d) = R ^ 2 - (R - d) ^ 2 by ring]
  ring

/-- **C31.**  The area and the volume the code computes from a depth are width times the length of the
chord at that depth and width times the area of the circular segment of that height. -/
theorem C31_area_volume {R d : ℝ} (w : ℝ) (hR : 0 < R) (h1 : 0 ≤ d) (h2 : d ≤ 2 * R) :
    (∃ c, IsChordLength R d c ∧ Rib.depthArea R w d = w * c) ∧
    Rib.depthVolume R w d = w * segmentArea R d := by
  constructor
  · have hq : 0 ≤ d * (2 * R - d) := mul_nonneg h1 (by linarith)
    refine ⟨2 * Real.sqrt (d * (2 * R - d)), ⟨by positivity, Real.sqrt (d * (2 * R - d)),
      - Real.sqrt (d * (2 * R - d)), ?_, ?_, ?_, ?_⟩, ?_⟩
    · rw [Real.sq_sqrt hq]; ring
    · rw [neg_sq, Real.sq_sqrt hq]; ring
    · rw [sub_neg_eq_add, ← two_mul, abs_of_nonneg (by positivity)]
    · intro z hz
      have : z ^ 2 = Real.sqrt (d * (2 * R - d)) ^ 2 := by
        rw [Real.sq_sqrt hq]; linear_combination hz
      exact sq_eq_sq_iff_eq_or_eq_neg.1 this
    · simp only [Rib.depthArea, real_mul, real_sub, real_two, real_sqrt]; ring
  · rw [Rib.depthVolume_eq, segmentArea_eq hR h1 h2]; ring

/-- **C31**: area and volume are not negative, volume increases strictly with the depth and is at most
the volume of the whole disk. -/
theorem C31_monotone {R w : ℝ} (hR : 0 < R) (hw : 0 < w) :
    StrictMonoOn (Rib.depthVolume R w) (Set.Icc 0 (2 * R)) ∧
    (∀ d, 0 ≤ d → d ≤ 2 * R → 0 ≤ Rib.depthArea R w d ∧ 0 ≤ Rib.depthVolume R w d ∧
      Rib.depthVolume R w d ≤ w * (Real.pi * R ^ 2)) ∧
    Rib.depthVolume R w 0 = 0 ∧ Rib.depthVolume R w (2 * R) = w * (Real.pi * R ^ 2) := by
  have hmono : StrictMonoOn (Rib.depthVolume R w) (Set.Icc 0 (2 * R)) := by
    intro a ha b hb hab
    rw [Rib.depthVolume_eq, Rib.depthVolume_eq]
    have := primSeg_strictMono (R := R) (a := R - b) ⟨by linarith [hb.2], by linarith [hb.1]⟩
      (b := R - a) ⟨by linarith [ha.2], by linarith [ha.1]⟩ (by linarith)
    nlinarith
  have h0 : Rib.depthVolume R w 0 = 0 := by
    rw [Rib.depthVolume_eq, sub_zero, primSeg_right hR]; simp
  have h1 : Rib.depthVolume R w (2 * R) = w * (Real.pi * R ^ 2) := by
    rw [Rib.depthVolume_eq, show R - 2 * R = -R by ring, primSeg_left hR]; ring
  refine ⟨hmono, fun d hd hd' => ⟨?_, ?_, ?_⟩, h0, h1⟩
  · simp only [Rib.depthArea, real_mul, real_sub, real_two, real_sqrt]; positivity
  · rw [← h0]; exact hmono.monotoneOn ⟨le_refl _, by linarith⟩ ⟨hd, hd'⟩ hd
  · rw [← h1]; exact hmono.monotoneOn ⟨hd, hd'⟩ ⟨by linarith, le_refl _⟩ hd'

end Enve
