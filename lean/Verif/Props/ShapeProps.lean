import Verif.Model.Shape
import Verif.Spec.Profile
import Mathlib.Analysis.SpecialFunctions.Pow.Deriv

/-! # C01, C02, C03: the tyre profile -/

namespace Enve
open Scalar

/-- The profile of `s` is sensible. -/
def Shape.Valid (s : Shape ℝ) : Prop := Spec.ValidProfile s.rx s.mx s.ry s.my s.ly

namespace Shape

theorem surfaceRadius_ok {s : Shape ℝ} {y : ℝ} (h : |y| ≤ s.ly) :
    s.surfaceRadius y = .ok (s.rx * (1 - (|y| / s.ry) ^ s.my) ^ (1 / s.mx)) := by
  simp [surfaceRadius, checkWidthBound, not_lt.mpr h]

theorem surfaceDerivative_ok {s : Shape ℝ} {y tol : ℝ} (h : |y| ≤ s.ly) :
    s.surfaceDerivative y tol = .ok (if tol < |y| then
      let sign : ℝ := (if 0 < y then 1 else 0) - (if y < 0 then 1 else 0)
      (-sign) * (1 - (sign * y / s.ry) ^ s.my) ^ ((1 - s.mx) / s.mx) * (sign * y / s.ry) ^ s.my
        * s.rx * s.my / (s.mx * (sign * y)) else 0) := by
  simp [surfaceDerivative, checkWidthBound, not_lt.mpr h]
  split <;> rfl

theorem ratio_mem {s : Shape ℝ} (hv : s.Valid) {y : ℝ} (h : |y| ≤ s.ly) :
    0 ≤ |y| / s.ry ∧ |y| / s.ry ≤ 1 :=
  ⟨div_nonneg (abs_nonneg _) hv.ry_pos.le, (div_le_one hv.ry_pos).mpr (h.trans hv.ly_le)⟩

theorem pow_mem {s : Shape ℝ} (hv : s.Valid) {y : ℝ} (h : |y| ≤ s.ly) :
    0 ≤ (|y| / s.ry) ^ s.my ∧ (|y| / s.ry) ^ s.my ≤ 1 :=
  ⟨Real.rpow_nonneg (ratio_mem hv h).1 _,
   Real.rpow_le_one (ratio_mem hv h).1 (ratio_mem hv h).2 hv.my_pos.le⟩

end Shape

/-- **C01.** On a valid profile `surfaceRadius` is defined on `[-Ly, Ly]` and returns the point of
the super-ellipse, hence a value in `[0, Rx]`; it is `Rx` in the middle, even in `y`, and does not
increase with `|y|`. -/
theorem C01_profile_radius (s : Shape ℝ) (hv : s.Valid) :
    (∀ y, |y| ≤ s.ly → ∃ r, s.surfaceRadius y = .ok r ∧ 0 ≤ r ∧ r ≤ s.rx ∧
      ∀ r', r' = r ↔ Spec.OnProfile s.rx s.mx s.ry s.my y r') ∧
    s.surfaceRadius 0 = .ok s.rx ∧
    (∀ y, s.surfaceRadius (-y) = s.surfaceRadius y) ∧
    (∀ y y' r r', s.surfaceRadius y = .ok r → s.surfaceRadius y' = .ok r' → |y| ≤ |y'| →
      r' ≤ r) := by
  have hmx : s.mx ≠ 0 := hv.mx_pos.ne'
  have inv : (1 / s.mx) * s.mx = 1 := by field_simp
  refine ⟨fun y hy => ⟨_, Shape.surfaceRadius_ok hy, ?_, ?_, ?_⟩, ?_, ?_, ?_⟩
  · exact mul_nonneg hv.rx_pos.le (Real.rpow_nonneg (by linarith [(Shape.pow_mem hv hy).2]) _)
  · have : (1 - (|y| / s.ry) ^ s.my) ^ (1 / s.mx) ≤ 1 :=
      Real.rpow_le_one (by linarith [(Shape.pow_mem hv hy).2]) (by linarith [(Shape.pow_mem hv hy).1])
        (by have := hv.mx_pos; positivity)
    nlinarith [hv.rx_pos]
  · have hb : 0 ≤ 1 - (|y| / s.ry) ^ s.my := by linarith [(Shape.pow_mem hv hy).2]
    have hrx := hv.rx_pos
    intro r'
    constructor
    · rintro rfl
      refine ⟨mul_nonneg hrx.le (Real.rpow_nonneg hb _), ?_⟩
      rw [mul_div_cancel_left₀ _ hrx.ne', ← Real.rpow_mul hb, inv, Real.rpow_one]; ring
    · rintro ⟨h0, h1⟩
      have : (r' / s.rx) ^ s.mx = 1 - (|y| / s.ry) ^ s.my := by linarith
      rw [← this, ← Real.rpow_mul (by positivity), mul_one_div_cancel hmx, Real.rpow_one]
      field_simp
  · have := Shape.surfaceRadius_ok (s := s) (y := 0) (by simpa using hv.ly_pos.le)
    rw [this]
    simp [Real.zero_rpow hv.my_pos.ne']
  · intro y; simp [Shape.surfaceRadius, Shape.checkWidthBound]
  · intro y y' r r' h h' hle
    have dom : ∀ {z q}, s.surfaceRadius z = .ok q → |z| ≤ s.ly := by
      intro z q hz
      by_contra hc
      rw [not_le] at hc
      simp [Shape.surfaceRadius, Shape.checkWidthBound, hc] at hz
    have hy' := dom h'
    rw [Shape.surfaceRadius_ok (dom h)] at h
    rw [Shape.surfaceRadius_ok hy'] at h'
    cases h; cases h'
    apply mul_le_mul_of_nonneg_left _ hv.rx_pos.le
    have hmx := hv.mx_pos
    apply Real.rpow_le_rpow (by linarith [(Shape.pow_mem hv hy').2]) _ (by positivity)
    have : (|y| / s.ry) ^ s.my ≤ (|y'| / s.ry) ^ s.my :=
      Real.rpow_le_rpow (by have := hv.ry_pos; positivity)
        (div_le_div_of_nonneg_right hle hv.ry_pos.le) hv.my_pos.le
    linarith

/-- A realistic profile satisfies the hypotheses of `C01_profile_radius`. -/
example : (⟨1/2, 4, 1/4, 2, 1/8⟩ : Shape ℝ).Valid :=
  ⟨by norm_num, by norm_num, by norm_num, by norm_num, by norm_num, by norm_num⟩

/-- Outside the centre band the returned derivative is the derivative of the radius. -/
theorem Shape.hasDerivAt_pos {s : Shape ℝ} (hv : s.Valid) {y : ℝ} (hy : 0 < y) (hy' : y < s.ly) :
    HasDerivAt (fun z => s.rx * (1 - (|z| / s.ry) ^ s.my) ^ (1 / s.mx))
      (-(1 - (y / s.ry) ^ s.my) ^ ((1 - s.mx) / s.mx) * (y / s.ry) ^ s.my * s.rx * s.my
        / (s.mx * y)) y := by
  have hry := hv.ry_pos
  have hmx := hv.mx_pos
  have hq : 0 < y / s.ry := by positivity
  have hq1 : y / s.ry < 1 := by rw [div_lt_one hry]; linarith [hv.ly_le]
  have hp1 : (y / s.ry) ^ s.my < 1 := Real.rpow_lt_one hq.le hq1 hv.my_pos
  have hbase : 0 < 1 - (y / s.ry) ^ s.my := by linarith
  have e : (fun z => s.rx * (1 - (|z| / s.ry) ^ s.my) ^ (1 / s.mx)) =ᶠ[nhds y]
      (fun z => s.rx * (1 - (z / s.ry) ^ s.my) ^ (1 / s.mx)) := by
    filter_upwards [lt_mem_nhds hy] with z hz
    rw [abs_of_pos hz]
  refine HasDerivAt.congr_of_eventuallyEq ?_ e
  have d1 : HasDerivAt (fun z : ℝ => z / s.ry) (1 / s.ry) y := (hasDerivAt_id y).div_const _
  have d2 := d1.rpow_const (p := s.my) (Or.inl hq.ne')
  have d3 := (d2.const_sub 1).rpow_const (p := 1 / s.mx) (Or.inl hbase.ne')
  have d4 := d3.const_mul s.rx
  refine d4.congr_deriv ?_
  have h1 : (1 - s.mx) / s.mx = 1 / s.mx - 1 := by field_simp
  have h2 : (y / s.ry) ^ (s.my - 1) = (y / s.ry) ^ s.my / (y / s.ry) := by
    rw [Real.rpow_sub_one hq.ne']
  rw [h1, h2]
  field_simp

/-- **C02 (partial: outside the centre band `|y| ≤ tol`).**  The value returned by
`surfaceDerivative` is the derivative of the radius returned by `surfaceRadius`, it is odd, and
`surfaceAngle` is its arctangent.  Missing: inside the centre band the code returns `0`, which is
not the slope (`C02_centre_band_refuted`). -/
theorem C02_derivative_is_slope_partial (s : Shape ℝ) (hv : s.Valid) (y tol : ℝ) (htol : 0 ≤ tol)
    (hy : tol < |y|) (hly : |y| < s.ly) :
    ∃ d, s.surfaceDerivative y tol = .ok d ∧
      (∀ R : ℝ → ℝ, (∀ z, |z| ≤ s.ly → s.surfaceRadius z = .ok (R z)) → HasDerivAt R d y) ∧
      s.surfaceDerivative (-y) tol = .ok (-d) ∧ s.surfaceAngle y tol = .ok (Real.arctan d) := by
  have hR : ∀ R : ℝ → ℝ, (∀ z, |z| ≤ s.ly → s.surfaceRadius z = .ok (R z)) →
      R =ᶠ[nhds y] (fun z => s.rx * (1 - (|z| / s.ry) ^ s.my) ^ (1 / s.mx)) := by
    intro R h
    have : ∀ᶠ z in nhds y, |z| < s.ly := (continuous_abs.tendsto y).eventually_lt_const hly
    filter_upwards [this] with z hz
    have h1 := h z hz.le
    rw [Shape.surfaceRadius_ok hz.le] at h1
    exact (Res.ok.inj h1).symm
  have ang : ∀ d, s.surfaceDerivative y tol = .ok d → s.surfaceAngle y tol = .ok (Real.arctan d) := by
    intro d hd; simp [Shape.surfaceAngle, hd]
  have hneg := Shape.surfaceDerivative_ok (s := s) (y := -y) (tol := tol) (by simpa using hly.le)
  have hpos := Shape.surfaceDerivative_ok (s := s) (y := y) (tol := tol) hly.le
  rcases lt_trichotomy y 0 with h | h | h
  · have h' := h.le.not_gt
    rw [abs_of_neg h] at hly
    have key := Shape.hasDerivAt_pos hv (y := -y) (by linarith) hly
    refine ⟨_, hpos, fun R hRR => ?_, ?_, ang _ hpos⟩
    · refine HasDerivAt.congr_of_eventuallyEq ?_ (hR R hRR)
      have k2 := key.comp y (hasDerivAt_neg y)
      have e : ((fun z => s.rx * (1 - (|z| / s.ry) ^ s.my) ^ (1 / s.mx)) ∘ fun x : ℝ => -x) =
          fun z => s.rx * (1 - (|z| / s.ry) ^ s.my) ^ (1 / s.mx) := by
        funext z; simp
      rw [e] at k2
      refine k2.congr_deriv ?_
      simp [hy, h, h', div_neg, neg_div]
    · rw [hneg]
      simp [hy, h, h', neg_div]
  · subst h; simp at hy; linarith
  · have h' := h.le.not_gt
    rw [abs_of_pos h] at hly
    have key := Shape.hasDerivAt_pos hv h hly
    refine ⟨_, hpos, fun R hRR => ?_, ?_, ang _ hpos⟩
    · refine HasDerivAt.congr_of_eventuallyEq ?_ (hR R hRR)
      refine key.congr_deriv ?_
      simp [hy, h, h']
    · rw [hneg]
      simp [hy, h, h', neg_div]

example : ∃ (s : Shape ℝ) (y tol : ℝ), s.Valid ∧ 0 < tol ∧ tol < |y| ∧ |y| < s.ly :=
  ⟨⟨1/2, 4, 1/4, 2, 1/8⟩, -1/16, 1/1000,
   ⟨by norm_num, by norm_num, by norm_num, by norm_num, by norm_num, by norm_num⟩,
   by norm_num, by norm_num [abs_of_neg], by norm_num [abs_of_neg]⟩

/-- **C02 refuted inside the centre band.**  For the profile `r = 1 - |y|` and any tolerance in
`(0,2)` there is a position where the slope of the radius is `-1` and the code returns `0`. -/
theorem C02_centre_band_refuted (tol : ℝ) (h0 : 0 < tol) (h1 : tol < 2) :
    ∃ (s : Shape ℝ) (y : ℝ) (R : ℝ → ℝ), s.Valid ∧ 0 < y ∧ y < s.ly ∧
      (∀ z, |z| ≤ s.ly → s.surfaceRadius z = .ok (R z)) ∧ HasDerivAt R (-1) y ∧
      s.surfaceDerivative y tol = .ok 0 := by
  refine ⟨⟨1, 1, 1, 1, 1⟩, tol / 2, fun z => 1 - |z|,
    ⟨by norm_num, by norm_num, by norm_num, by norm_num, by norm_num, by norm_num⟩,
    by linarith, by simp; linarith, ?_, ?_, ?_⟩
  · intro z hz
    rw [Shape.surfaceRadius_ok hz]
    simp
  · have e : (fun z : ℝ => 1 - |z|) =ᶠ[nhds (tol / 2)] fun z => 1 - z := by
      filter_upwards [lt_mem_nhds (show (0 : ℝ) < tol / 2 by linarith)] with z hz
      rw [abs_of_pos hz]
    exact ((hasDerivAt_id (tol / 2)).const_sub 1).congr_of_eventuallyEq e
  · rw [Shape.surfaceDerivative_ok (by simp only []; rw [abs_of_pos] <;> linarith)]
    rw [if_neg]
    rw [abs_of_pos] <;> linarith

/-- **C03.** For every scalar type (IEEE doubles included): each profile query throws exactly when
the comparison `Ly < |y|` is true (so a NaN position is let through), and returns normally
otherwise. -/
theorem C03_width_guard {α : Type} [Scalar α] (s : Shape α) (y tol : α) :
    ((s.surfaceRadius y).isThrow = (s.ly <. Scalar.abs y)) ∧
    ((s.surfaceDerivative y tol).isThrow = (s.ly <. Scalar.abs y)) ∧
    ((s.surfaceAngle y tol).isThrow = (s.ly <. Scalar.abs y)) ∧
    ((s.surfaceRadius y).isOk = !(s.ly <. Scalar.abs y)) ∧
    ((s.surfaceDerivative y tol).isOk = !(s.ly <. Scalar.abs y)) ∧
    ((s.surfaceAngle y tol).isOk = !(s.ly <. Scalar.abs y)) := by
  cases h : (s.ly <. Scalar.abs y) <;>
    by_cases ht : (tol <. Scalar.abs y) = true <;>
    simp [Shape.surfaceRadius, Shape.surfaceDerivative, Shape.surfaceAngle, Shape.checkWidthBound, h,
      ht, Res.isThrow, Res.isOk]

/-- In exact arithmetic the guard is `|y| > Ly`. -/
theorem C03_width_guard_real (s : Shape ℝ) (y tol : ℝ) :
    ((s.surfaceRadius y).isThrow = true ↔ s.ly < |y|) ∧
    ((s.surfaceDerivative y tol).isThrow = true ↔ s.ly < |y|) ∧
    ((s.surfaceAngle y tol).isThrow = true ↔ s.ly < |y|) := by
  obtain ⟨h1, h2, h3, -⟩ := C03_width_guard s y tol
  simp [h1, h2, h3]

end Enve
