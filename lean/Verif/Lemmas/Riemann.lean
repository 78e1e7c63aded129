import Verif.Spec.Segment
import Mathlib.MeasureTheory.Integral.IntervalIntegral.Basic
import Mathlib.MeasureTheory.Measure.Lebesgue.EqHaar
import Mathlib.LinearAlgebra.Matrix.ToLin
import Mathlib.LinearAlgebra.Determinant
import Mathlib.Tactic.LinearCombination
import Mathlib.Tactic.Positivity
import Mathlib.Tactic.FieldSimp

/-! # Midpoint sums of functions of bounded variation, and areas of circular segments -/

namespace Enve

open MeasureTheory Spec

theorem Riemann.integrable {g V : ℝ → ℝ} {a b : ℝ} (hab : a ≤ b)
    (hV : ∀ x y, a ≤ x → x ≤ y → y ≤ b → |g x - g y| ≤ V y - V x) : IntervalIntegrable g volume a b := by
  have m1 : MonotoneOn V (Set.uIcc a b) := by
    rw [Set.uIcc_of_le hab]
    intro x hx y hy hxy
    have := hV x y hx.1 hxy hy.2
    linarith [abs_nonneg (g x - g y)]
  have m2 : MonotoneOn (fun x => V x + g x) (Set.uIcc a b) := by
    rw [Set.uIcc_of_le hab]
    intro x hx y hy hxy
    have := (abs_le.1 (hV x y hx.1 hxy hy.2)).2
    dsimp only
    linarith
  have := m2.intervalIntegrable (μ := volume).sub (m1.intervalIntegrable (μ := volume))
  simpa using this

/-- A sum with one point of each of `n` equal cells differs from the integral by at most the width of a cell times the variation. -/
theorem Riemann.tagged {g V : ℝ → ℝ} {l : ℝ} (hl : 0 ≤ l) {n : ℕ} (hn : 1 ≤ n)
    (hV : ∀ x y, -l ≤ x → x ≤ y → y ≤ l → |g x - g y| ≤ V y - V x) {t : ℕ → ℝ}
    (ht : ∀ i < n, |t i - (-l + (2 * i + 1) * l / n)| ≤ l / n) :
    |(∑ i ∈ Finset.range n, 2 * l / n * g (t i)) - ∫ y in -l..l, g y| ≤ 2 * l / n * (V l - V (-l)) := by
  have hn' : (0 : ℝ) < n := by exact_mod_cast hn
  set a : ℕ → ℝ := fun i => -l + i * (2 * l / n) with ha
  have ha0 : a 0 = -l := by simp [ha]
  have han : a n = l := by simp only [ha]; field_simp; ring
  have hw : 0 ≤ 2 * l / n := by positivity
  have hstep : ∀ i, a (i + 1) = a i + 2 * l / n := by intro i; simp only [ha]; push_cast; ring
  have hmono : ∀ i j, i ≤ j → a i ≤ a j := by
    intro i j hij
    simp only [ha]
    have : (i : ℝ) ≤ j := by exact_mod_cast hij
    nlinarith
  have hlo : ∀ i, -l ≤ a i := fun i => by rw [← ha0]; exact hmono 0 i (Nat.zero_le i)
  have hhi : ∀ i, i ≤ n → a i ≤ l := fun i hi => by have := hmono i n hi; rwa [han] at this
  have hint : ∀ k < n, IntervalIntegrable g volume (a k) (a (k + 1)) := fun k hk =>
    Riemann.integrable (hmono k (k + 1) (Nat.le_succ k)) fun x y hx hxy hy =>
      hV x y ((hlo k).trans hx) hxy (hy.trans (hhi (k + 1) hk))
  have hI := intervalIntegral.sum_integral_adjacent_intervals hint
  rw [ha0, han] at hI
  have htel : V l - V (-l) = ∑ i ∈ Finset.range n, (V (a (i + 1)) - V (a i)) := by
    rw [Finset.sum_range_sub (fun i => V (a i)), ha0, han]
  rw [← hI, ← Finset.sum_sub_distrib, htel, Finset.mul_sum]
  refine (Finset.abs_sum_le_sum_abs _ _).trans (Finset.sum_le_sum fun i hi => ?_)
  have hi : i < n := Finset.mem_range.1 hi
  have hti := abs_le.1 (ht i hi)
  set c := t i with hc
  have hc1 : a i ≤ c := by
    have : -l + (2 * i + 1) * l / n = a i + l / n := by simp only [ha]; ring
    linarith
  have hc2 : c ≤ a (i + 1) := by
    have : a (i + 1) = -l + (2 * i + 1) * l / n + l / n := by simp only [ha]; push_cast; ring
    linarith
  have hconst : 2 * l / n * g c = ∫ _ in a i..a (i + 1), g c := by
    rw [intervalIntegral.integral_const, hstep]
    simp
  rw [hconst, ← intervalIntegral.integral_sub intervalIntegrable_const (hint i hi)]
  have hb := intervalIntegral.norm_integral_le_of_norm_le_const (a := a i) (b := a (i + 1))
    (f := fun y => g c - g y) (C := V (a (i + 1)) - V (a i)) (fun y hy => ?_)
  · rw [hstep i, add_sub_cancel_left, abs_of_nonneg hw, ← hstep i, Real.norm_eq_abs] at hb
    linarith
  · rw [Set.uIoc_of_le (hmono i (i + 1) (Nat.le_succ i))] at hy
    have h1 := hlo i
    have h2 := hhi (i + 1) hi
    have v1 : ∀ x y, a i ≤ x → x ≤ y → y ≤ a (i + 1) → |g x - g y| ≤ V (a (i + 1)) - V (a i) := by
      intro x y hx hxy hy
      have e1 := hV x y (h1.trans hx) hxy (hy.trans h2)
      have e2 := hV (a i) x h1 hx ((hxy.trans hy).trans h2)
      have e3 := hV y (a (i + 1)) (h1.trans (hx.trans hxy)) hy h2
      linarith [abs_nonneg (g (a i) - g x), abs_nonneg (g y - g (a (i + 1)))]
    rw [Real.norm_eq_abs]
    rcases le_total c y with h | h
    · exact v1 c y hc1 h hy.2
    · rw [abs_sub_comm]; exact v1 y c hy.1.le h hc2

/-- The midpoint sum with `n` cells. -/
theorem Riemann.midpoint {g V : ℝ → ℝ} {l : ℝ} (hl : 0 ≤ l) {n : ℕ} (hn : 1 ≤ n)
    (hV : ∀ x y, -l ≤ x → x ≤ y → y ≤ l → |g x - g y| ≤ V y - V x) :
    |(∑ i ∈ Finset.range n, 2 * l / n * g (-l + (2 * i + 1) * l / n)) - ∫ y in -l..l, g y| ≤
      2 * l / n * (V l - V (-l)) :=
  Riemann.tagged hl hn hV fun i _ => by rw [sub_self, abs_zero]; positivity

/-! ## Circular segments by the distance of the chord -/

/-- The part of the open disk of radius `R` beyond the distance `h`. -/
def Seg (R h : ℝ) : Set (ℝ × ℝ) := {p | p.1 ^ 2 + p.2 ^ 2 < R ^ 2 ∧ h < p.1}

theorem Seg.eq_circular (R h : ℝ) : Seg R h = circularSegment R (R - h) := by
  unfold Seg circularSegment
  simp

theorem Seg.measurable (R h : ℝ) : MeasurableSet (Seg R h) := by
  unfold Seg
  measurability

theorem Seg.subset_box {R : ℝ} (hR : 0 ≤ R) (h : ℝ) : Seg R h ⊆ Set.Ioo (-R) R ×ˢ Set.Ioo (-R) R := by
  rintro ⟨x, z⟩ ⟨h1, -⟩
  dsimp only at h1
  have hx := abs_lt_of_sq_lt_sq (a := x) (b := R) (by nlinarith [sq_nonneg z]) hR
  have hz := abs_lt_of_sq_lt_sq (a := z) (b := R) (by nlinarith [sq_nonneg x]) hR
  exact ⟨abs_lt.1 hx, abs_lt.1 hz⟩

theorem Seg.finite {R : ℝ} (hR : 0 ≤ R) (h : ℝ) : volume (Seg R h) ≠ ⊤ := by
  refine ((measure_mono (Seg.subset_box hR h)).trans_lt ?_).ne
  rw [Measure.volume_eq_prod, Measure.prod_prod, Real.volume_Ioo]
  exact ENNReal.mul_lt_top ENNReal.ofReal_lt_top ENNReal.ofReal_lt_top

/-- The area of the part of the disk of radius `R` beyond the distance `h`. -/
noncomputable def segAt (R h : ℝ) : ℝ := (volume (Seg R h)).toReal

theorem segAt_eq (R h : ℝ) : segAt R h = segmentArea R (R - h) := by
  unfold segAt segmentArea
  rw [Seg.eq_circular]

theorem segAt_nonneg (R h : ℝ) : 0 ≤ segAt R h := ENNReal.toReal_nonneg

theorem Seg.mono {R R' h h' : ℝ} (hR : 0 ≤ R) (hRR : R ≤ R') (hh : h' ≤ h) : Seg R h ⊆ Seg R' h' := by
  rintro p ⟨h1, h2⟩
  exact ⟨by nlinarith, hh.trans_lt h2⟩

theorem segAt_mono {R R' h h' : ℝ} (hR : 0 ≤ R) (hRR : R ≤ R') (hh : h' ≤ h) : segAt R h ≤ segAt R' h' :=
  ENNReal.toReal_mono (Seg.finite (hR.trans hRR) h') (measure_mono (Seg.mono hR hRR hh))

/-- Growth in the radius is larger for a nearer chord. -/
theorem segAt_radius {R R' h h' : ℝ} (hR : 0 ≤ R) (hRR : R ≤ R') (hh : h' ≤ h) :
    segAt R' h - segAt R h ≤ segAt R' h' - segAt R h' := by
  have hR' := hR.trans hRR
  have h1 := measure_union_add_inter (μ := volume) (Seg R' h) (Seg.measurable R h')
  have h2 : Seg R' h ∩ Seg R h' = Seg R h := by
    ext p
    constructor
    · rintro ⟨⟨-, a⟩, b, -⟩; exact ⟨b, a⟩
    · rintro ⟨a, b⟩; exact ⟨⟨by nlinarith, b⟩, a, hh.trans_lt b⟩
  have h3 : volume (Seg R' h ∪ Seg R h') ≤ volume (Seg R' h') :=
    measure_mono (Set.union_subset (Seg.mono hR' le_rfl hh) (Seg.mono hR hRR le_rfl))
  rw [h2] at h1
  have f3 := ENNReal.toReal_mono (Seg.finite hR' h') h3
  have f1 := congrArg ENNReal.toReal h1
  rw [ENNReal.toReal_add (ne_top_of_le_ne_top (Seg.finite hR' h') h3) (Seg.finite hR h),
    ENNReal.toReal_add (Seg.finite hR' h) (Seg.finite hR h')] at f1
  unfold segAt
  linarith

theorem segAt_box {R h : ℝ} {a b c : ℝ} (hc : 0 ≤ c) (hab : a ≤ b) {t : Set (ℝ × ℝ)}
    (ht : volume t ≠ ⊤) (hs : Seg R h ⊆ t ∪ Set.Ioc a b ×ˢ Set.Ioo (-c) c) :
    segAt R h ≤ (volume t).toReal + (b - a) * (2 * c) := by
  have hbox : volume (Set.Ioc a b ×ˢ Set.Ioo (-c) c) = ENNReal.ofReal ((b - a) * (2 * c)) := by
    rw [Measure.volume_eq_prod, Measure.prod_prod, Real.volume_Ioo, Real.volume_Ioc, ← ENNReal.ofReal_mul (by linarith)]
    congr 1; ring
  have h1 := (measure_mono (μ := volume) hs).trans (measure_union_le _ _)
  rw [hbox] at h1
  have h2 := ENNReal.toReal_mono (ENNReal.add_ne_top.2 ⟨ht, ENNReal.ofReal_ne_top⟩) h1
  rw [ENNReal.toReal_add ht ENNReal.ofReal_ne_top, ENNReal.toReal_ofReal (by
    have : 0 ≤ b - a := by linarith
    positivity)] at h2
  exact h2

/-- The area falls by at most the diameter times the distance. -/
theorem segAt_lip {R h h' : ℝ} (hR : 0 ≤ R) (hh : h ≤ h') : segAt R h - segAt R h' ≤ 2 * R * (h' - h) := by
  have := segAt_box (R := R) (h := h) (a := h) (b := h') hR hh (Seg.finite hR h') (by
    rintro ⟨x, z⟩ ⟨h1, h2⟩
    dsimp only at h1 h2
    by_cases hx : h' < x
    · exact .inl ⟨h1, hx⟩
    · refine .inr ⟨⟨h2, not_lt.1 hx⟩, ?_⟩
      exact (Seg.subset_box hR h (a := (x, z)) ⟨h1, h2⟩).2)
  unfold segAt at this ⊢
  linarith

/-- A segment of less than half a disk has at most the area of the square over half its chord, twice. -/
theorem segAt_small {R h : ℝ} (hR : 0 ≤ R) (hh : 0 ≤ h) : segAt R h ≤ 2 * Max.max 0 (R ^ 2 - h ^ 2) := by
  by_cases hlt : R ≤ h
  · have : Seg R h = ∅ := by
      ext p
      simp only [Seg, Set.mem_ofPred_eq, Set.mem_empty_iff_false, iff_false, not_and, not_lt]
      intro h1
      nlinarith [sq_nonneg p.2]
    unfold segAt
    rw [this]
    simp
  · push Not at hlt
    have hq : 0 ≤ R ^ 2 - h ^ 2 := by nlinarith
    rw [max_eq_right hq]
    set ρ := Real.sqrt (R ^ 2 - h ^ 2) with hρ
    have hρ2 : ρ ^ 2 = R ^ 2 - h ^ 2 := Real.sq_sqrt hq
    have hρ0 : 0 ≤ ρ := Real.sqrt_nonneg _
    have := segAt_box (R := R) (h := h) (a := h) (b := R) (t := ∅) hρ0 hlt.le (by simp) (by
      rintro ⟨x, z⟩ ⟨h1, h2⟩
      dsimp only at h1 h2
      refine .inr ⟨⟨h2, (Seg.subset_box hR h (a := (x, z)) ⟨h1, h2⟩).1.2.le⟩, ?_⟩
      exact abs_lt.1 (abs_lt_of_sq_lt_sq (by nlinarith) hρ0))
    have hRh : R - h ≤ ρ := by
      refine Real.le_sqrt_of_sq_le ?_
      nlinarith
    simp only [measure_empty, ENNReal.toReal_zero, zero_add] at this
    nlinarith

/-- Turning the half plane does not change the area of the segment. -/
theorem segAt_turned {R H a b σ : ℝ} (hσ : 0 < σ) (hab : a ^ 2 + b ^ 2 = σ ^ 2) :
    volume {p : ℝ × ℝ | p.1 ^ 2 + p.2 ^ 2 < R ^ 2 ∧ H + a * p.1 + b * p.2 < 0} = volume (Seg R (H / σ)) := by
  set f : (ℝ × ℝ) →ₗ[ℝ] (ℝ × ℝ) := Matrix.toLin (Module.Basis.finTwoProd ℝ) (Module.Basis.finTwoProd ℝ)
    !![-a / σ, -b / σ; b / σ, -a / σ] with hf
  have happ : ∀ x z, f (x, z) = (-a / σ * x + -b / σ * z, b / σ * x + -a / σ * z) := fun x z => by
    rw [hf, Matrix.toLin_finTwoProd_apply]
  have hdet : LinearMap.det f = 1 := by
    rw [hf, LinearMap.det_toLin, Matrix.det_fin_two_of]
    field_simp
    linear_combination hab
  have hset : {p : ℝ × ℝ | p.1 ^ 2 + p.2 ^ 2 < R ^ 2 ∧ H + a * p.1 + b * p.2 < 0} = f ⁻¹' Seg R (H / σ) := by
    ext ⟨x, z⟩
    simp only [Set.mem_ofPred_eq, Set.mem_preimage, Seg, happ]
    have e1 : (-a / σ * x + -b / σ * z) ^ 2 + (b / σ * x + -a / σ * z) ^ 2 = x ^ 2 + z ^ 2 := by
      field_simp
      linear_combination (x ^ 2 + z ^ 2) * hab
    rw [e1]
    refine and_congr_right fun _ => ?_
    rw [show -a / σ * x + -b / σ * z = (-(a * x + b * z)) / σ by ring, div_lt_div_iff_of_pos_right hσ]
    constructor <;> intro h <;> linarith
  rw [hset, Measure.volume_eq_prod, Measure.addHaar_preimage_linearMap _ (by rw [hdet]; exact one_ne_zero), hdet]
  simp

end Enve
