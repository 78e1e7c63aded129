import Verif.Props.FootprintProps
import Mathlib.Algebra.Order.Chebyshev

/-! # C150: the contact areas of a tyre that leans -/

namespace Enve

open Scalar Spec MeasureTheory

/-- A midpoint sum of a function that changes by at most the root of the change of a monotone one. -/
theorem Riemann.midpoint_sqrt {g V : ℝ → ℝ} {l : ℝ} (hl : 0 ≤ l) {n : ℕ} (hn : 1 ≤ n)
    (hm : ∀ x y, -l ≤ x → x ≤ y → y ≤ l → V x ≤ V y)
    (hV : ∀ x y, -l ≤ x → x ≤ y → y ≤ l → |g x - g y| ≤ 2 * √(V y - V x)) (hg : IntervalIntegrable g volume (-l) l) :
    |(∑ i ∈ Finset.range n, 2 * l / n * g (-l + (2 * i + 1) * l / n)) - ∫ y in -l..l, g y| ≤
      4 * l * √((V l - V (-l)) / n) := by
  have hn' : (0 : ℝ) < n := by exact_mod_cast hn
  set a : ℕ → ℝ := fun i => -l + i * (2 * l / n) with ha
  have ha0 : a 0 = -l := by simp [ha]
  have han : a n = l := by simp only [ha]; field_simp; ring
  have hw : 0 ≤ 2 * l / n := by positivity
  have hstep : ∀ i, a (i + 1) = a i + 2 * l / n := by intro i; simp only [ha]; push_cast; ring
  have hmono : ∀ i j, i ≤ j → a i ≤ a j := by
    intro i j hij
    simp only [ha]
    have : (i : ℝ) ≤ j := by exact_mod_cast hij
    nlinarith
  have hlo : ∀ i, -l ≤ a i := fun i => by rw [← ha0]; exact hmono 0 i (Nat.zero_le i)
  have hhi : ∀ i, i ≤ n → a i ≤ l := fun i hi => by have := hmono i n hi; rwa [han] at this
  have hint : ∀ k < n, IntervalIntegrable g volume (a k) (a (k + 1)) := fun k hk =>
    hg.mono_set (by
      rw [Set.uIcc_of_le (hmono k (k + 1) (Nat.le_succ k)), Set.uIcc_of_le (by linarith)]
      exact Set.Icc_subset_Icc (hlo k) (hhi (k + 1) hk))
  have hI := intervalIntegral.sum_integral_adjacent_intervals hint
  rw [ha0, han] at hI
  have hd : ∀ i ∈ Finset.range n, 0 ≤ V (a (i + 1)) - V (a i) := fun i hi =>
    sub_nonneg.2 (hm _ _ (hlo i) (hmono _ _ (Nat.le_succ i)) (hhi _ (Finset.mem_range.1 hi)))
  have htel : ∑ i ∈ Finset.range n, √(V (a (i + 1)) - V (a i)) ^ 2 = V l - V (-l) := by
    rw [Finset.sum_congr rfl fun i hi => Real.sq_sqrt (hd i hi), Finset.sum_range_sub (fun i => V (a i)), ha0, han]
  have hcs : ∑ i ∈ Finset.range n, √(V (a (i + 1)) - V (a i)) ≤ √(n * (V l - V (-l))) := by
    refine Real.le_sqrt_of_sq_le ?_
    have := sq_sum_le_card_mul_sum_sq (s := Finset.range n) (f := fun i => √(V (a (i + 1)) - V (a i)))
    rwa [htel, Finset.card_range] at this
  have hcell : ∀ i ∈ Finset.range n, |2 * l / n * g (-l + (2 * i + 1) * l / n) - ∫ y in a i..a (i + 1), g y| ≤
      2 * l / n * (2 * √(V (a (i + 1)) - V (a i))) := by
    intro i hi
    have hi : i < n := Finset.mem_range.1 hi
    set c := -l + (2 * i + 1) * l / n with hc
    have hln : 0 ≤ l / n := by positivity
    have hc1 : a i ≤ c := by
      have : c = a i + l / n := by simp only [ha, hc]; ring
      linarith
    have hc2 : c ≤ a (i + 1) := by
      have : a (i + 1) = c + l / n := by simp only [ha, hc]; push_cast; ring
      linarith
    have hconst : 2 * l / n * g c = ∫ _ in a i..a (i + 1), g c := by
      rw [intervalIntegral.integral_const, hstep]
      simp
    rw [hconst, ← intervalIntegral.integral_sub intervalIntegrable_const (hint i hi)]
    have hb := intervalIntegral.norm_integral_le_of_norm_le_const (a := a i) (b := a (i + 1))
      (f := fun y => g c - g y) (C := 2 * √(V (a (i + 1)) - V (a i))) (fun y hy => ?_)
    · rw [hstep i, add_sub_cancel_left, abs_of_nonneg hw, ← hstep i, Real.norm_eq_abs] at hb
      linarith
    · rw [Set.uIoc_of_le (hmono i (i + 1) (Nat.le_succ i))] at hy
      have h1 := hlo i
      have h2 := hhi (i + 1) hi
      have v1 : ∀ x y, a i ≤ x → x ≤ y → y ≤ a (i + 1) → |g x - g y| ≤ 2 * √(V (a (i + 1)) - V (a i)) := by
        intro x y hx hxy hy
        have e1 := hV x y (h1.trans hx) hxy (hy.trans h2)
        have e2 := hm (a i) x h1 hx ((hxy.trans hy).trans h2)
        have e3 := hm y (a (i + 1)) (h1.trans (hx.trans hxy)) hy h2
        exact e1.trans (mul_le_mul_of_nonneg_left (Real.sqrt_le_sqrt (by linarith)) (by norm_num))
      rw [Real.norm_eq_abs]
      rcases le_total c y with h | h
      · exact v1 c y hc1 h hy.2
      · rw [abs_sub_comm]; exact v1 y c hy.1.le h hc2
  rw [← hI, ← Finset.sum_sub_distrib]
  refine (Finset.abs_sum_le_sum_abs _ _).trans ((Finset.sum_le_sum hcell).trans ?_)
  rw [← Finset.mul_sum, ← Finset.mul_sum]
  have hroot : √(n * (V l - V (-l))) = n * √((V l - V (-l)) / n) := by
    rw [show (n : ℝ) * (V l - V (-l)) = (n : ℝ) ^ 2 * ((V l - V (-l)) / n) by field_simp, Real.sqrt_mul (by positivity),
      Real.sqrt_sq hn'.le]
  have : 2 * l / n * (2 * √(n * (V l - V (-l)))) = 4 * l * √((V l - V (-l)) / n) := by
    rw [hroot]; field_simp; ring
  rw [← this]
  exact mul_le_mul_of_nonneg_left (mul_le_mul_of_nonneg_left hcs (by norm_num)) hw

namespace Footprint

/-- A vector given in the axes of a wheel that leans and in those of the plane below it. -/
theorem coords_lean {m : M3 ℝ} (hp : IsRotation m) {N : V3 ℝ} (hN : Unit3 N) {k σ h s t : ℝ} (hk : dot3 N m.c1 = k)
    (hσ : 0 < σ) (hσ2 : σ ^ 2 = 1 - k ^ 2) {w : V3 ℝ}
    (hwx : w.x = -h * N.x + s * (1 / σ * (m.c1.x - k * N.x)) + t * (1 / σ * (cross3 m.c1 N).x))
    (hwy : w.y = -h * N.y + s * (1 / σ * (m.c1.y - k * N.y)) + t * (1 / σ * (cross3 m.c1 N).y))
    (hwz : w.z = -h * N.z + s * (1 / σ * (m.c1.z - k * N.z)) + t * (1 / σ * (cross3 m.c1 N).z)) :
    dot3 w m.c1 = s * σ - h * k ∧
    dot3 w m.c0 ^ 2 + dot3 w m.c2 ^ 2 = t ^ 2 + ((h + dot3 w m.c1 * k) / σ) ^ 2 := by
  have hN' := hN.dot
  obtain ⟨⟨ra, rb, rc⟩, rd, re, rf⟩ := IsRotation.rows hp
  set q := 1 / σ with hq
  have hqs : q * σ = 1 := by rw [hq]; field_simp
  have hu : m.c1.x * m.c1.x + m.c1.y * m.c1.y + m.c1.z * m.c1.z = 1 := by linear_combination IsRotation.unit1 hp
  have h1 : dot3 w m.c1 = s * σ - h * k := by
    have e : dot3 w m.c1 = -h * dot3 N m.c1 + s * q * ((m.c1.x * m.c1.x + m.c1.y * m.c1.y + m.c1.z * m.c1.z) - k * dot3 N m.c1) := by
      simp only [dot3, cross3] at *
      rw [hwx, hwy, hwz]; ring
    rw [e, hk, hu]
    linear_combination -s * q * hσ2 + s * σ * hqs
  refine ⟨h1, ?_⟩
  have e1 : dot3 w m.c0 ^ 2 + dot3 w m.c1 ^ 2 + dot3 w m.c2 ^ 2 = dot3 w w := by
    simp only [dot3]
    linear_combination w.x ^ 2 * ra + w.y ^ 2 * rb + w.z ^ 2 * rc + 2 * w.x * w.y * rd + 2 * w.x * w.z * re +
      2 * w.y * w.z * rf
  have e2 : dot3 w w = h ^ 2 + s ^ 2 + t ^ 2 := by
    have e : dot3 w w = h ^ 2 * dot3 N N + s ^ 2 * q ^ 2 * ((m.c1.x * m.c1.x + m.c1.y * m.c1.y + m.c1.z * m.c1.z) -
        2 * k * dot3 N m.c1 + k ^ 2 * dot3 N N) + t ^ 2 * q ^ 2 * ((m.c1.x * m.c1.x + m.c1.y * m.c1.y + m.c1.z * m.c1.z) *
        dot3 N N - dot3 N m.c1 ^ 2) - 2 * h * s * q * (dot3 N m.c1 - k * dot3 N N) := by
      simp only [dot3, cross3] at *
      rw [hwx, hwy, hwz]; ring
    rw [e, hk, hu, hN']
    have : q ^ 2 * σ ^ 2 = 1 := by rw [← mul_pow, hqs, one_pow]
    linear_combination (s ^ 2 + t ^ 2) * this - (s ^ 2 + t ^ 2) * q ^ 2 * hσ2
  have e3 : (h + dot3 w m.c1 * k) / σ = h * σ + s * k := by
    rw [h1, div_eq_iff hσ.ne']
    linear_combination -h * hσ2
  rw [e3]
  rw [h1] at e1
  linear_combination e1 + e2 - (s ^ 2 + h ^ 2) * hσ2

/-- The direction of the plane with the unit normal `N` in which the wheel axis `c` rises, `k` its scalar product with the
normal and `σ` its sine. -/
noncomputable def slope (c N : V3 ℝ) (k σ : ℝ) : V3 ℝ := along ⟨0, 0, 0⟩ (1 / σ) (along c (-k) N)

/-- The direction of the plane at right angles to the wheel axis. -/
noncomputable def across (c N : V3 ℝ) (σ : ℝ) : V3 ℝ := along ⟨0, 0, 0⟩ (1 / σ) (cross3 c N)

/-- Which points of the plane below the hub are in the tyre. -/
theorem mem_lean {rx mx ry my ly : ℝ} (hv : ValidProfile rx mx ry my ly) {pose : Affine ℝ} (hp : IsRigid pose)
    {N : V3 ℝ} (hN : Unit3 N) {k σ : ℝ} (hk : dot3 N pose.linear.c1 = k) (hσ : 0 < σ) (hσ2 : σ ^ 2 = 1 - k ^ 2) (h : ℝ)
    (p : ℝ × ℝ) :
    p ∈ footprint rx mx ry my ly pose (along pose.trans (-h) N) (slope pose.linear.c1 N k σ) (across pose.linear.c1 N σ) ↔
      |p.1 * σ - h * k| < ly ∧ p.2 ^ 2 < radAt rx mx ry my (p.1 * σ - h * k) ^ 2 - ((h + (p.1 * σ - h * k) * k) / σ) ^ 2 := by
  obtain ⟨⟨ra, rb, rc⟩, rd, re, rf⟩ := IsRotation.rows hp
  set w : V3 ℝ := ⟨-h * N.x + p.1 * (1 / σ * (pose.linear.c1.x - k * N.x)) + p.2 * (1 / σ * (cross3 pose.linear.c1 N).x),
    -h * N.y + p.1 * (1 / σ * (pose.linear.c1.y - k * N.y)) + p.2 * (1 / σ * (cross3 pose.linear.c1 N).y),
    -h * N.z + p.1 * (1 / σ * (pose.linear.c1.z - k * N.z)) + p.2 * (1 / σ * (cross3 pose.linear.c1 N).z)⟩
  obtain ⟨hb, hn⟩ := coords_lean (w := w) hp hN hk hσ hσ2 rfl rfl rfl
  have key : ∀ x y z : ℝ, pose.apply ⟨x, y, z⟩ = along (along (along pose.trans (-h) N) p.1 (slope pose.linear.c1 N k σ)) p.2
      (across pose.linear.c1 N σ) ↔
      (x * pose.linear.c0.x + y * pose.linear.c1.x + z * pose.linear.c2.x = w.x ∧
        x * pose.linear.c0.y + y * pose.linear.c1.y + z * pose.linear.c2.y = w.y ∧
        x * pose.linear.c0.z + y * pose.linear.c1.z + z * pose.linear.c2.z = w.z) := by
    intro x y z
    rw [V3.ext_iff]
    simp only [Affine.apply, along, slope, across, w]
    v3
    refine and_congr ?_ (and_congr ?_ ?_) <;> constructor <;> intro e <;> linarith
  rw [hb] at hn
  unfold footprint tyreSolid
  simp only [Set.mem_ofPred_eq]
  constructor
  · rintro ⟨q, ⟨h1, r, h2, h3⟩, h4⟩
    obtain ⟨e1, e2, e3⟩ := (key _ _ _).1 h4
    have u0 := IsRotation.unit0 hp
    have u1 := IsRotation.unit1 hp
    have u2 := IsRotation.unit2 hp
    have o01 := IsRotation.orth01 hp
    have o02 := IsRotation.orth02 hp
    have o12 := IsRotation.orth12 hp
    have f0 : dot3 w pose.linear.c0 = q.2.1 := by
      unfold dot3; rw [← e1, ← e2, ← e3]; linear_combination q.2.1 * u0 + q.1 * o01 + q.2.2 * o02
    have f1 : dot3 w pose.linear.c1 = q.1 := by
      unfold dot3; rw [← e1, ← e2, ← e3]; linear_combination q.2.1 * o01 + q.1 * u1 + q.2.2 * o12
    have f2 : dot3 w pose.linear.c2 = q.2.2 := by
      unfold dot3; rw [← e1, ← e2, ← e3]; linear_combination q.2.1 * o02 + q.1 * o12 + q.2.2 * u2
    rw [radAt_profile hv h1.le] at h2
    rw [h2, ← f0, ← f2, hn, ← f1, hb] at h3
    rw [← f1, hb] at h1
    exact ⟨h1, by linarith⟩
  · rintro ⟨h1, h2⟩
    have e1 : dot3 w pose.linear.c0 * pose.linear.c0.x + (p.1 * σ - h * k) * pose.linear.c1.x +
        dot3 w pose.linear.c2 * pose.linear.c2.x = w.x := by
      rw [← hb]; simp only [dot3]; linear_combination w.x * ra + w.y * rd + w.z * re
    have e2 : dot3 w pose.linear.c0 * pose.linear.c0.y + (p.1 * σ - h * k) * pose.linear.c1.y +
        dot3 w pose.linear.c2 * pose.linear.c2.y = w.y := by
      rw [← hb]; simp only [dot3]; linear_combination w.x * rd + w.y * rb + w.z * rf
    have e3 : dot3 w pose.linear.c0 * pose.linear.c0.z + (p.1 * σ - h * k) * pose.linear.c1.z +
        dot3 w pose.linear.c2 * pose.linear.c2.z = w.z := by
      rw [← hb]; simp only [dot3]; linear_combination w.x * re + w.y * rf + w.z * rc
    refine ⟨(p.1 * σ - h * k, dot3 w pose.linear.c0, dot3 w pose.linear.c2), ⟨h1, _, (radAt_profile hv h1.le _).2 rfl, ?_⟩,
      (key _ _ _).2 ⟨e1, e2, e3⟩⟩
    dsimp only
    rw [hn]
    linarith

/-- The area of the footprint is the integral of the chords, divided by the sine. -/
theorem area_lean {rx mx ry my ly : ℝ} (hv : ValidProfile rx mx ry my ly) {pose : Affine ℝ} (hp : IsRigid pose)
    {N : V3 ℝ} (hN : Unit3 N) {k σ : ℝ} (hk : dot3 N pose.linear.c1 = k) (hσ : 0 < σ) (hσ2 : σ ^ 2 = 1 - k ^ 2) (h : ℝ) :
    σ * footprintArea rx mx ry my ly pose (along pose.trans (-h) N) (slope pose.linear.c1 N k σ)
      (across pose.linear.c1 N σ) = ∫ y in -ly..ly, chord (radAt rx mx ry my y) ((h + y * k) / σ) := by
  set F : ℝ → ℝ := fun y => chord (radAt rx mx ry my y) ((h + y * k) / σ) with hF
  set A : Set (ℝ × ℝ) := {p | |p.1 * σ - h * k| < ly ∧ p.2 ^ 2 < radAt rx mx ry my (p.1 * σ - h * k) ^ 2 -
    ((h + (p.1 * σ - h * k) * k) / σ) ^ 2} with hA
  have hset : footprint rx mx ry my ly pose (along pose.trans (-h) N) (slope pose.linear.c1 N k σ)
      (across pose.linear.c1 N σ) = A := by
    ext p; exact mem_lean hv hp hN hk hσ hσ2 h p
  unfold footprintArea
  rw [hset]
  have hm : MeasurableSet A := by
    have hR := radAt_measurable rx mx ry my
    have m1 : Measurable fun p : ℝ × ℝ => |p.1 * σ - h * k| := by fun_prop
    have m2 : Measurable fun p : ℝ × ℝ => p.2 ^ 2 := by fun_prop
    have m3 : Measurable fun p : ℝ × ℝ => radAt rx mx ry my (p.1 * σ - h * k) ^ 2 -
      ((h + (p.1 * σ - h * k) * k) / σ) ^ 2 := by fun_prop
    exact (measurableSet_lt m1 measurable_const).inter (measurableSet_lt m2 m3)
  have hlo : ∀ s : ℝ, |s * σ - h * k| < ly ↔ s ∈ Set.Ioo ((-ly + h * k) / σ) ((ly + h * k) / σ) := by
    intro s
    rw [abs_lt, Set.mem_Ioo, div_lt_iff₀ hσ, lt_div_iff₀ hσ]
    constructor <;> rintro ⟨x, y⟩ <;> constructor <;> linarith
  have hslice : ∀ s, volume (Prod.mk s ⁻¹' A) =
      if s ∈ Set.Ioo ((-ly + h * k) / σ) ((ly + h * k) / σ) then ENNReal.ofReal (F (s * σ - h * k)) else 0 := by
    intro s
    split
    · rename_i hy
      have : Prod.mk s ⁻¹' A = Set.Ioo
          (-√(radAt rx mx ry my (s * σ - h * k) ^ 2 - ((h + (s * σ - h * k) * k) / σ) ^ 2))
          (√(radAt rx mx ry my (s * σ - h * k) ^ 2 - ((h + (s * σ - h * k) * k) / σ) ^ 2)) := by
        ext x
        simp only [hA, Set.mem_preimage, Set.mem_ofPred_eq, (hlo s).2 hy, true_and, Set.mem_Ioo]
        rw [← abs_lt, Real.lt_sqrt (abs_nonneg _), sq_abs]
      rw [this, Real.volume_Ioo]
      congr 1
      simp only [hF, chord]
      ring
    · rename_i hy
      convert measure_empty (μ := volume)
      ext p
      simp only [hA, Set.mem_preimage, Set.mem_ofPred_eq, Set.mem_empty_iff_false, iff_false]
      exact fun h => hy ((hlo s).1 h.1)
  have hint : (volume A).toReal = ∫ s in (-ly + h * k) / σ..(ly + h * k) / σ, F (s * σ - h * k) := by
    rw [Measure.volume_eq_prod, Measure.prod_apply hm, ← integral_toReal (measurable_measure_prodMk_left hm).aemeasurable]
    · rw [intervalIntegral.integral_of_le (div_le_div_of_nonneg_right (by linarith [hv.ly_pos]) hσ.le),
        integral_Ioc_eq_integral_Ioo, ← integral_indicator measurableSet_Ioo]
      congr 1
      ext y
      rw [hslice, Set.indicator_apply]
      split
      · exact ENNReal.toReal_ofReal (chord_nonneg _ _)
      · simp
    · refine Filter.Eventually.of_forall fun y => ?_
      rw [hslice]
      split
      · exact ENNReal.ofReal_lt_top
      · exact ENNReal.zero_lt_top
  rw [hint]
  simp only [mul_comm _ σ]
  rw [intervalIntegral.integral_comp_mul_sub F hσ.ne' (h * k), smul_eq_mul, ← mul_assoc, mul_inv_cancel₀ hσ.ne', one_mul,
    mul_div_cancel₀ _ hσ.ne', mul_div_cancel₀ _ hσ.ne', add_sub_cancel_right, add_sub_cancel_right]

/-- How much the chords change. -/
theorem variation_lean {rx mx ry my ly : ℝ} (hv : ValidProfile rx mx ry my ly) (h k : ℝ) :
    ∃ V : ℝ → ℝ, (∀ x y, -ly ≤ x → x ≤ y → y ≤ ly → V x ≤ V y) ∧
      (∀ x y, -ly ≤ x → x ≤ y → y ≤ ly →
        |chord (radAt rx mx ry my x) (h + x * k) - chord (radAt rx mx ry my y) (h + y * k)| ≤ 2 * √(V y - V x)) ∧
      V ly - V (-ly) ≤ 2 * rx ^ 2 + 4 * ly * |k| * (|h| + |k| * ly) := by
  set u : ℝ → ℝ := fun y => radAt rx mx ry my y ^ 2 with hu
  set U : ℝ → ℝ := fun y => if y ≤ 0 then u y else 2 * u 0 - u y with hU
  have u_anti : ∀ {y y'}, |y'| ≤ ly → |y| ≤ |y'| → u y' ≤ u y := fun hy h => by
    have a := radAt_anti hv hy h
    have b := (radAt_mem hv hy).1
    simp only [hu]; nlinarith
  have u0 : u 0 = rx ^ 2 := by rw [hu]; dsimp only; rw [radAt_zero hv]
  have ly0 := hv.ly_pos
  set M := 2 * |k| * (|h| + |k| * ly) with hM
  have hM0 : 0 ≤ M := by positivity
  have hUd : ∀ x y, -ly ≤ x → x ≤ y → y ≤ ly → |u x - u y| ≤ U y - U x := by
    intro x y hx hxy hy
    simp only [hU]
    have hxl : |x| ≤ ly := abs_le.2 ⟨hx, hxy.trans hy⟩
    have hyl : |y| ≤ ly := abs_le.2 ⟨hx.trans hxy, hy⟩
    by_cases h1 : y ≤ 0
    · rw [if_pos h1, if_pos (hxy.trans h1)]
      have := u_anti hxl (by rw [abs_of_nonpos h1, abs_of_nonpos (hxy.trans h1)]; linarith : |y| ≤ |x|)
      rw [abs_of_nonpos (by linarith)]; linarith
    · rw [if_neg h1]
      by_cases h2 : x ≤ 0
      · rw [if_pos h2]
        have a := u_anti hxl (by rw [abs_zero]; exact abs_nonneg _ : |(0:ℝ)| ≤ |x|)
        have b := u_anti hyl (by rw [abs_zero]; exact abs_nonneg _ : |(0:ℝ)| ≤ |y|)
        rw [abs_le]; constructor <;> linarith
      · rw [if_neg h2]
        have := u_anti hyl (by rw [abs_of_pos (not_le.1 h1), abs_of_pos (not_le.1 h2)]; exact hxy : |x| ≤ |y|)
        rw [abs_of_nonneg (by linarith)]; linarith
  have hHd : ∀ x y, -ly ≤ x → x ≤ y → y ≤ ly → |(h + x * k) ^ 2 - (h + y * k) ^ 2| ≤ M * (y - x) := by
    intro x y hx hxy hy
    have hxl : |x| ≤ ly := abs_le.2 ⟨hx, hxy.trans hy⟩
    have hyl : |y| ≤ ly := abs_le.2 ⟨hx.trans hxy, hy⟩
    rw [show (h + x * k) ^ 2 - (h + y * k) ^ 2 = (-(y - x)) * (k * (2 * h + (x + y) * k)) by ring, abs_mul, abs_neg,
      abs_of_nonneg (by linarith : 0 ≤ y - x), abs_mul, mul_comm M]
    refine mul_le_mul_of_nonneg_left ?_ (by linarith)
    have e : |2 * h + (x + y) * k| ≤ 2 * (|h| + |k| * ly) := by
      refine (abs_add_le _ _).trans ?_
      rw [abs_mul, abs_mul, abs_two]
      have e1 : |x + y| ≤ 2 * ly := (abs_add_le x y).trans (by linarith)
      have e2 := mul_le_mul_of_nonneg_right e1 (abs_nonneg k)
      linarith
    calc |k| * |2 * h + (x + y) * k| ≤ |k| * (2 * (|h| + |k| * ly)) := mul_le_mul_of_nonneg_left e (abs_nonneg k)
      _ = M := by rw [hM]; ring
  have hroot : ∀ A B : ℝ, |2 * √A - 2 * √B| ≤ 2 * √|A - B| := by
    have one : ∀ A B : ℝ, A ≤ B → √B ≤ √A + √(B - A) := by
      intro A B hAB
      rcases le_total 0 A with h0 | h0
      · refine Real.sqrt_le_iff.2 ⟨by positivity, ?_⟩
        have e1 := Real.sq_sqrt h0
        have e2 := Real.sq_sqrt (sub_nonneg.2 hAB)
        have e3 : 0 ≤ √A * √(B - A) := by positivity
        nlinarith
      · rw [Real.sqrt_eq_zero_of_nonpos h0, zero_add]
        exact Real.sqrt_le_sqrt (by linarith)
    intro A B
    rcases le_total A B with h0 | h0
    · have e1 := one A B h0
      have e2 := Real.sqrt_le_sqrt h0
      rw [abs_of_nonpos (by linarith), abs_of_nonpos (by linarith : A - B ≤ 0), neg_sub, neg_sub]
      linarith
    · have e1 := one B A h0
      have e2 := Real.sqrt_le_sqrt h0
      rw [abs_of_nonneg (by linarith), abs_of_nonneg (by linarith : 0 ≤ A - B)]
      linarith
  refine ⟨fun y => U y + M * y, ?_, ?_, ?_⟩
  · intro x y hx hxy hy
    have a := hUd x y hx hxy hy
    have b := abs_nonneg (u x - u y)
    have c := mul_le_mul_of_nonneg_left hxy hM0
    dsimp only
    linarith
  · intro x y hx hxy hy
    unfold chord
    refine (hroot _ _).trans (mul_le_mul_of_nonneg_left (Real.sqrt_le_sqrt ?_) (by norm_num))
    have a := hUd x y hx hxy hy
    have b := hHd x y hx hxy hy
    rw [show radAt rx mx ry my x ^ 2 - (h + x * k) ^ 2 - (radAt rx mx ry my y ^ 2 - (h + y * k) ^ 2) =
      (u x - u y) - ((h + x * k) ^ 2 - (h + y * k) ^ 2) by simp only [hu]; ring]
    refine (abs_sub _ _).trans ?_
    dsimp only
    linarith
  · dsimp only
    simp only [hU]
    rw [if_neg (by linarith), if_pos (by linarith), u0]
    have a : 0 ≤ u ly := sq_nonneg _
    have b : 0 ≤ u (-ly) := sq_nonneg _
    rw [hM]
    linarith

/-- The area one rib reports. -/
theorem rib_area_lean {r : Rib ℝ} (hr : IsRib r) {pose : Affine ℝ} (hp : IsRigid pose) {f : ℝ} {o n : V3 ℝ} {g : Flat ℝ}
    (hg : Flat.make f o n = .ok g) {k : ℝ} (hk : dot3 g.plane.normal pose.linear.c1 = k) (hS : Scalar.eps ≤ 1 - k ^ 2) :
    |(r.envelopGeometricFlat g pose).2.area - r.width * chord r.radius (height g.plane (ribCentre pose r) / √(1 - k ^ 2))| ≤
      r.width * (2 * √(Scalar.eps / (1 - k ^ 2))) := by
  have hn := Flat.make_unit hg
  have hR : 0 < r.radius := hr.radius_pos
  have hw := hr.width_nonneg
  have heps := real_eps_pos
  have heps1 := real_eps_lt_one
  have hS0 := heps.trans_le hS
  have hS' : sinSq g.plane.normal pose.linear.c1 = 1 - k ^ 2 := by rw [sinSq, hk]
  have hsq : (height g.plane (ribCentre pose r) / √(1 - k ^ 2)) ^ 2 = height g.plane (ribCentre pose r) ^ 2 / (1 - k ^ 2) := by
    rw [div_pow, Real.sq_sqrt hS0.le]
  rcases Rib.geometricFlat_closed hr hp hn with ⟨a1, a2⟩ | ⟨a1, a2⟩
  · rw [a2]
    have : Rib.depthArea r.radius r.width (sectionDepth g.plane pose r) =
        r.width * chord r.radius (height g.plane (ribCentre pose r) / √(1 - k ^ 2)) := by
      unfold sectionDepth chord
      rw [hS']
      simp only [Rib.depthArea, real_mul, real_sub, real_sqrt, real_two]
      rw [show (r.radius - |height g.plane (ribCentre pose r)| / √(1 - k ^ 2)) *
          (2 * r.radius - (r.radius - |height g.plane (ribCentre pose r)| / √(1 - k ^ 2))) =
        r.radius ^ 2 - (height g.plane (ribCentre pose r) / √(1 - k ^ 2)) ^ 2 by
          rw [div_pow, ← sq_abs (height _ _)]; ring]
      ring
    dsimp only
    rw [this, sub_self, abs_zero]
    positivity
  · rw [a2, show (r.noContact pose).area = 0 by simp [Rib.noContact], zero_sub, abs_neg,
      abs_of_nonneg (mul_nonneg hw (chord_nonneg _ _))]
    refine mul_le_mul_of_nonneg_left ?_ hw
    unfold chord
    refine mul_le_mul_of_nonneg_left (Real.sqrt_le_sqrt ?_) (by norm_num)
    rw [hsq]
    by_contra hcon
    rw [not_le] at hcon
    have hge : Scalar.eps ≤ Scalar.eps / (1 - k ^ 2) := by
      rw [le_div_iff₀ hS0]; nlinarith [sq_nonneg k]
    apply a1
    unfold FlatContact
    dsimp only
    rw [hS']
    refine ⟨hS, ?_, ?_⟩
    · rw [div_lt_iff₀ hS0] at hcon
      have : (r.radius ^ 2 - height g.plane (ribCentre pose r) ^ 2 / (1 - k ^ 2)) * (1 - k ^ 2) =
        (1 - k ^ 2) * r.radius ^ 2 - height g.plane (ribCentre pose r) ^ 2 := by field_simp
      linarith
    · have h1 : Scalar.eps < √(r.radius ^ 2 - height g.plane (ribCentre pose r) ^ 2 / (1 - k ^ 2)) := by
        apply Real.lt_sqrt_of_sq_lt
        nlinarith
      linarith

/-- The two directions are of length one, at right angles to each other and to the normal. -/
theorem axes {c N : V3 ℝ} {k q : ℝ} (hc : c.x * c.x + c.y * c.y + c.z * c.z = 1) (hN : N.x * N.x + N.y * N.y + N.z * N.z = 1)
    (hk : N.x * c.x + N.y * c.y + N.z * c.z = k) (hq : q ^ 2 * (1 - k ^ 2) = 1) :
    Unit3 (along ⟨0, 0, 0⟩ q (along c (-k) N)) ∧ Unit3 (along ⟨0, 0, 0⟩ q (cross3 c N)) ∧
    dot3 (along ⟨0, 0, 0⟩ q (along c (-k) N)) (along ⟨0, 0, 0⟩ q (cross3 c N)) = 0 ∧
    dot3 (along ⟨0, 0, 0⟩ q (along c (-k) N)) N = 0 ∧ dot3 (along ⟨0, 0, 0⟩ q (cross3 c N)) N = 0 := by
  unfold Unit3
  simp only [along, dot3, cross3]
  refine ⟨?_, ?_, ?_, ?_, ?_⟩
  · linear_combination hq + q ^ 2 * hc + q ^ 2 * k ^ 2 * hN - 2 * q ^ 2 * k * hk
  · linear_combination hq + q ^ 2 * hc + q ^ 2 * (c.x * c.x + c.y * c.y + c.z * c.z) * hN -
      q ^ 2 * (N.x * c.x + N.y * c.y + N.z * c.z + k) * hk
  · ring
  · linear_combination q * hk - q * k * hN
  · ring

end Footprint

/-- **C150, wheels that lean (partial).**  At every pose whose wheel axis is not too near the normal of the ground, the areas
that the ribs report with the geometric method add up to the area of the part of the ground inside the tyre times the sine
of the angle between the axis and the normal, up to an amount of order `1/√n` and the threshold of a contact.  The plane is
given by the foot of the hub, the direction in which the wheel axis rises and the one at right angles to it. -/
theorem C150_lean_partial {fresh : Nat → Output ℝ} {n : Nat} (hn : 1 ≤ n) {rx mx ry my ly : ℝ}
    (hv : ValidProfile rx mx ry my ly) {s s' : Shell ℝ} (hmake : Shell.make fresh n rx mx ry my ly = .ok s)
    {pose : Affine ℝ} (hp : IsRigid pose) {f : ℝ} {og nn : V3 ℝ} {g : Flat ℝ} (hg : Flat.make f og nn = .ok g)
    {pol : Policy} {b : Bool} (hs : s.setupFlat pol g pose "geometric" = .ok s' b) :
    let N := g.plane.normal
    let axis := pose.linear.c1
    let camber := dot3 N axis
    let sine := √(1 - camber ^ 2)
    let hub := dot3 (minus pose.trans g.plane.origin) N
    let foot := along pose.trans (-hub) N
    let u := along ⟨0, 0, 0⟩ (1 / sine) (along axis (-camber) N)
    let v := along ⟨0, 0, 0⟩ (1 / sine) (cross3 axis N)
    Scalar.eps ≤ 1 - camber ^ 2 →
    (Unit3 u ∧ Unit3 v ∧ dot3 u v = 0 ∧ dot3 u N = 0 ∧ dot3 v N = 0) ∧
    ∃ a : Nat → ℝ, (∀ i < n, s'.contactAreaAt pol i = .ok (a i)) ∧
      |∑ i ∈ Finset.range n, a i - sine * footprintArea rx mx ry my ly pose foot u v| ≤
        4 * ly * √((2 * rx ^ 2 + 4 * ly * |camber / sine| * (|hub / sine| + |camber / sine| * ly)) / n) +
        4 * ly * √(Scalar.eps / (1 - camber ^ 2)) := by
  intro N axis camber sine hub foot u v hS
  have hu := Flat.make_unit hg
  have heps := real_eps_pos
  have hS0 := heps.trans_le hS
  have hσ0 : 0 < sine := Real.sqrt_pos.2 hS0
  have hσ2 : sine ^ 2 = 1 - camber ^ 2 := Real.sq_sqrt hS0.le
  refine ⟨?_, ?_⟩
  · have hu1 : axis.x * axis.x + axis.y * axis.y + axis.z * axis.z = 1 := by linear_combination IsRotation.unit1 hp
    have hN : N.x * N.x + N.y * N.y + N.z * N.z = 1 := hu.dot
    have hk : N.x * axis.x + N.y * axis.y + N.z * axis.z = camber := rfl
    have hq : (1 / sine) ^ 2 * (1 - camber ^ 2) = 1 := by rw [← hσ2]; field_simp
    exact Footprint.axes hu1 hN hk hq
  have ly0 := hv.ly_pos
  have hn' : (0 : ℝ) < n := by exact_mod_cast hn
  have hreach : s.Reachable pol := .make hmake
  obtain ⟨s1, e1, hsize, -, hshape, hribs, -⟩ := C04_construct fresh n hn rx mx ry my ly hv
  rw [hmake] at e1
  cases e1
  obtain ⟨flags, recs, hres, -⟩ := C38_flat_flag_partial pol s s' g pose "geometric" b hs
  have hrel := Shell.setupFlat_rel (.inl ⟨_, hs⟩)
  have hsize' : s'.size = n := by rw [Shell.size, hrel.ribs]; exact hsize
  have hrep : Reports pol s' recs := by
    rw [Shell.reports_iff, hsize', ← hsize]
    intro i hi
    obtain ⟨_, -, -, e⟩ := hres i hi
    exact e
  refine ⟨fun i => (recs i).area, fun i hi => hrep.area i (by rw [hsize']; exact hi), ?_⟩
  have harea := Footprint.area_lean hv hp hu (k := camber) rfl hσ0 hσ2 hub
  change sine * footprintArea rx mx ry my ly pose foot u v = _ at harea
  rw [harea]
  have hrw : ∀ y, (hub + y * camber) / sine = hub / sine + y * (camber / sine) := fun y => by ring
  simp only [hrw]
  obtain ⟨V, hVm, hV, hV'⟩ := Footprint.variation_lean hv (hub / sine) (camber / sine)
  have hint : IntervalIntegrable (fun y => Footprint.chord (radAt rx mx ry my y) (hub / sine + y * (camber / sine))) volume
      (-ly) ly := by
    rw [intervalIntegrable_iff_integrableOn_Ioc_of_le (by linarith)]
    refine Measure.integrableOn_of_bounded (M := 2 * rx) (by simp) ?_ ?_
    · have hR := radAt_measurable rx mx ry my
      unfold Footprint.chord
      exact Measurable.aestronglyMeasurable (by fun_prop)
    · refine (ae_restrict_iff' measurableSet_Ioc).2 (Filter.Eventually.of_forall fun y hy => ?_)
      have hy' : |y| ≤ ly := abs_le.2 ⟨hy.1.le, hy.2⟩
      rw [Real.norm_eq_abs, abs_of_nonneg (Footprint.chord_nonneg _ _)]
      unfold Footprint.chord
      refine mul_le_mul_of_nonneg_left ?_ (by norm_num)
      obtain ⟨r1, r2⟩ := radAt_mem hv hy'
      refine Real.sqrt_le_iff.2 ⟨hv.rx_pos.le, ?_⟩
      nlinarith [sq_nonneg (hub / sine + y * (camber / sine))]
  have hmid := Riemann.midpoint_sqrt ly0.le hn hVm hV hint
  have hterm : ∀ i ∈ Finset.range n, |(recs i).area - 2 * ly / n * Footprint.chord
      (radAt rx mx ry my (-ly + (2 * i + 1) * ly / n)) (hub / sine + (-ly + (2 * i + 1) * ly / n) * (camber / sine))| ≤
      2 * ly / n * (2 * √(Scalar.eps / (1 - camber ^ 2))) := by
    intro i hi
    rw [Finset.mem_range] at hi
    obtain ⟨r, hr1, hr2, -⟩ := hres i (by rw [hsize]; exact hi)
    rw [hrel.ribs] at hr1
    have hr1' : s.ribs[i]? = some r := hr1
    have hrib := hreach.isRib r (List.mem_of_getElem? hr1')
    obtain ⟨ρ, hρ0, hc', hw, hrad, hon⟩ := hribs i hi
    have hc' : r.center = ⟨0, -ly + (2 * i + 1) * ly / n, 0⟩ := by
      rw [Shell.ribCenter, Shell.ribAt, hr1'] at hc'; exact Res.ok.inj hc'
    have hw' : r.width = 2 * ly / n := by
      rw [Shell.ribWidth, Shell.ribAt, hr1'] at hw; exact Res.ok.inj hw
    have hrad' : r.radius = ρ := by
      rw [Shell.ribRadius, Shell.ribAt, hr1'] at hrad; exact Res.ok.inj hrad
    have hy : |-ly + (2 * i + 1) * ly / n| ≤ ly := (Shell.real_centre_abs ly0 hi).le
    have hh : height g.plane (ribCentre pose r) = hub + (-ly + (2 * i + 1) * ly / n) * camber := by
      unfold ribCentre
      rw [hc', height_apply, mul_zero, mul_zero, add_zero, add_zero]
      rfl
    have := Footprint.rib_area_lean hrib hp hg (k := camber) rfl hS
    rw [Rib.envelopFlat_geometric_eq hr2, hh, hw', hrad', (radAt_profile hv hy ρ).1 hon] at this
    rw [← hrw]
    exact this
  have hsum := (Finset.abs_sum_le_sum_abs _ (Finset.range n)).trans (Finset.sum_le_sum hterm)
  rw [Finset.sum_sub_distrib, Finset.sum_const, Finset.card_range, nsmul_eq_mul] at hsum
  have e2 : (n : ℝ) * (2 * ly / n * (2 * √(Scalar.eps / (1 - camber ^ 2)))) = 4 * ly * √(Scalar.eps / (1 - camber ^ 2)) := by
    field_simp; ring
  rw [e2] at hsum
  have e3 : 4 * ly * √((V ly - V (-ly)) / n) ≤
      4 * ly * √((2 * rx ^ 2 + 4 * ly * |camber / sine| * (|hub / sine| + |camber / sine| * ly)) / n) :=
    mul_le_mul_of_nonneg_left (Real.sqrt_le_sqrt (div_le_div_of_nonneg_right hV' hn'.le)) (by linarith)
  exact (abs_sub_le _ _ _).trans ((add_le_add hsum (hmid.trans e3)).trans (le_of_eq (by ring)))

/-- The tyre of `C150_camber_refuted`, with its hub on the road and its axis rising 4 in 5, meets the hypotheses: its ribs
report three fifths of the area. -/
example (fresh : Nat → Output ℝ) (n : Nat) (hn : 1 ≤ n) (hn' : n ≤ 200) : ∃ (s s' : Shell ℝ) (b : Bool) (a : Nat → ℝ),
    Shell.make fresh n 1 2 1 2 (1 / 4) = .ok s ∧
    s.setupFlat .raw Demo.road Demo.leant "geometric" = .ok s' b ∧
    (∀ i < n, s'.contactAreaAt .raw i = .ok (a i)) ∧
    |∑ i ∈ Finset.range n, a i - 3 / 5 * footprintArea 1 2 1 2 (1 / 4) Demo.leant ⟨0, 0, 0⟩ ⟨0, 1, 0⟩ ⟨1, 0, 0⟩| ≤
      √((22 / 9) / n) + √(25 / 9 * Scalar.eps) := by
  have hv : ValidProfile (1 : ℝ) 2 1 2 (1 / 4) :=
    ⟨by norm_num, by norm_num, by norm_num, by norm_num, by norm_num, by norm_num⟩
  have hp : IsRigid Demo.leant := by constructor <;> norm_num [Demo.leant]
  have heps : (Scalar.eps : ℝ) ≤ 9 / 25 := by rw [real_eps]; norm_num
  obtain ⟨s, h1, h2, -⟩ := C04_construct fresh n hn 1 2 1 2 (1 / 4) hv
  obtain ⟨s', b, hs, -⟩ := Shell.flat_shows (.make h1) (by rw [h2]; exact hn') Demo.road Demo.leant (.inl rfl)
  have hc : dot3 Demo.road.plane.normal Demo.leant.linear.c1 = 4 / 5 := by norm_num [dot3, Demo.road, Demo.leant]
  have hh : dot3 (minus Demo.leant.trans Demo.road.plane.origin) Demo.road.plane.normal = 0 := by
    norm_num [dot3, minus, Demo.road, Demo.leant]
  have hq : √(1 - (4 / 5 : ℝ) ^ 2) = 3 / 5 := by
    rw [show (1 - (4 / 5 : ℝ) ^ 2) = (3 / 5) ^ 2 by norm_num]; exact Real.sqrt_sq (by norm_num)
  have hf : along Demo.leant.trans (-0) Demo.road.plane.normal = ⟨0, 0, 0⟩ := by
    norm_num [along, Demo.road, Demo.leant]
  have hu : along ⟨0, 0, 0⟩ (1 / (3 / 5)) (along Demo.leant.linear.c1 (-(4 / 5)) Demo.road.plane.normal) = ⟨0, 1, 0⟩ := by
    norm_num [along, Demo.road, Demo.leant]
  have hx : along ⟨0, 0, 0⟩ (1 / (3 / 5)) (cross3 Demo.leant.linear.c1 Demo.road.plane.normal) = ⟨1, 0, 0⟩ := by
    norm_num [along, cross3, Demo.road, Demo.leant]
  have := C150_lean_partial hn hv h1 hp Demo.road_make hs
  dsimp only at this
  rw [hc, hh, hq, hf, hu, hx] at this
  obtain ⟨-, a, e1, e2⟩ := this (by norm_num; exact heps)
  refine ⟨s, s', b, a, h1, hs, e1, e2.trans (le_of_eq ?_)⟩
  have k1 : |(4 / 5 : ℝ) / (3 / 5)| = 4 / 3 := by rw [abs_of_pos] <;> norm_num
  rw [k1, show (2 * 1 ^ 2 + 4 * (1 / 4) * (4 / 3) * (|0 / (3 / 5)| + 4 / 3 * (1 / 4)) : ℝ) = 22 / 9 by norm_num,
    show (Scalar.eps : ℝ) / (1 - (4 / 5) ^ 2) = 25 / 9 * Scalar.eps by ring]
  ring

end Enve
