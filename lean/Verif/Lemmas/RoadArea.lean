import Verif.Spec.RoadCut
import Verif.Props.AreaProps
import Mathlib.Analysis.SpecialFunctions.Complex.Arg
import Mathlib.Analysis.SpecialFunctions.Integrals.Basic

/-! # The area of a disk below a polygonal road as a sum over the sections -/

namespace Enve.RoadArea
open Spec MeasureTheory

/-- The height of the road above the lower half circle, where the road is in the disk. -/
noncomputable def gap (R : ℝ) (road : ℝ → ℝ) (x : ℝ) : ℝ :=
  if x ^ 2 + road x ^ 2 ≤ R ^ 2 then road x + √(R ^ 2 - x ^ 2) else 0

/-- The direction of a point of the road. -/
noncomputable def dir (road : ℝ → ℝ) (x : ℝ) : ℝ := Complex.arg ⟨x, road x⟩

/-- The sector between two directions less the triangle to the centre. -/
noncomputable def swept (R : ℝ) (road : ℝ → ℝ) (p q : ℝ) : ℝ :=
  R ^ 2 * (dir road q - dir road p) / 2 - (p * road q - q * road p) / 2

/-- What the partial sums add up to. -/
noncomputable def rest (R : ℝ) (road : ℝ → ℝ) (x : ℝ) : ℝ :=
  if x ^ 2 + road x ^ 2 ≤ R ^ 2 then (R ^ 2 * dir road x - primSeg R x - x * road x) / 2 else 0

theorem arg_lower {x z R : ℝ} (hR : 0 < R) (hz : z < 0) (h : x ^ 2 + z ^ 2 = R ^ 2) : Complex.arg ⟨x, z⟩ = -Real.arccos (x / R) := by
  rw [Complex.arg_of_im_neg (by simpa using hz)]
  have : ‖(⟨x, z⟩ : ℂ)‖ = R := by
    rw [Complex.norm_def, Complex.normSq_mk, show x * x + z * z = R ^ 2 by linarith, Real.sqrt_sq hR.le]
  rw [this]

/-- On the circle nothing is left. -/
theorem rest_circle {R x : ℝ} {road : ℝ → ℝ} (hR : 0 < R) (hz : road x < 0) (h : x ^ 2 + road x ^ 2 = R ^ 2) : rest R road x = 0 := by
  rw [rest, if_pos h.le, dir, arg_lower hR hz h, primSeg, show R ^ 2 - x ^ 2 = (-road x) ^ 2 by linarith, Real.sqrt_sq (by linarith)]
  ring

theorem integral_half {R p q : ℝ} (h1 : -R ≤ p) (hpq : p ≤ q) (h2 : q ≤ R) :
    ∫ t in p..q, √(R ^ 2 - t ^ 2) = (primSeg R q - primSeg R p) / 2 := by
  have := intervalIntegral.integral_eq_sub_of_hasDerivAt_of_le (f := primSeg R) (f' := fun t => 2 * √(R ^ 2 - t ^ 2)) hpq
    (primSeg_continuous R).continuousOn (fun t ht => primSeg_deriv (h1.trans_lt ht.1) (ht.2.trans_le h2))
    (Continuous.intervalIntegrable (by fun_prop) _ _)
  rw [intervalIntegral.integral_const_mul] at this
  linarith

/-- The road is straight from `l` to `u`. -/
def Straight (road : ℝ → ℝ) (l u : ℝ) : Prop := ∀ s, 0 ≤ s → s ≤ 1 → road ((1 - s) * l + s * u) = (1 - s) * road l + s * road u

theorem Straight.affine {road : ℝ → ℝ} {l u : ℝ} (h : Straight road l u) (hlu : l < u) {x : ℝ} (h1 : l ≤ x) (h2 : x ≤ u) :
    road x = road l + (road u - road l) / (u - l) * (x - l) := by
  have hd : 0 < u - l := by linarith
  have := h ((x - l) / (u - l)) (div_nonneg (by linarith) hd.le) (by rw [div_le_one hd]; linarith)
  rw [show (1 - (x - l) / (u - l)) * l + (x - l) / (u - l) * u = x by field_simp; ring] at this
  rw [this]; field_simp; ring

/-- The part of a section in the disk, and the value it adds. -/
def Part (R : ℝ) (road : ℝ → ℝ) (l u v : ℝ) : Prop :=
  ((∀ x, l ≤ x → x ≤ u → R ^ 2 < x ^ 2 + road x ^ 2) ∧ v = 0) ∨
  ∃ p q, l ≤ p ∧ p ≤ q ∧ q ≤ u ∧ (∀ x, l ≤ x → x ≤ u → (x ^ 2 + road x ^ 2 ≤ R ^ 2 ↔ p ≤ x ∧ x ≤ q)) ∧ v = swept R road p q

theorem in_range {R x z : ℝ} (hR : 0 < R) (h : x ^ 2 + z ^ 2 ≤ R ^ 2) : -R ≤ x ∧ x ≤ R :=
  abs_le.1 (abs_le_of_sq_le_sq (by nlinarith [sq_nonneg z]) hR.le)

/-- A section between its ends: the value it adds is the integral, up to the rest. -/
theorem Part.integral {R : ℝ} {road : ℝ → ℝ} {l u v : ℝ} (hR : 0 < R) (hlow : ∀ x, -R ≤ x → x ≤ R → road x < 0) (hc : Continuous road)
    (hlu : l < u) (hs : Straight road l u) (h : Part R road l u v) :
    IntervalIntegrable (gap R road) volume l u ∧ v = (∫ x in l..u, gap R road x) + rest R road u - rest R road l := by
  rcases h with ⟨hout, rfl⟩ | ⟨p, q, h1, h2, h3, hpq, rfl⟩
  · have e : ∀ x ∈ Set.uIcc l u, gap R road x = 0 := by
      intro x hx
      rw [Set.uIcc_of_le hlu.le] at hx
      rw [gap, if_neg (not_le.2 (hout x hx.1 hx.2))]
    constructor
    · refine (intervalIntegrable_const (c := (0 : ℝ))).congr ?_
      intro x hx
      exact (e x (Set.uIoc_subset_uIcc hx)).symm
    · rw [intervalIntegral.integral_congr (g := fun _ => (0 : ℝ)) e, rest, rest, if_neg (not_le.2 (hout u hlu.le le_rfl)),
        if_neg (not_le.2 (hout l le_rfl hlu.le))]
      simp
  · have hp := (hpq p h1 (h2.trans h3)).2 ⟨le_rfl, h2⟩
    have hq := (hpq q (h1.trans h2) h3).2 ⟨h2, le_rfl⟩
    obtain ⟨p1, -⟩ := in_range hR hp
    obtain ⟨-, q2⟩ := in_range hR hq
    have hcont : Continuous fun x => road x + √(R ^ 2 - x ^ 2) := by fun_prop
    have i1 : ∀ x ∈ Set.uIoc l p, gap R road x = if x = p then gap R road p else 0 := by
      intro x hx
      rw [Set.uIoc_of_le h1] at hx
      split
      · rename_i hh; rw [hh]
      · rename_i hne
        rw [gap, if_neg fun hh => hne (le_antisymm hx.2 ((hpq x hx.1.le (hx.2.trans (h2.trans h3))).1 hh).1)]
    have i3 : ∀ x ∈ Set.uIoc q u, gap R road x = 0 := by
      intro x hx
      rw [Set.uIoc_of_le h3] at hx
      rw [gap, if_neg fun hh => absurd ((hpq x ((h1.trans h2).trans hx.1.le) hx.2).1 hh).2 (not_le.2 hx.1)]
    have i2 : ∀ x ∈ Set.uIcc p q, gap R road x = road x + √(R ^ 2 - x ^ 2) := by
      intro x hx
      rw [Set.uIcc_of_le h2] at hx
      rw [gap, if_pos ((hpq x (h1.trans hx.1) (hx.2.trans h3)).2 hx)]
    have a1 : (gap R road) =ᵐ[volume.restrict (Set.uIoc l p)] fun _ => 0 := by
      rw [Filter.EventuallyEq, ae_restrict_iff' measurableSet_uIoc]
      have : ∀ᵐ x : ℝ, x ≠ p := by simp [ae_iff]
      filter_upwards [this] with x hx hm
      rw [i1 x hm, if_neg hx]
    have b1 : IntervalIntegrable (gap R road) volume l p :=
      (intervalIntegrable_const (c := (0 : ℝ))).congr_ae a1.symm
    have b3 : IntervalIntegrable (gap R road) volume q u :=
      (intervalIntegrable_const (c := (0 : ℝ))).congr fun x hx => (i3 x hx).symm
    have b2 : IntervalIntegrable (gap R road) volume p q :=
      (hcont.intervalIntegrable _ _).congr fun x hx => (i2 x (Set.uIoc_subset_uIcc hx)).symm
    refine ⟨(b1.trans b2).trans b3, ?_⟩
    rw [← intervalIntegral.integral_add_adjacent_intervals (b1.trans b2) b3,
      ← intervalIntegral.integral_add_adjacent_intervals b1 b2]
    have e1 : ∫ x in l..p, gap R road x = 0 := by
      rw [intervalIntegral.integral_congr_ae_restrict a1]; simp
    have e3 : ∫ x in q..u, gap R road x = 0 := by
      rw [intervalIntegral.integral_congr_ae (g := fun _ => (0 : ℝ)) (Filter.Eventually.of_forall i3)]; simp
    have e2 : ∫ x in p..q, gap R road x = (road p + road q) * (q - p) / 2 + (primSeg R q - primSeg R p) / 2 := by
      rw [intervalIntegral.integral_congr i2, intervalIntegral.integral_add (hc.intervalIntegrable _ _)
        (Continuous.intervalIntegrable (by fun_prop) _ _), integral_half p1 h2 q2]
      congr 1
      have e : ∀ x ∈ Set.uIcc p q, road x = road l + (road u - road l) / (u - l) * (x - l) := by
        intro x hx
        rw [Set.uIcc_of_le h2] at hx
        exact hs.affine hlu (h1.trans hx.1) (hx.2.trans h3)
      rw [e p Set.left_mem_uIcc, e q Set.right_mem_uIcc, intervalIntegral.integral_congr e]
      generalize (road u - road l) / (u - l) = k
      rw [intervalIntegral.integral_add (by simp) (Continuous.intervalIntegrable (by fun_prop) _ _),
        intervalIntegral.integral_const_mul, intervalIntegral.integral_sub (Continuous.intervalIntegrable (by fun_prop) _ _)
          (Continuous.intervalIntegrable (by fun_prop) _ _), integral_id]
      simp
      ring
    rw [e1, e2, e3]
    -- the ends
    have kp : (R ^ 2 * dir road p - primSeg R p - p * road p) / 2 = rest R road l := by
      by_cases hl : l ^ 2 + road l ^ 2 ≤ R ^ 2
      · have : p = l := le_antisymm ((hpq l le_rfl hlu.le).1 hl).1 h1
        rw [this, rest, if_pos hl]
      · have hlp : l < p := lt_of_le_of_ne h1 (by rintro rfl; exact hl hp)
        have hcirc : p ^ 2 + road p ^ 2 = R ^ 2 := by
          refine le_antisymm hp ?_
          by_contra hlt
          push Not at hlt
          have hev : ∀ᶠ x in nhdsWithin p (Set.Iio p), x ^ 2 + road x ^ 2 < R ^ 2 :=
            ((by fun_prop : Continuous fun x => x ^ 2 + road x ^ 2).continuousAt.eventually_lt continuousAt_const hlt).filter_mono
              nhdsWithin_le_nhds
          obtain ⟨x, hx, hx2⟩ := (hev.and (Ioo_mem_nhdsLT hlp)).exists
          exact absurd ((hpq x hx2.1.le (hx2.2.le.trans (h2.trans h3))).1 hx.le).1 (not_le.2 hx2.2)
        have e := rest_circle hR (hlow p p1 (h2.trans q2)) hcirc
        rw [rest, if_pos hp] at e
        rw [rest, if_neg hl]; exact e
    have kq : (R ^ 2 * dir road q - primSeg R q - q * road q) / 2 = rest R road u := by
      by_cases hl : u ^ 2 + road u ^ 2 ≤ R ^ 2
      · have : q = u := le_antisymm h3 ((hpq u hlu.le le_rfl).1 hl).2
        rw [this, rest, if_pos hl]
      · have hlp : q < u := lt_of_le_of_ne h3 (by rintro rfl; exact hl hq)
        have hcirc : q ^ 2 + road q ^ 2 = R ^ 2 := by
          refine le_antisymm hq ?_
          by_contra hlt
          push Not at hlt
          have hev : ∀ᶠ x in nhdsWithin q (Set.Ioi q), x ^ 2 + road x ^ 2 < R ^ 2 :=
            ((by fun_prop : Continuous fun x => x ^ 2 + road x ^ 2).continuousAt.eventually_lt continuousAt_const hlt).filter_mono
              nhdsWithin_le_nhds
          obtain ⟨x, hx, hx2⟩ := (hev.and (Ioo_mem_nhdsGT hlp)).exists
          exact absurd ((hpq x ((h1.trans h2).trans hx2.1.le) hx2.2.le).1 hx.le).2 (not_le.2 hx2.1)
        have e := rest_circle hR (hlow q (p1.trans h2) q2) hcirc
        rw [rest, if_pos hq] at e
        rw [rest, if_neg hl]; exact e
    rw [← kp, ← kq, swept]
    ring

/-- The area of the disk below the road as an integral. -/
theorem areaBelow_eq {R : ℝ} {road : ℝ → ℝ} (hR : 0 < R) (hlow : ∀ x, -R ≤ x → x ≤ R → road x < 0) (hc : Continuous road) :
    areaBelow R road = ∫ x in (-R)..R, gap R road x := by
  have hset : belowRoad R road = regionBetween (fun x => -√(R ^ 2 - x ^ 2)) (fun x => Max.max (-√(R ^ 2 - x ^ 2)) (road x))
      (Set.Ioc (-R) R) := by
    ext ⟨x, z⟩
    simp only [belowRoad, regionBetween, Set.mem_setOf_eq, Set.mem_Ioc, Set.mem_Ioo]
    constructor
    · rintro ⟨h, hz⟩
      have hy : |z| < √(R ^ 2 - x ^ 2) := Real.lt_sqrt_of_sq_lt (by rw [sq_abs]; linarith)
      have hx := abs_lt.1 (abs_lt_of_sq_lt_sq (a := x) (by nlinarith [sq_nonneg z]) hR.le)
      exact ⟨⟨hx.1, hx.2.le⟩, (abs_lt.1 hy).1, lt_max_of_lt_right hz⟩
    · rintro ⟨⟨h1, h2⟩, h3, h4⟩
      have hz : z < road x := by
        rcases lt_max_iff.1 h4 with h | h
        · exact absurd h3 (not_lt.2 h.le)
        · exact h
      have hz0 := hlow x h1.le h2
      have := (Real.lt_sqrt (abs_nonneg z)).1 (show |z| < √(R ^ 2 - x ^ 2) by rw [abs_of_neg (by linarith)]; linarith)
      rw [sq_abs] at this
      exact ⟨by linarith, hz⟩
  unfold areaBelow
  rw [hset, Measure.volume_eq_prod, volume_regionBetween_eq_integral (μ := volume)
    (Continuous.integrableOn_Ioc (by fun_prop)) (Continuous.integrableOn_Ioc (by fun_prop)) measurableSet_Ioc
    (fun x _ => le_max_left _ _), ENNReal.toReal_ofReal]
  · rw [intervalIntegral.integral_of_le (by linarith)]
    refine setIntegral_congr_fun measurableSet_Ioc ?_
    intro x hx
    have hz0 := hlow x hx.1.le hx.2
    have hsq : 0 ≤ R ^ 2 - x ^ 2 := by nlinarith [hx.1, hx.2]
    simp only [Pi.sub_apply, sub_neg_eq_add, gap]
    split
    · rename_i h
      have : -road x ≤ √(R ^ 2 - x ^ 2) := Real.le_sqrt_of_sq_le (by rw [neg_sq]; linarith)
      rw [max_eq_right (by linarith)]
    · rename_i h
      have : √(R ^ 2 - x ^ 2) ≤ -road x := Real.sqrt_le_iff.2 ⟨by linarith, by rw [neg_sq]; linarith⟩
      rw [max_eq_left (by linarith)]; ring
  · refine setIntegral_nonneg measurableSet_Ioc fun x _ => ?_
    simp only [Pi.sub_apply, sub_neg_eq_add]
    linarith [le_max_left (-√(R ^ 2 - x ^ 2)) (road x)]

theorem gap_out {R : ℝ} {road : ℝ → ℝ} {x : ℝ} (h : R ^ 2 < x ^ 2) : gap R road x = 0 := by
  rw [gap, if_neg]; nlinarith [sq_nonneg (road x)]

/-- **The sum over the sections is the area below the road.** -/
theorem sum_swept {R : ℝ} {road : ℝ → ℝ} (hR : 0 < R) (hlow : ∀ x, -R ≤ x → x ≤ R → road x < 0) (hc : Continuous road) {n : ℕ}
    {x v : ℕ → ℝ} (hx : ∀ i < n, x i < x (i + 1)) (h0 : x 0 ≤ -R) (hn : R ≤ x n) (hs : ∀ i < n, Straight road (x i) (x (i + 1)))
    (hv : ∀ i < n, Part R road (x i) (x (i + 1)) (v i)) : ∑ i ∈ Finset.range n, v i = areaBelow R road := by
  have hi : ∀ k < n, IntervalIntegrable (gap R road) volume (x k) (x (k + 1)) :=
    fun k hk => ((hv k hk).integral hR hlow hc (hx k hk) (hs k hk)).1
  have e1 : ∑ i ∈ Finset.range n, v i = ∑ i ∈ Finset.range n, ((∫ t in x i..x (i + 1), gap R road t) + (rest R road (x (i + 1)) -
      rest R road (x i))) := by
    refine Finset.sum_congr rfl fun i hi => ?_
    have hi := Finset.mem_range.1 hi
    rw [((hv i hi).integral hR hlow hc (hx i hi) (hs i hi)).2]; ring
  have hend : ∀ y, R ≤ |y| → rest R road y = 0 := by
    intro y hy
    rw [rest, if_neg]
    intro h
    have h1 := in_range hR h
    have h2 : |y| = R := le_antisymm (abs_le.2 h1) hy
    have h3 := hlow y h1.1 h1.2
    have h4 : y ^ 2 = R ^ 2 := by rw [← sq_abs, h2]
    nlinarith [mul_pos_of_neg_of_neg h3 h3]
  have hI := IntervalIntegrable.trans_iterate hi
  have hx0n : x 0 ≤ x n := by linarith
  rw [e1, Finset.sum_add_distrib, intervalIntegral.sum_integral_adjacent_intervals hi, Finset.sum_range_sub (fun i => rest R road (x i)),
    hend (x n) (hn.trans (le_abs_self _)), hend (x 0) (by rw [abs_of_nonpos (by linarith)]; linarith), sub_zero, add_zero,
    areaBelow_eq hR hlow hc]
  have hsub : ∀ a b : ℝ, x 0 ≤ a → a ≤ b → b ≤ x n → IntervalIntegrable (gap R road) volume a b := fun a b h1 h2 h3 =>
    hI.mono_set (by rw [Set.uIcc_of_le h2, Set.uIcc_of_le hx0n]; exact Set.Icc_subset_Icc h1 h3)
  have z1 : ∫ t in x 0..-R, gap R road t = 0 := by
    have a : (gap R road) =ᵐ[volume.restrict (Set.uIoc (x 0) (-R))] fun _ => 0 := by
      rw [Filter.EventuallyEq, ae_restrict_iff' measurableSet_uIoc]
      have : ∀ᵐ y : ℝ, y ≠ -R := by simp [ae_iff]
      filter_upwards [this] with y hy hm
      rw [Set.uIoc_of_le h0] at hm
      have : y < -R := lt_of_le_of_ne hm.2 hy
      exact gap_out (by nlinarith)
    rw [intervalIntegral.integral_congr_ae_restrict a]; simp
  have z2 : ∫ t in R..x n, gap R road t = 0 := by
    rw [intervalIntegral.integral_congr_ae (g := fun _ => (0 : ℝ)) (Filter.Eventually.of_forall fun y hm => ?_)]
    · simp
    · rw [Set.uIoc_of_le hn] at hm
      exact gap_out (by nlinarith [hm.1])
  rw [← intervalIntegral.integral_add_adjacent_intervals (hsub (x 0) (-R) le_rfl h0 (by linarith)) (hsub (-R) (x n) h0 (by linarith) le_rfl),
    ← intervalIntegral.integral_add_adjacent_intervals (hsub (-R) R h0 (by linarith) hn) (hsub R (x n) (by linarith) hn le_rfl), z1, z2]
  ring

end Enve.RoadArea
