import Verif.Lemmas.RoadArea

/-! # The length of a road of straight pieces in a disk -/

namespace Enve.RoadArea

open Spec MeasureTheory

/-- The length of the part of a straight piece of road in the disk. -/
def LengthIn (R : ℝ) (road : ℝ → ℝ) (l u a : ℝ) : Prop :=
  (∀ x, l ≤ x → x ≤ u → R ^ 2 < x ^ 2 + road x ^ 2) ∧ a = 0 ∨
  ∃ p q, l ≤ p ∧ p ≤ q ∧ q ≤ u ∧ (∀ x, l ≤ x → x ≤ u → (x ^ 2 + road x ^ 2 ≤ R ^ 2 ↔ p ≤ x ∧ x ≤ q)) ∧
    a = √((q - p) ^ 2 + (road q - road p) ^ 2)

/-- The integrand of the length, zero outside the disk. -/
noncomputable def speed (R : ℝ) (road : ℝ → ℝ) : ℝ → ℝ :=
  {x | x ^ 2 + road x ^ 2 ≤ R ^ 2}.indicator fun x => √(1 + deriv road x ^ 2)

theorem speed_out {R : ℝ} {road : ℝ → ℝ} {x : ℝ} (h : R ^ 2 < x ^ 2 + road x ^ 2) : speed R road x = 0 := by
  rw [speed, Set.indicator_of_notMem]
  exact not_le.2 h

/-- A function constant inside an interval. -/
theorem const_on {f : ℝ → ℝ} {a b c : ℝ} (hab : a ≤ b) (h : ∀ x, a < x → x < b → f x = c) :
    IntervalIntegrable f volume a b ∧ ∫ x in a..b, f x = (b - a) * c := by
  have he : Set.EqOn f (fun _ => c) (Set.uIoo a b) := by
    rw [Set.uIoo_of_le hab]; exact fun x hx => h x hx.1 hx.2
  refine ⟨(intervalIntegrable_congr_uIoo he).2 intervalIntegrable_const, ?_⟩
  rw [intervalIntegral.integral_congr_uIoo he]; simp

theorem LengthIn.integral {R : ℝ} {road : ℝ → ℝ} {l u a : ℝ} (h : LengthIn R road l u a) (hlu : l < u) (hs : Straight road l u) :
    IntervalIntegrable (speed R road) volume l u ∧ ∫ x in l..u, speed R road x = a := by
  rcases h with ⟨h, rfl⟩ | ⟨p, q, hlp, hpq, hqu, hin, rfl⟩
  · obtain ⟨h1, h2⟩ := const_on (f := speed R road) (c := 0) hlu.le fun x h1 h2 => speed_out (h x h1.le h2.le)
    exact ⟨h1, by rw [h2, mul_zero]⟩
  · obtain ⟨k, ek⟩ : ∃ k, k = (road u - road l) / (u - l) := ⟨_, rfl⟩
    have haff : ∀ x, l ≤ x → x ≤ u → road x = road l + k * (x - l) := fun x h1 h2 => by rw [ek]; exact hs.affine hlu h1 h2
    have hder : ∀ x, l < x → x < u → deriv road x = k := by
      intro x h1 h2
      have he : road =ᶠ[nhds x] fun y => road l + k * (y - l) := by
        filter_upwards [Ioo_mem_nhds h1 h2] with y hy
        exact haff y hy.1.le hy.2.le
      rw [he.deriv_eq]
      simp
    obtain ⟨i1, e1⟩ := const_on (f := speed R road) (c := 0) hlp fun x h1 h2 => speed_out (by
      by_contra hc
      have := (hin x h1.le (h2.le.trans (hpq.trans hqu))).1 (not_lt.1 hc)
      linarith [this.1])
    obtain ⟨i2, e2⟩ := const_on (f := speed R road) (c := √(1 + k ^ 2)) hpq fun x h1 h2 => by
      rw [speed, Set.indicator_of_mem, hder x (hlp.trans_lt h1) (h2.trans_le hqu)]
      exact (hin x (hlp.trans h1.le) (h2.le.trans hqu)).2 ⟨h1.le, h2.le⟩
    obtain ⟨i3, e3⟩ := const_on (f := speed R road) (c := 0) hqu fun x h1 h2 => speed_out (by
      by_contra hc
      have := (hin x (hlp.trans (hpq.trans h1.le)) h2.le).1 (not_lt.1 hc)
      linarith [this.2])
    refine ⟨(i1.trans i2).trans i3, ?_⟩
    rw [← intervalIntegral.integral_add_adjacent_intervals (i1.trans i2) i3, ← intervalIntegral.integral_add_adjacent_intervals i1 i2,
      e1, e2, e3, haff p hlp (hpq.trans hqu), haff q (hlp.trans hpq) hqu,
      show (q - p) ^ 2 + (road l + k * (q - l) - (road l + k * (p - l))) ^ 2 = (q - p) ^ 2 * (1 + k ^ 2) by ring,
      Real.sqrt_mul (sq_nonneg _), Real.sqrt_sq (by linarith)]
    ring

/-- **The sum over the sections is the length of the road in the disk.** -/
theorem sum_length {R : ℝ} {road : ℝ → ℝ} (hR : 0 < R) (hc : Continuous road) {n : ℕ}
    {x a : ℕ → ℝ} (hx : ∀ i < n, x i < x (i + 1)) (h0 : x 0 ≤ -R) (hn : R ≤ x n) (hs : ∀ i < n, Straight road (x i) (x (i + 1)))
    (ha : ∀ i < n, LengthIn R road (x i) (x (i + 1)) (a i)) : ∑ i ∈ Finset.range n, a i = roadLength R road := by
  have hi : ∀ k < n, IntervalIntegrable (speed R road) volume (x k) (x (k + 1)) := fun k hk => ((ha k hk).integral (hx k hk) (hs k hk)).1
  have e1 : ∑ i ∈ Finset.range n, a i = ∑ i ∈ Finset.range n, ∫ t in x i..x (i + 1), speed R road t :=
    Finset.sum_congr rfl fun i hi => ((ha i (Finset.mem_range.1 hi)).integral (hx i (Finset.mem_range.1 hi)) (hs i (Finset.mem_range.1 hi))).2.symm
  have hm : MeasurableSet {x | x ^ 2 + road x ^ 2 ≤ R ^ 2} := (isClosed_le (by fun_prop) (by fun_prop)).measurableSet
  rw [e1, intervalIntegral.sum_integral_adjacent_intervals hi, roadLength, ← integral_indicator hm,
    intervalIntegral.integral_of_le (by linarith), ← integral_Icc_eq_integral_Ioc]
  refine setIntegral_eq_integral_of_forall_compl_eq_zero fun y hy => speed_out ?_
  by_contra hcon
  have := in_range hR (not_lt.1 hcon)
  exact hy ⟨h0.trans this.1, this.2.trans hn⟩

end Enve.RoadArea
