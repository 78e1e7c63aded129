import Verif.Base.Binary64

/-! # Rounding keeps the order of two numbers -/

namespace Enve
open Scalar

namespace B64

theorem nearestEven_mono {q r : ℝ} (h : q ≤ r) : nearestEven q ≤ nearestEven r := by
  have hf : ⌊q⌋ ≤ ⌊r⌋ := Int.floor_le_floor h
  rcases hf.lt_or_eq with hlt | heq
  · have h1 : nearestEven q ≤ ⌊q⌋ + 1 := by unfold nearestEven; split_ifs <;> omega
    have h2 : ⌊r⌋ ≤ nearestEven r := by unfold nearestEven; split_ifs <;> omega
    omega
  · have hfr : Int.fract q ≤ Int.fract r := by
      simp only [Int.fract, heq]; linarith
    unfold nearestEven
    rw [heq]
    split_ifs <;> first | omega | (exfalso; linarith)

theorem rep_two_zpow {k : ℤ} (hk : -1074 ≤ k) : Rep ((2 : ℝ) ^ k) := ⟨1, k, by simp, by norm_num, hk⟩

/-- Two positive numbers. -/
theorem near_mono_pos {x y : ℝ} (hx : 0 < x) (h : x ≤ y) : near x ≤ near y := by
  have hy : 0 < y := hx.trans_le h
  have hlog : Int.log 2 |x| ≤ Int.log 2 |y| := by
    rw [abs_of_pos hx, abs_of_pos hy]; exact Int.log_mono_right hx h
  by_cases hu : ulp x = ulp y
  · have hp : 0 < ulp y := by unfold ulp; positivity
    unfold near
    rw [hu]
    have := nearestEven_mono (div_le_div_of_nonneg_right h hp.le)
    exact mul_le_mul_of_nonneg_right (by exact_mod_cast this) hp.le
  · have hlt : Max.max (Int.log 2 |x| - 52) (-1074) < Max.max (Int.log 2 |y| - 52) (-1074) := by
      refine lt_of_le_of_ne (max_le_max (by omega) le_rfl) fun he => hu ?_
      unfold ulp; rw [he]
    have hl : Int.log 2 |x| < Int.log 2 |y| ∧ -1074 ≤ Int.log 2 |y| := by omega
    rw [abs_of_pos hx, abs_of_pos hy] at hl
    have hg := rep_two_zpow hl.2
    have h1 : x ≤ (2 : ℝ) ^ Int.log 2 y := by
      have h2 : x < (2 : ℝ) ^ (Int.log 2 x + 1) := by
        have := Int.lt_zpow_succ_log_self (b := 2) (by norm_num) x
        exact_mod_cast this
      exact h2.le.trans (zpow_le_zpow_right₀ (by norm_num) (by omega))
    have h3 : (2 : ℝ) ^ Int.log 2 y ≤ y := by
      have := Int.zpow_log_le_self (b := 2) (by norm_num) hy
      exact_mod_cast this
    exact (near_le hg h1).trans (near_neg_le hg h3)

theorem near_neg (x : ℝ) : near (-x) = -near x := by
  have key (q : ℝ) : nearestEven (-q) = -nearestEven q := by
    have hf := Int.floor_add_fract q
    have h0 := Int.fract_nonneg q
    have h1 := Int.fract_lt_one q
    by_cases hz : Int.fract q = 0
    · have hq : q = (⌊q⌋ : ℤ) := by linarith
      rw [nearestEven_eq (q := -q) (n := -⌊q⌋) (by push_cast; rw [← hq]; simp),
        nearestEven_eq (q := q) (n := ⌊q⌋) (by rw [← hq]; simp)]
    · have hp : 0 < Int.fract q := lt_of_le_of_ne h0 (Ne.symm hz)
      have hfl : ⌊-q⌋ = -⌊q⌋ - 1 := by
        rw [Int.floor_eq_iff]; push_cast; constructor <;> linarith
      have hfr : Int.fract (-q) = 1 - Int.fract q := by
        rw [Int.fract, hfl]; push_cast; linarith
      unfold nearestEven
      rw [hfl, hfr]
      split_ifs <;> first | omega | (exfalso; linarith)
  unfold near
  have hu : ulp (-x) = ulp x := by unfold ulp; rw [abs_neg]
  rw [hu, neg_div, key]; push_cast; ring

/-- **Rounding is monotone.** -/
theorem near_mono {x y : ℝ} (h : x ≤ y) : near x ≤ near y := by
  rcases lt_trichotomy x 0 with hx | hx | hx
  · rcases lt_or_ge y 0 with hy | hy
    · have := near_mono_pos (x := -y) (y := -x) (by linarith) (by linarith)
      rw [near_neg, near_neg] at this; linarith
    · exact (near_le rep_zero hx.le).trans (near_neg_le rep_zero hy)
  · rw [hx, near_zero]; exact near_neg_le rep_zero (by linarith)
  · exact near_mono_pos hx h

/-- Rounding two numbers with `x ≤ y` gives doubles that compare the same way, also if one or both are infinite. -/
theorem round_mono {x y : ℝ} (h : x ≤ y) : (round (.fin x) <=. round (.fin y)) = true := by
  have hn := near_mono h
  show (B64.mk (if _ then _ else if _ then _ else _) <=. B64.mk (if _ then _ else if _ then _ else _)) = true
  have hp : (0 : ℝ) < 2 ^ (1024 : ℤ) := by positivity
  split_ifs <;> first | rfl | (exfalso; linarith) | exact decide_eq_true hn

end B64
end Enve
