import Verif.Props.BuildProps

/-! How rounding errors pass through the profile `R_x (1 - (|y| / R_y)^M_y)^(1 / M_x)`. -/

namespace Enve.Radius

open B64

/-- A relative error of a base, after the power. -/
theorem rpow_rel {δ s : ℝ} (hδ : |δ| ≤ 1 / 2) (hs : 0 ≤ s) (h : s * |δ| ≤ 1 / 2) :
    |(1 + δ) ^ s - 1| ≤ 2 * (s * |δ|) := by
  have hb := abs_le.1 hδ
  have hpos : 0 < 1 + δ := by linarith [hb.1]
  have hab : 0 ≤ |δ| := abs_nonneg δ
  rw [Real.rpow_def_of_pos hpos]
  have h1 : Real.log (1 + δ) ≤ |δ| := by
    have := Real.log_le_sub_one_of_pos hpos
    have := le_abs_self δ
    linarith
  have h2 : -(2 * |δ|) ≤ Real.log (1 + δ) := by
    have h3 := Real.one_sub_inv_le_log_of_pos hpos
    have h4 : (1 + δ)⁻¹ ≤ 1 + 2 * |δ| := by
      rw [inv_le_iff_one_le_mul₀ hpos]
      rcases abs_cases δ with ⟨e, -⟩ | ⟨e, -⟩ <;> rw [e] at hab ⊢ <;> nlinarith [hb.1, hb.2]
    linarith
  rw [abs_le]
  constructor
  · have h3 := Real.add_one_le_exp (Real.log (1 + δ) * s)
    nlinarith
  · have h4 : Real.exp (Real.log (1 + δ) * s) ≤ Real.exp (s * |δ|) :=
      Real.exp_le_exp.2 (by nlinarith)
    have h5 : Real.exp (s * |δ|) ≤ 1 + 2 * (s * |δ|) := by
      have h6 : 0 ≤ s * |δ| := mul_nonneg hs hab
      have h7 := Real.add_one_le_exp (-(s * |δ|))
      have h8 : Real.exp (s * |δ|) * Real.exp (-(s * |δ|)) = 1 := by rw [← Real.exp_add]; simp
      have h9 := Real.exp_pos (s * |δ|)
      have h10 : Real.exp (s * |δ|) * (1 - s * |δ|) ≤ 1 := by nlinarith
      have h11 : (1 + 2 * (s * |δ|)) * (1 - s * |δ|) ≥ 1 := by nlinarith
      nlinarith
    linarith

/-- A small exponent. -/
theorem rpow_small {d z L : ℝ} (hd : 0 < d) (hd1 : d ≤ 1) (hL : -L ≤ Real.log d) (h : L * |z| ≤ 1 / 2) :
    |d ^ z - 1| ≤ 2 * (L * |z|) := by
  rw [Real.rpow_def_of_pos hd]
  have h0 : Real.log d ≤ 0 := Real.log_nonpos hd.le hd1
  have h1 : |Real.log d * z| ≤ L * |z| := by
    rw [abs_mul, abs_of_nonpos h0]
    exact mul_le_mul_of_nonneg_right (by linarith) (abs_nonneg z)
  have h2 : |Real.log d * z| ≤ 1 := by linarith
  have := Real.abs_exp_sub_one_le h2
  linarith

theorem near_rel {x : ℝ} (hx : (2 : ℝ) ^ (-1022 : ℤ) ≤ x) : |near x - x| ≤ x / 2 ^ 52 := by
  have h0 : 0 < x := lt_of_lt_of_le (by positivity) hx
  have h := near_error x
  have e : (2 : ℝ) ^ (-1075 : ℤ) = 2 ^ (-1022 : ℤ) * 2 ^ (-53 : ℤ) := by
    rw [← zpow_add₀ (by norm_num)]; norm_num
  rw [abs_of_pos h0, e] at h
  have e53 : (2 : ℝ) ^ (-53 : ℤ) = 1 / 2 ^ 53 := by norm_num
  rw [e53] at h
  have h2 : (2 : ℝ) ^ (-1022 : ℤ) * (1 / 2 ^ 53) ≤ x * (1 / 2 ^ 53) := mul_le_mul_of_nonneg_right hx (by positivity)
  have h3 : x / 2 ^ 52 = x * (1 / 2 ^ 53) + x * (1 / 2 ^ 53) := by ring
  linarith

theorem near_unit {x : ℝ} (h0 : 0 ≤ x) (h1 : x ≤ 1) : |near x - x| ≤ 1 / 2 ^ 52 := by
  have h := near_error x
  have e : (2 : ℝ) ^ (-1075 : ℤ) ≤ 2 ^ (-53 : ℤ) := zpow_le_zpow_right₀ (by norm_num) (by norm_num)
  have e53 : (2 : ℝ) ^ (-53 : ℤ) = 1 / 2 ^ 53 := by norm_num
  rw [e53] at e h
  rw [abs_of_nonneg h0] at h
  have h2 : x * (1 / 2 ^ 53) ≤ 1 * (1 / 2 ^ 53) := mul_le_mul_of_nonneg_right h1 (by positivity)
  have h3 : (1 : ℝ) / 2 ^ 52 = 1 * (1 / 2 ^ 53) + 1 / 2 ^ 53 := by norm_num
  linarith

/-- The power of the rounded ratio. -/
theorem power_err {x my : ℝ} (h0 : 0 ≤ x) (h1 : x ≤ 1) (hm : 1 / 16 ≤ my) (hm' : my ≤ 2 ^ 10) :
    |near x ^ my - x ^ my| ≤ my / 2 ^ 51 := by
  have hmy : 0 < my := by linarith
  rcases le_total ((2 : ℝ) ^ (-1022 : ℤ)) x with hx | hx
  · have hpos : 0 < x := lt_of_lt_of_le (by positivity) hx
    have h := near_rel hx
    obtain ⟨δ, hδ⟩ : ∃ δ, δ = (near x - x) / x := ⟨_, rfl⟩
    have hd : |δ| ≤ 1 / 2 ^ 52 := by
      rw [hδ, abs_div, abs_of_pos hpos, div_le_iff₀ hpos]
      linarith
    have e : near x = x * (1 + δ) := by rw [hδ]; field_simp; ring
    have hb := abs_le.1 hd
    have h2 : (0 : ℝ) ≤ 1 + δ := by norm_num at hb ⊢; linarith [hb.1]
    have hmd : my * |δ| ≤ my * (1 / 2 ^ 52) := mul_le_mul_of_nonneg_left hd hmy.le
    have h3 := rpow_rel (δ := δ) (s := my) (hd.trans (by norm_num)) hmy.le (hmd.trans (by norm_num at hm' ⊢; linarith))
    rw [e, Real.mul_rpow h0 h2, show x ^ my * (1 + δ) ^ my - x ^ my = x ^ my * ((1 + δ) ^ my - 1) by ring, abs_mul,
      abs_of_nonneg (Real.rpow_nonneg h0 _)]
    have h4 : x ^ my ≤ 1 := Real.rpow_le_one h0 h1 hmy.le
    calc x ^ my * |(1 + δ) ^ my - 1| ≤ 1 * |(1 + δ) ^ my - 1| := mul_le_mul_of_nonneg_right h4 (abs_nonneg _)
      _ ≤ 2 * (my * |δ|) := by rw [one_mul]; exact h3
      _ ≤ 2 * (my * (1 / 2 ^ 52)) := by linarith
      _ = my / 2 ^ 51 := by ring
  · have hn : near x ≤ (2 : ℝ) ^ (-1022 : ℤ) := near_le (rep_zpow (by norm_num)) hx
    have hn0 : 0 ≤ near x := near_neg_le rep_zero h0
    have key : ∀ z : ℝ, 0 ≤ z → z ≤ (2 : ℝ) ^ (-1022 : ℤ) → z ^ my ≤ 1 / 2 ^ 60 := by
      intro z hz hz'
      have hz1 : z ≤ 1 := hz'.trans (zpow_le_one_of_nonpos₀ (by norm_num) (by norm_num))
      calc z ^ my ≤ z ^ (1 / 16 : ℝ) := by
            rcases hz.eq_or_lt with h | h
            · rw [← h, Real.zero_rpow hmy.ne', Real.zero_rpow (by norm_num)]
            · exact Real.rpow_le_rpow_of_exponent_ge h hz1 hm
        _ ≤ ((2 : ℝ) ^ (-1022 : ℤ)) ^ (1 / 16 : ℝ) := Real.rpow_le_rpow hz hz' (by norm_num)
        _ ≤ ((2 : ℝ) ^ (-960 : ℤ)) ^ (1 / 16 : ℝ) := Real.rpow_le_rpow (by positivity)
            (zpow_le_zpow_right₀ (by norm_num) (by norm_num)) (by norm_num)
        _ = 1 / 2 ^ 60 := by
            rw [← Real.rpow_intCast, ← Real.rpow_mul (by norm_num), show (((-960 : ℤ) : ℝ) * (1 / 16)) = ((-60 : ℤ) : ℝ) by
              push_cast; norm_num, Real.rpow_intCast]
            norm_num
    have k1 := key _ hn0 hn
    have k2 := key _ h0 hx
    have k3 := Real.rpow_nonneg hn0 my
    have k4 := Real.rpow_nonneg h0 my
    have k5 : (1 : ℝ) / 2 ^ 60 ≤ my / 2 ^ 51 := by
      rw [div_le_div_iff₀ (by positivity) (by positivity)]
      norm_num; linarith
    rw [abs_le]
    constructor <;> linarith

end Enve.Radius
