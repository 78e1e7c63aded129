import Verif.Lemmas.Radius

/-! # C104: how accurate the radii of the ribs are -/

namespace Enve

open Scalar Spec B64

namespace Radius

theorem rel_trans {x y z α β : ℝ} (hβ : 0 ≤ β) (h1 : |x - y| ≤ α * y) (h2 : |z - x| ≤ β * x) :
    |z - y| ≤ (α + β + α * β) * y := by
  have h3 := abs_sub_le z x y
  have h4 := (abs_le.1 h1).2
  have h5 : β * x ≤ β * (y + α * y) := mul_le_mul_of_nonneg_left (by linarith) hβ
  nlinarith

/-- The computed radius against the profile. -/
theorem real_err {rx mx my x : ℝ} (hrx : (2 : ℝ) ^ (-100 : ℤ) ≤ rx) (hmx : 1 / 16 ≤ mx) (hmx' : mx ≤ 2 ^ 10)
    (hmy : 1 / 16 ≤ my) (hmy' : my ≤ 2 ^ 10) (h0 : 0 ≤ x) (h1 : x ≤ 1 - 1 / 2 ^ 21) :
    |near (rx * near (near (1 - near (near x ^ my)) ^ near (1 / mx))) - rx * (1 - x ^ my) ^ (1 / mx)| ≤
      ((my + 1) / (mx * (1 - x ^ my)) + 2 ^ 9) / 2 ^ 50 * (rx * (1 - x ^ my) ^ (1 / mx)) := by
  have hmx0 : 0 < mx := by linarith
  have hmy0 : 0 < my := by linarith
  have hrx0 : 0 < rx := lt_of_lt_of_le (by positivity) hrx
  have low : ∀ z : ℝ, 0 ≤ z → z ≤ 1 - 1 / 2 ^ 21 → z ^ my ≤ 1 - 1 / 2 ^ 25 := by
    intro z hz hz1
    calc z ^ my ≤ z ^ (1 / 16 : ℝ) := by
          rcases hz.eq_or_lt with h | h
          · rw [← h, Real.zero_rpow hmy0.ne', Real.zero_rpow (by norm_num)]
          · exact Real.rpow_le_rpow_of_exponent_ge h (hz1.trans (by norm_num)) hmy
      _ ≤ (1 + -(1 / 2 ^ 21)) ^ (1 / 16 : ℝ) := Real.rpow_le_rpow hz (by linarith) (by norm_num)
      _ ≤ 1 + 1 / 16 * -(1 / 2 ^ 21) := rpow_one_add_le_one_add_mul_self (by norm_num) (by norm_num) (by norm_num)
      _ = 1 - 1 / 2 ^ 25 := by norm_num
  have hpe := power_err h0 (h1.trans (by norm_num)) hmy hmy'
  have hX0 : 0 ≤ x ^ my := Real.rpow_nonneg h0 _
  have hX1 := low x h0 h1
  have hq1 : near x ≤ 1 - 1 / 2 ^ 21 := near_le ⟨2 ^ 21 - 1, -21, by norm_num, by norm_num, by norm_num⟩ h1
  have hq0 : 0 ≤ near x := near_neg_le rep_zero h0
  have hQ0 : 0 ≤ near x ^ my := Real.rpow_nonneg hq0 _
  have hQ1 := low _ hq0 hq1
  generalize near x ^ my = Q at *
  generalize x ^ my = X at *
  have ht := near_unit hQ0 (hQ1.trans (by norm_num))
  have ht0 : 0 ≤ near Q := near_neg_le rep_zero hQ0
  have ht1 : near Q ≤ 1 - 1 / 2 ^ 25 := near_le ⟨2 ^ 25 - 1, -25, by norm_num, by norm_num, by norm_num⟩ hQ1
  generalize near Q = t at *
  have hd := near_unit (x := 1 - t) (by linarith [show (0 : ℝ) ≤ 1 / 2 ^ 25 by positivity]) (by linarith)
  have hd0 : 1 / 2 ^ 25 ≤ near (1 - t) := near_neg_le ⟨1, -25, by norm_num, by norm_num, by norm_num⟩ (by linarith)
  have hd1 : near (1 - t) ≤ 1 := near_le rep_one (by linarith)
  generalize near (1 - t) = d at *
  obtain ⟨D, hD⟩ : ∃ D, D = 1 - X := ⟨_, rfl⟩
  rw [← hD]
  have hD0 : 1 / 2 ^ 25 ≤ D := by linarith
  have hDp : 0 < D := lt_of_lt_of_le (by positivity) hD0
  have hdp : 0 < d := lt_of_lt_of_le (by positivity) hd0
  have hdD : |d - D| ≤ (my + 1) / 2 ^ 51 := by
    have e : d - D = (d - (1 - t)) - ((t - Q) + (Q - X)) := by rw [hD]; ring
    rw [e]
    refine (abs_sub _ _).trans ?_
    have := abs_add_le (t - Q) (Q - X)
    have e2 : (my + 1) / 2 ^ 51 = 1 / 2 ^ 52 + (1 / 2 ^ 52 + my / 2 ^ 51) := by ring
    rw [e2]
    linarith
  clear hpe ht hd
  -- the root of the difference
  obtain ⟨s, hs⟩ : ∃ s, s = 1 / mx := ⟨_, rfl⟩
  rw [← hs]
  have hs0 : 0 < s := by rw [hs]; positivity
  have hs1 : s ≤ 16 := by rw [hs, div_le_iff₀ hmx0]; linarith
  have hs2 : 1 / 2 ^ 10 ≤ s := by rw [hs]; exact one_div_le_one_div_of_le hmx0 hmx'
  have hDinv : 1 / D ≤ 2 ^ 25 := by
    rw [div_le_iff₀ hDp]; rw [div_le_iff₀ (by positivity)] at hD0; linarith
  obtain ⟨α, hα⟩ : ∃ α, α = (my + 1) / (mx * D) / 2 ^ 50 := ⟨_, rfl⟩
  have hα0 : 0 ≤ α := by rw [hα]; positivity
  have hα' : α = s * ((my + 1) / 2 ^ 50) * (1 / D) := by rw [hα, hs]; field_simp
  have hα1 : α ≤ 1 / 2 ^ 9 := by
    rw [hα']
    calc s * ((my + 1) / 2 ^ 50) * (1 / D) ≤ 16 * ((2 ^ 10 + 1) / 2 ^ 50) * 2 ^ 25 := by gcongr
      _ ≤ 1 / 2 ^ 9 := by norm_num
  have r1 : |d ^ s - D ^ s| ≤ α * D ^ s := by
    obtain ⟨δ, hδ⟩ : ∃ δ, δ = (d - D) / D := ⟨_, rfl⟩
    have e : d = D * (1 + δ) := by rw [hδ]; field_simp; ring
    have hδ1 : |δ| ≤ (my + 1) / 2 ^ 51 * (1 / D) := by
      rw [hδ, abs_div, abs_of_pos hDp, div_eq_mul_one_div]
      exact mul_le_mul_of_nonneg_right hdD (by positivity)
    have hsd : 2 * (s * |δ|) ≤ α := by
      rw [hα']
      have := mul_le_mul_of_nonneg_left hδ1 hs0.le
      have e2 : s * ((my + 1) / 2 ^ 50) * (1 / D) = 2 * (s * ((my + 1) / 2 ^ 51 * (1 / D))) := by ring
      rw [e2]; linarith
    have hδ2 : |δ| ≤ 1 / 2 := by
      refine hδ1.trans ?_
      calc (my + 1) / 2 ^ 51 * (1 / D) ≤ (2 ^ 10 + 1) / 2 ^ 51 * 2 ^ 25 := by gcongr
        _ ≤ 1 / 2 := by norm_num
    have h3 := rpow_rel hδ2 hs0.le (by linarith [show (1 : ℝ) / 2 ^ 9 ≤ 1 by norm_num])
    have h4 : (0 : ℝ) ≤ 1 + δ := by linarith [(abs_le.1 hδ2).1]
    rw [e, Real.mul_rpow hDp.le h4, show D ^ s * (1 + δ) ^ s - D ^ s = ((1 + δ) ^ s - 1) * D ^ s by ring, abs_mul,
      abs_of_pos (Real.rpow_pos_of_pos hDp s)]
    exact mul_le_mul_of_nonneg_right (h3.trans hsd) (Real.rpow_nonneg hDp.le _)
  -- the rounded exponent
  have hsn : (2 : ℝ) ^ (-1022 : ℤ) ≤ s := by
    refine le_trans ?_ hs2
    rw [show (1 : ℝ) / 2 ^ 10 = 2 ^ (-10 : ℤ) by norm_num]
    exact zpow_le_zpow_right₀ (by norm_num) (by norm_num)
  have he := near_rel hsn
  have he16 : near s ≤ (16 : ℕ) := by
    refine near_le ⟨16, 0, by norm_num, by norm_num, by norm_num⟩ ?_
    push_cast; exact hs1
  generalize near s = e at *
  have he' : |e - s| ≤ 1 / 2 ^ 48 := he.trans (by
    rw [div_le_div_iff₀ (by positivity) (by positivity)]
    norm_num; linarith)
  have hlog : -25 ≤ Real.log d := by
    have h2 := Real.log_le_log (by positivity) hd0
    have h3 : Real.log (1 / 2 ^ 25) = -(25 * Real.log 2) := by
      rw [one_div, Real.log_inv, Real.log_pow]; norm_num
    have := Real.log_le_sub_one_of_pos (show (0 : ℝ) < 2 by norm_num)
    rw [h3] at h2
    linarith
  have hz : 25 * |e - s| ≤ 25 * (1 / 2 ^ 48) := mul_le_mul_of_nonneg_left he' (by norm_num)
  have r2 : |d ^ e - d ^ s| ≤ 1 / 2 ^ 42 * d ^ s := by
    have h3 := rpow_small hdp hd1 hlog (z := e - s) (hz.trans (by norm_num))
    rw [show e = s + (e - s) by ring, Real.rpow_add hdp]
    rw [show d ^ s * d ^ (e - s) - d ^ s = (d ^ (e - s) - 1) * d ^ s by ring, abs_mul,
      abs_of_pos (Real.rpow_pos_of_pos hdp s)]
    refine mul_le_mul_of_nonneg_right (h3.trans ?_) (Real.rpow_nonneg hdp.le _)
    refine (mul_le_mul_of_nonneg_left hz (by norm_num)).trans ?_
    norm_num
  have hpe0 : (2 : ℝ) ^ (-((25 * 16 : ℕ) : ℤ)) ≤ d ^ e := low_pow (by rw [show (2 : ℝ) ^ (-((25 : ℕ) : ℤ)) = 1 / 2 ^ 25 by norm_num]; exact hd0) hd1 he16
  have r3 := near_rel (x := d ^ e) (le_trans (zpow_le_zpow_right₀ (by norm_num) (by norm_num)) hpe0)
  have hp0 : (2 : ℝ) ^ (-((25 * 16 : ℕ) : ℤ)) ≤ near (d ^ e) := near_neg_le (rep_zpow (by norm_num)) hpe0
  have hrp : (2 : ℝ) ^ (-1022 : ℤ) ≤ rx * near (d ^ e) := by
    have h2 : (2 : ℝ) ^ (-500 : ℤ) = 2 ^ (-100 : ℤ) * (2 : ℝ) ^ (-((25 * 16 : ℕ) : ℤ)) := by
      rw [← zpow_add₀ (by norm_num)]; norm_num
    refine le_trans (zpow_le_zpow_right₀ (by norm_num) (by norm_num : (-1022 : ℤ) ≤ -500)) ?_
    rw [h2]
    exact mul_le_mul hrx hp0 (by positivity) hrx0.le
  have r4 := near_rel hrp
  have hDs : 0 < D ^ s := Real.rpow_pos_of_pos hDp s
  generalize near (d ^ e) = p at *
  generalize near (rx * p) = r at *
  generalize d ^ e = f at *
  generalize d ^ s = g at *
  have t1 := rel_trans (by positivity) r1 r2
  have t2 := rel_trans (β := 1 / 2 ^ 52) (by positivity) t1 (by rw [one_div, inv_mul_eq_div]; exact r3)
  have t3 := mul_le_mul_of_nonneg_left t2 hrx0.le
  rw [← abs_of_pos hrx0, ← abs_mul, abs_of_pos hrx0, mul_sub, mul_left_comm] at t3
  have t4 := rel_trans (β := 1 / 2 ^ 52) (by positivity) t3 (by rw [one_div, inv_mul_eq_div]; exact r4)
  refine t4.trans (mul_le_mul_of_nonneg_right ?_ (by positivity))
  rw [add_div, ← hα]
  norm_num at hα1 ⊢
  nlinarith

end Radius

/-- **C104, the radii.**  The radius of each rib is that of the profile at the centre of the rib, up to a relative error of
`((M_y + 1) / (M_x D) + 512) / 2^50`, where `D = 1 - (|c| / R_y)^M_y = (R / R_x)^M_x` says how far the centre is from the edge
of the profile. -/
theorem C104_radius_partial (fresh : Nat → Output B64) {n : ℕ} (hn : 1 ≤ n) (hn' : n ≤ 2 ^ 20) {rx mx ry my ly : B64}
    {Rx Mx Ry My L : ℝ} (hrx : IsDouble rx Rx) (hmx : IsDouble mx Mx) (hry : IsDouble ry Ry) (hmy : IsDouble my My)
    (hly : IsDouble ly L) (hv : ValidProfile Rx Mx Ry My L) (hp : PlainProfile Rx Mx Ry My L) :
    ∃ s, Shell.make fresh n rx mx ry my ly = .ok s ∧ s.size = n ∧ ∀ i < n, ∃ c r R : ℝ,
      s.ribCenter i = .ok ⟨fin 0, fin c, fin 0⟩ ∧ s.ribRadius i = .ok (fin r) ∧
      |c - (-L + (2 * i + 1) * L / n)| ≤ (3 * i + 6) * (2 ^ (-52 : ℤ) * L) ∧ |c| ≤ L ∧
      OnProfile Rx Mx Ry My c R ∧ 0 < R ∧
      |r - R| ≤ R * (((My + 1) / (Mx * (R / Rx) ^ Mx) + 2 ^ 9) / 2 ^ 50) := by
  obtain ⟨s, h1, h2, h3⟩ := Shell.make_b64 fresh hn hn' hrx hmx hry hmy hly hv hp
  refine ⟨s, h1, h2, fun i hi => ?_⟩
  obtain ⟨c, w, r, k1, k2, k3, k4, k5, k6, k7, k8, k9, k10⟩ := h3 i hi
  have hx : |c| / Ry ≤ 1 - 1 / 2 ^ 21 := by
    rw [div_le_iff₀ hv.ry_pos]
    refine k9.trans ?_
    rw [mul_comm]
    exact mul_le_mul_of_nonneg_left hv.ly_le (by norm_num)
  have hx0 : 0 ≤ |c| / Ry := div_nonneg (abs_nonneg _) hv.ry_pos.le
  have hlt : (|c| / Ry) ^ My < 1 := Real.rpow_lt_one hx0 (lt_of_le_of_lt hx (by norm_num)) hv.my_pos
  have hD : 0 < 1 - (|c| / Ry) ^ My := by linarith
  have hR : 0 < Rx * (1 - (|c| / Ry) ^ My) ^ (1 / Mx) := mul_pos hv.rx_pos (Real.rpow_pos_of_pos hD _)
  have hpow : (Rx * (1 - (|c| / Ry) ^ My) ^ (1 / Mx) / Rx) ^ Mx = 1 - (|c| / Ry) ^ My := by
    rw [mul_div_cancel_left₀ _ hv.rx_pos.ne', ← Real.rpow_mul hD.le, one_div, inv_mul_cancel₀ hv.mx_pos.ne', Real.rpow_one]
  refine ⟨c, r, Rx * (1 - (|c| / Ry) ^ My) ^ (1 / Mx), k1, k3, k4, k5, ⟨hR.le, by rw [hpow]; ring⟩, hR, ?_⟩
  rw [hpow, k10, mul_comm (Rx * (1 - (|c| / Ry) ^ My) ^ (1 / Mx))]
  exact Radius.real_err hp.le_rx hp.le_mx hp.mx_le hp.le_my hp.my_le hx0 hx

/-- For a common tyre all the radii are right to ten decimal digits. -/
example (fresh : Nat → Output B64) {n : ℕ} (hn : 1 ≤ n) (hn' : n ≤ 2 ^ 20) :
    ∃ s, Shell.make fresh n (fin (5 / 16)) (fin 8) (fin (3 / 16)) (fin 4) (fin (1 / 8)) = .ok s ∧ s.size = n ∧
      ∀ i < n, ∃ c r R : ℝ, s.ribCenter i = .ok ⟨fin 0, fin c, fin 0⟩ ∧ s.ribRadius i = .ok (fin r) ∧
        OnProfile (5 / 16) 8 (3 / 16) 4 c R ∧ |r - R| ≤ R / 10 ^ 10 := by
  have d : ∀ (x : ℝ) (m f : ℤ), x = m * (2 : ℝ) ^ f → |m| ≤ 2 ^ 53 → -1074 ≤ f → |x| < 2 ^ (10 : ℤ) → IsDouble (fin x) x :=
    fun x m f h1 h2 h3 h4 => ⟨rfl, ⟨m, f, h1, h2, h3⟩, h4.trans (zpow_lt_zpow_right₀ (by norm_num) (by norm_num))⟩
  obtain ⟨s, h1, h2, h3⟩ := C104_radius_partial fresh hn hn'
    (d (5 / 16) 5 (-4) (by norm_num) (by norm_num) (by norm_num) (by rw [abs_of_pos] <;> norm_num))
    (d 8 8 0 (by norm_num) (by norm_num) (by norm_num) (by rw [abs_of_pos] <;> norm_num))
    (d (3 / 16) 3 (-4) (by norm_num) (by norm_num) (by norm_num) (by rw [abs_of_pos] <;> norm_num))
    (d 4 4 0 (by norm_num) (by norm_num) (by norm_num) (by rw [abs_of_pos] <;> norm_num))
    (d (1 / 8) 1 (-3) (by norm_num) (by norm_num) (by norm_num) (by rw [abs_of_pos] <;> norm_num))
    (by constructor <;> norm_num) (by constructor <;> norm_num)
  refine ⟨s, h1, h2, fun i hi => ?_⟩
  obtain ⟨c, r, R, k1, k2, -, k4, k5, k6, k7⟩ := h3 i hi
  refine ⟨c, r, R, k1, k2, k5, k7.trans ?_⟩
  have h4 : (|c| / (3 / 16)) ^ (4 : ℝ) ≤ 16 / 81 := by
    have : |c| / (3 / 16) ≤ 2 / 3 := by linarith
    calc (|c| / (3 / 16)) ^ (4 : ℝ) ≤ (2 / 3 : ℝ) ^ (4 : ℝ) := Real.rpow_le_rpow (by positivity) this (by norm_num)
      _ = 16 / 81 := by rw [show (4 : ℝ) = ((4 : ℕ) : ℝ) by norm_num, Real.rpow_natCast]; norm_num
  have h5 : 65 / 81 ≤ (R / (5 / 16)) ^ (8 : ℝ) := by linarith [k5.2]
  refine (mul_le_mul_of_nonneg_left (c := 1 / 10 ^ 10) ?_ k6.le).trans (le_of_eq (mul_one_div _ _))
  have h6 : ((4 : ℝ) + 1) / (8 * (R / (5 / 16)) ^ (8 : ℝ)) ≤ 1 := by
    rw [div_le_one (by linarith)]; linarith
  rw [div_le_div_iff₀ (by positivity) (by positivity)]
  norm_num at h6 ⊢
  linarith

end Enve
