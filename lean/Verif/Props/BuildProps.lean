import Verif.Props.DoubleSearchProps
import Verif.Props.ShellProps
import Mathlib.Analysis.Convex.SpecificFunctions.Basic

/-! # C104: building a tyre in the arithmetic of `double` -/

namespace Enve

open Scalar Spec

namespace B64

theorem round_near {x : ℝ} {k : ℕ} (hk : k ≤ 1000) (hx : |x| ≤ 2 ^ k) : round (.fin x) = fin (near x) := by
  obtain ⟨y, h1, -⟩ := round_bounds hk hx
  rw [round_def] at h1 ⊢
  split_ifs at h1 with h2 h3
  · cases h1
  · cases h1
  · rw [if_neg h2, if_neg h3]; rfl

theorem near_abs {x : ℝ} {k : ℕ} (hx : |x| ≤ 2 ^ k) : |near x| ≤ 2 ^ k := by
  rw [abs_le] at *
  exact ⟨near_neg_le (rep_pow k).neg hx.1, near_le (rep_pow k) hx.2⟩

theorem near_rep {x : ℝ} (h : Rep x) : near x = x := le_antisymm (near_le h le_rfl) (near_neg_le h le_rfl)

theorem pow_fin {x y : ℝ} (h : 0 < x ∨ x = 0 ∧ 0 < y) : Scalar.pow (fin x) (fin y) = round (.fin (x ^ y)) := by
  show round (Scalar.pow (.fin x) (.fin y)) = _
  rw [XR.pow_fin _ _ h]

theorem eq_self_fin (x : ℝ) : (fin x ==. fin x) = true := by
  show decide (x = x) = true
  simp

theorem rep_zpow {f : ℤ} (h : -1074 ≤ f) : Rep ((2 : ℝ) ^ f) := ⟨1, f, by simp, by norm_num, h⟩

end B64

open B64

/-- The ranges of the parameters, far wider than any tyre needs. -/
structure Spec.PlainProfile (rx mx ry my ly : ℝ) : Prop where
  rx_le : rx ≤ 2 ^ 100
  le_rx : (2 : ℝ) ^ (-100 : ℤ) ≤ rx
  mx_le : mx ≤ 2 ^ 10
  le_mx : 1 / 16 ≤ mx
  ry_le : ry ≤ 2 ^ 100
  my_le : my ≤ 2 ^ 10
  le_my : 1 / 16 ≤ my
  le_ly : (2 : ℝ) ^ (-100 : ℤ) ≤ ly

theorem Spec.low_pow {d e : ℝ} {k m : ℕ} (hd : (2 : ℝ) ^ (-(k : ℤ)) ≤ d) (hd1 : d ≤ 1) (he : e ≤ m) :
    (2 : ℝ) ^ (-((k * m : ℕ) : ℤ)) ≤ d ^ e := by
  have h0 : (0 : ℝ) < 2 ^ (-(k : ℤ)) := by positivity
  calc (2 : ℝ) ^ (-((k * m : ℕ) : ℤ)) = ((2 : ℝ) ^ (-(k : ℤ))) ^ m := by
        rw [← zpow_natCast, ← zpow_mul]; push_cast; congr 1; ring
    _ = ((2 : ℝ) ^ (-(k : ℤ))) ^ (m : ℝ) := by rw [Real.rpow_natCast]
    _ ≤ d ^ (m : ℝ) := Real.rpow_le_rpow h0.le hd (by positivity)
    _ ≤ d ^ e := Real.rpow_le_rpow_of_exponent_ge (h0.trans_le hd) hd1 he

theorem B64.mul_bd {a b : ℝ} {k m : ℕ} (ha : |a| ≤ 2 ^ k) (hb : |b| ≤ 2 ^ m) (h : k + m ≤ 1000) :
    ∃ c, fin a *. fin b = fin c ∧ |c| ≤ 2 ^ (k + m) := by
  have : |a * b| ≤ 2 ^ (k + m) := by
    rw [abs_mul, pow_add]; exact mul_le_mul ha hb (abs_nonneg _) (by positivity)
  exact ⟨near (a * b), by rw [mul_fin, round_near h this], near_abs this⟩

/-- The radius the code computes for a rib at `c`, and where `c` may be. -/
def Spec.RoundedRadius (rx mx ry my l c r : ℝ) : Prop :=
  |c| ≤ l * (1 - 1 / 2 ^ 21) ∧ r = near (rx * near (near (1 - near (near (|c| / ry) ^ my)) ^ near (1 / mx)))

/-- Radius and angle of a rib whose centre is not too close to the edge. -/
theorem Shape.rib_b64 {rx mx ry my l : ℝ} (hv : ValidProfile rx mx ry my l) (hp : PlainProfile rx mx ry my l)
    (hrx : Rep rx) (hmxr : Rep mx) {y : ℝ} (hyr : Rep y) (hy : |y| ≤ l * (1 - 1 / 2 ^ 21)) :
    ∃ r a, Shape.surfaceRadius (⟨fin rx, fin mx, fin ry, fin my, fin l⟩ : Shape B64) (fin y) = .ok (fin r) ∧
      0 < r ∧ r ≤ rx ∧
      Shape.surfaceAngle (⟨fin rx, fin mx, fin ry, fin my, fin l⟩ : Shape B64) (fin y) Scalar.eps = .ok (fin a) ∧
      r = near (rx * near (near (1 - near (near (|y| / ry) ^ my)) ^ near (1 / mx))) := by
  have hl := hv.ly_pos
  have hry := hv.ry_pos
  have hmx := hv.mx_pos
  have hmy := hv.my_pos
  have hle : ¬ l < |y| := by
    rw [not_lt]; refine hy.trans ?_; nlinarith
  -- the ratio
  set q := near (|y| / ry) with hq
  have hq0' : |y| / ry ≤ 1 - 1 / 2 ^ 21 := by
    rw [div_le_iff₀ hry]
    refine hy.trans ?_
    rw [mul_comm]
    exact mul_le_mul_of_nonneg_left hv.ly_le (by norm_num)
  have hq00 : 0 ≤ |y| / ry := by positivity
  have hqabs : |(|y| / ry)| ≤ (2 : ℝ) ^ 0 := by
    rw [abs_of_nonneg hq00]; refine hq0'.trans ?_; norm_num
  have hq1 : q ≤ 1 - 1 / 2 ^ 21 := near_le ⟨2 ^ 21 - 1, -21, by norm_num, by norm_num, by norm_num⟩ hq0'
  have hq0 : 0 ≤ q := near_neg_le rep_zero hq00
  -- its power
  set t := near (q ^ my) with ht
  have ht0' : 0 ≤ q ^ my := Real.rpow_nonneg hq0 _
  have ht1' : q ^ my ≤ 1 - 1 / 2 ^ 25 := by
    calc q ^ my ≤ q ^ (1 / 16 : ℝ) := by
          rcases hq0.eq_or_lt with h | h
          · rw [← h, Real.zero_rpow hmy.ne', Real.zero_rpow (by norm_num)]
          · exact Real.rpow_le_rpow_of_exponent_ge h (hq1.trans (by norm_num)) hp.le_my
      _ ≤ (1 + -(1 / 2 ^ 21)) ^ (1 / 16 : ℝ) := Real.rpow_le_rpow hq0 (by linarith) (by norm_num)
      _ ≤ 1 + 1 / 16 * -(1 / 2 ^ 21) := rpow_one_add_le_one_add_mul_self (by norm_num) (by norm_num) (by norm_num)
      _ = 1 - 1 / 2 ^ 25 := by norm_num
  have htabs : |q ^ my| ≤ (2 : ℝ) ^ 0 := by rw [abs_of_nonneg ht0']; refine ht1'.trans ?_; norm_num
  have ht1 : t ≤ 1 - 1 / 2 ^ 25 := near_le ⟨2 ^ 25 - 1, -25, by norm_num, by norm_num, by norm_num⟩ ht1'
  have ht0 : 0 ≤ t := near_neg_le rep_zero ht0'
  -- the difference
  set d := near (1 - t) with hd
  have hdabs : |1 - t| ≤ (2 : ℝ) ^ 0 := by rw [abs_of_nonneg (by linarith)]; norm_num; exact ht0
  have hd0 : (2 : ℝ) ^ (-(25 : ℕ) : ℤ) ≤ d :=
    near_neg_le ⟨1, -25, by norm_num, by norm_num, by norm_num⟩ (by norm_num at ht1 ⊢; linarith)
  have hd1 : d ≤ 1 := near_le rep_one (by linarith)
  have hdpos : 0 < d := lt_of_lt_of_le (by positivity) hd0
  -- the exponent
  set e := near (1 / mx) with he
  have heabs : |1 / mx| ≤ (2 : ℝ) ^ 4 := by
    rw [abs_of_pos (by positivity), div_le_iff₀ hmx]; have := hp.le_mx; linarith
  have he1 : e ≤ (16 : ℕ) := by
    have := (abs_le.1 (near_abs heabs)).2
    rw [← he] at this; norm_num at this ⊢; exact this
  have he0 : 0 ≤ e := near_neg_le rep_zero (by positivity)
  -- the root
  set p := near (d ^ e) with hpp
  have hp1' : d ^ e ≤ 1 := Real.rpow_le_one hdpos.le hd1 he0
  have hp0' : (2 : ℝ) ^ (-((25 * 16 : ℕ) : ℤ)) ≤ d ^ e := low_pow hd0 hd1 he1
  have hpabs : |d ^ e| ≤ (2 : ℝ) ^ 0 := by
    rw [abs_of_nonneg (Real.rpow_nonneg hdpos.le _)]; simpa using hp1'
  have hp1 : p ≤ 1 := near_le rep_one hp1'
  have hp0 : (2 : ℝ) ^ (-((25 * 16 : ℕ) : ℤ)) ≤ p := near_neg_le (rep_zpow (by norm_num)) hp0'
  have hppos : 0 < p := lt_of_lt_of_le (by positivity) hp0
  -- the radius
  have hrxpos := hv.rx_pos
  have hrabs : |rx * p| ≤ (2 : ℝ) ^ 100 := by
    rw [abs_of_pos (by positivity)]
    have := hp.rx_le
    nlinarith
  have hr1 : near (rx * p) ≤ rx := near_le hrx (by nlinarith)
  have hr0 : (2 : ℝ) ^ (-500 : ℤ) ≤ near (rx * p) := by
    refine near_neg_le (rep_zpow (by norm_num)) ?_
    have h1 : (2 : ℝ) ^ (-500 : ℤ) = 2 ^ (-100 : ℤ) * (2 : ℝ) ^ (-((25 * 16 : ℕ) : ℤ)) := by
      rw [← zpow_add₀ (by norm_num)]; norm_num
    rw [h1]
    exact mul_le_mul hp.le_rx hp0 (by positivity) hrxpos.le
  have one_fin : (Scalar.one : B64) = fin 1 := B64.one_eq
  have chk : Shape.checkWidthBound (⟨fin rx, fin mx, fin ry, fin my, fin l⟩ : Shape B64) (fin y) = true := by
    simp [Shape.checkWidthBound, DoubleDemo.abs_fin, hle]
  have hratio : Scalar.abs (fin y) /. fin ry = fin q := by
    rw [DoubleDemo.abs_fin, div_fin _ hry.ne', round_near (by norm_num) hqabs]
  have hpow : Scalar.pow (fin q) (fin my) = fin t := by
    rw [pow_fin (hq0.lt_or_eq.imp id fun h => ⟨h.symm, hmy⟩), round_near (by norm_num) htabs]
  have hdiff : Scalar.one -. fin t = fin d := by rw [one_fin, sub_fin, round_near (by norm_num) hdabs]
  -- the angle
  have hang : ∃ a, Shape.surfaceAngle (⟨fin rx, fin mx, fin ry, fin my, fin l⟩ : Shape B64) (fin y) Scalar.eps =
      .ok (fin a) := by
    have zero_fin : (Scalar.zero : B64) = fin 0 := B64.zero_eq
    have atan : ∀ x : ℝ, ∃ a, Scalar.atan (fin x) = fin a := by
      intro x
      have h : |Real.arctan x| ≤ (2 : ℝ) ^ 1 := by
        rw [abs_le]
        have := Real.arctan_lt_pi_div_two x
        have := Real.neg_pi_div_two_lt_arctan x
        have := Real.pi_le_four
        constructor <;> linarith
      refine ⟨near (Real.arctan x), ?_⟩
      rw [← round_near (by norm_num) h]
      show round (Scalar.atan (XR.fin x)) = _
      congr 1
    have hder : ∃ x, Shape.surfaceDerivative (⟨fin rx, fin mx, fin ry, fin my, fin l⟩ : Shape B64) (fin y) Scalar.eps =
        .ok (fin x) := by
      by_cases hc : (Scalar.eps : ℝ) < |y|
      · have hsign : ∃ σ : ℝ, |σ| = 1 ∧ σ * y = |y| ∧
            ((if (Scalar.zero : B64) <. fin y then Scalar.one else Scalar.zero) -.
              (if fin y <. Scalar.zero then Scalar.one else Scalar.zero) : B64) = fin σ := by
          rw [zero_fin, one_fin]
          rcases lt_trichotomy y 0 with h | h | h
          · refine ⟨-1, by norm_num, by rw [abs_of_neg h]; ring, ?_⟩
            simp only [lt_fin, decide_eq_true_eq, if_neg h.le.not_gt, if_pos h, sub_fin, zero_sub]
            exact Far.zm1
          · rw [h, abs_zero] at hc
            exact absurd hc (not_lt.2 real_eps_pos.le)
          · refine ⟨1, by norm_num, by rw [abs_of_pos h]; ring, ?_⟩
            simp only [lt_fin, decide_eq_true_eq, if_neg h.le.not_gt, if_pos h, sub_fin, sub_zero]
            exact DoubleDemo.r1
        obtain ⟨σ, hσ1, hσy, hσ⟩ := hsign
        have hyl : |y| ≤ (2 : ℝ) ^ 100 := (not_lt.1 hle).trans (hv.ly_le.trans hp.ry_le)
        have habsr : Rep |y| := by
          rcases abs_choice y with h | h <;> rw [h]
          · exact hyr
          · exact hyr.neg
        have hyv : fin σ *. fin y = fin |y| := by
          rw [mul_fin, hσy, round_near (k := 100) (by norm_num) (by rwa [abs_abs]), near_rep habsr]
        have hratio' : fin |y| /. fin ry = fin q := by rw [← DoubleDemo.abs_fin]; exact hratio
        -- the exponent
        have hm1abs : |1 - mx| ≤ (2 : ℝ) ^ 10 := by
          have := hp.mx_le
          rw [abs_le]; constructor <;> linarith
        set m1 := near (1 - mx) with hm1
        have hm1lo : -mx ≤ m1 := near_neg_le hmxr.neg (by linarith)
        have hm1hi : m1 ≤ 1 := near_le rep_one (by linarith)
        have hexlo : -1 ≤ m1 / mx := by rw [le_div_iff₀ hmx]; linarith
        have hexhi : m1 / mx ≤ 2 ^ 4 := by
          rw [div_le_iff₀ hmx]; have := hp.le_mx; linarith
        have hexabs : |m1 / mx| ≤ (2 : ℝ) ^ 4 := abs_le.2 ⟨by linarith, hexhi⟩
        set ex := near (m1 / mx) with hex
        have hex1 : -1 ≤ ex := near_neg_le rep_one.neg hexlo
        have hpw0 : 0 ≤ d ^ ex := Real.rpow_nonneg hdpos.le _
        have hpwabs : |d ^ ex| ≤ (2 : ℝ) ^ 25 := by
          rw [abs_of_nonneg hpw0]
          calc d ^ ex ≤ d ^ (-1 : ℝ) := Real.rpow_le_rpow_of_exponent_ge hdpos hd1 hex1
            _ = d⁻¹ := Real.rpow_neg_one d
            _ ≤ ((2 : ℝ) ^ (-(25 : ℕ) : ℤ))⁻¹ := inv_anti₀ (by positivity) hd0
            _ = 2 ^ 25 := by norm_num
        have hpw : Scalar.pow (fin d) ((Scalar.one -. fin mx) /. fin mx) = fin (near (d ^ ex)) := by
          rw [one_fin, sub_fin, round_near (by norm_num) hm1abs, div_fin _ hmx.ne', round_near (by norm_num) hexabs,
            pow_fin (.inl hdpos), round_near (by norm_num) hpwabs]
        -- the denominator
        have hden0 : (2 : ℝ) ^ (-30 : ℤ) ≤ mx * |y| := by
          have he26 : (Scalar.eps : ℝ) = (2 : ℝ) ^ (-26 : ℤ) := by
            show ((2 : ℝ)⁻¹ ^ 26) = _; norm_num
          rw [he26] at hc
          have : (2 : ℝ) ^ (-30 : ℤ) = 1 / 16 * 2 ^ (-26 : ℤ) := by norm_num
          rw [this]
          exact mul_le_mul hp.le_mx hc.le (by positivity) hmx.le
        have hdenabs : |(mx * |y|)| ≤ (2 : ℝ) ^ 110 := by
          rw [abs_of_nonneg (by positivity), show (2 : ℝ) ^ 110 = 2 ^ 10 * 2 ^ 100 by norm_num]
          exact mul_le_mul hp.mx_le hyl (abs_nonneg _) (by positivity)
        set den := near (mx * |y|) with hden
        have hden1 : (2 : ℝ) ^ (-30 : ℤ) ≤ den := near_neg_le (rep_zpow (by norm_num)) hden0
        have hdenpos : 0 < den := lt_of_lt_of_le (by positivity) hden1
        -- the product
        obtain ⟨c1, e1, b1⟩ := B64.mul_bd (a := -σ) (k := 0) (by rw [abs_neg, hσ1]; norm_num) (near_abs hpwabs) (by norm_num)
        obtain ⟨c2, e2, b2⟩ := B64.mul_bd b1 (near_abs htabs) (by norm_num)
        obtain ⟨c3, e3, b3⟩ := B64.mul_bd b2 (b := rx) (m := 100) (by rw [abs_of_pos hrxpos]; exact hp.rx_le) (by norm_num)
        obtain ⟨c4, e4, b4⟩ := B64.mul_bd b3 (b := my) (m := 10) (by rw [abs_of_pos hmy]; exact hp.my_le) (by norm_num)
        have hquo : |c4 / den| ≤ (2 : ℝ) ^ 165 := by
          rw [abs_div, abs_of_pos hdenpos, div_le_iff₀ hdenpos]
          refine b4.trans ?_
          calc (2 : ℝ) ^ (0 + 25 + 0 + 100 + 10) = 2 ^ 165 * 2 ^ (-30 : ℤ) := by norm_num
            _ ≤ 2 ^ 165 * den := mul_le_mul_of_nonneg_left hden1 (by positivity)
        refine ⟨near (c4 / den), ?_⟩
        have hlt : ((Scalar.eps : B64) <. Scalar.abs (fin y)) = true := by
          rw [DoubleDemo.abs_fin]
          show decide ((Scalar.eps : ℝ) < |y|) = true
          exact decide_eq_true hc
        simp only [Shape.surfaceDerivative, chk, Res.assert, hlt, if_true, Res.bind_ok, Res.pure_eq, hσ, hyv, hratio', hpow,
          hdiff, hpw]
        rw [show (-. (fin σ) : B64) = fin (-σ) from rfl, e1, e2, e3, e4, mul_fin, round_near (by norm_num) hdenabs,
          div_fin _ hdenpos.ne', round_near (k := 165) (by norm_num) hquo]
      · refine ⟨0, ?_⟩
        have hlt : ((Scalar.eps : B64) <. Scalar.abs (fin y)) = false := by
          rw [DoubleDemo.abs_fin]
          show decide ((Scalar.eps : ℝ) < |y|) = false
          exact decide_eq_false hc
        simp only [Shape.surfaceDerivative, chk, Res.assert, hlt, if_true, Res.bind_ok, Res.pure_eq, zero_fin]
        rfl
    obtain ⟨x, hx⟩ := hder
    obtain ⟨a, ha⟩ := atan x
    exact ⟨a, by rw [Shape.surfaceAngle, hx, Res.bind_ok, Res.pure_eq, ha]⟩
  obtain ⟨a, ha⟩ := hang
  refine ⟨near (rx * p), a, ?_, lt_of_lt_of_le (by positivity) hr0, hr1, ha, rfl⟩
  simp only [Shape.surfaceRadius, chk, Res.assert, hratio, hpow, hdiff]
  rw [one_fin, div_fin _ hmx.ne', round_near (by norm_num) heabs, pow_fin (.inl hdpos),
    round_near (by norm_num) hpabs, mul_fin,
    round_near (by norm_num) hrabs]
  rfl

/-- The loop that places the ribs. -/
theorem Shell.resizeLoop_b64 {rx mx ry my l : ℝ} (hv : ValidProfile rx mx ry my l) (hp : PlainProfile rx mx ry my l)
    (hrx : Rep rx) (hmxr : Rep mx) {n : ℕ} (hn : 1 ≤ n) (hn' : n ≤ 2 ^ 20) {ω : ℝ}
    (hω : |ω - 2 * l / n| ≤ 9 / 8 * (2 ^ (-52 : ℤ) * l)) : ∀ (k i : ℕ) (y : ℝ) (acc : List (Rib B64)), i + k = n →
    |y - (-l + (2 * i - 1) * l / n)| ≤ (3 * i + 3) * (2 ^ (-52 : ℤ) * l) →
    ∃ new, resizeLoop (⟨fin rx, fin mx, fin ry, fin my, fin l⟩ : Shape B64) (fin ω) k i (fin y) acc = .ok (acc ++ new) () ∧
      new.length = k ∧ ∀ (j : ℕ) rib, new[j]? = some rib → ∃ c r a, rib = Rib.make ((i + j : ℕ) : ℤ) (fin r) (fin c) (fin ω) (fin a) ∧
        |c - (-l + (2 * (i + j : ℕ) + 1) * l / n)| ≤ (3 * (i + j : ℕ) + 6) * (2 ^ (-52 : ℤ) * l) ∧
        |c| ≤ l ∧ 0 < r ∧ r ≤ rx ∧ RoundedRadius rx mx ry my l c r := by
  have hl := hv.ly_pos
  have hnr : (1 : ℝ) ≤ n := by exact_mod_cast hn
  have hnr' : (n : ℝ) ≤ 2 ^ 20 := by exact_mod_cast hn'
  have hnp : (0 : ℝ) < n := by linarith
  set u : ℝ := 2 ^ (-52 : ℤ) with hu
  have hu0 : 0 < u := by positivity
  obtain ⟨η, hηd⟩ : ∃ η : ℝ, η = 2 ^ (-1075 : ℤ) := ⟨_, rfl⟩
  have hη : η ≤ 1 / 8 * (u * l) := by
    rw [hηd]
    calc (2 : ℝ) ^ (-1075 : ℤ) ≤ 2 ^ (-155 : ℤ) := zpow_le_zpow_right₀ (by norm_num) (by norm_num)
      _ = 1 / 8 * (u * 2 ^ (-100 : ℤ)) := by rw [hu]; norm_num
      _ ≤ 1 / 8 * (u * l) := mul_le_mul_of_nonneg_left (mul_le_mul_of_nonneg_left hp.le_ly hu0.le) (by norm_num)
  have hne : ∀ x, |near x - x| ≤ |x| * (u / 2) + η := by
    intro x
    have hu53 : (2 : ℝ) ^ (-53 : ℤ) = u / 2 := by rw [hu]; norm_num
    rw [hηd, ← hu53]
    exact near_error x
  have hu24 : (2 : ℝ) ^ 24 * u ≤ 1 / 2 ^ 21 := by rw [hu]; norm_num
  clear hηd
  clear_value u
  clear hu
  have hul : l ≤ 2 ^ 100 := hv.ly_le.trans hp.ry_le
  intro k
  induction k with
  | zero =>
    intro i y acc _ _
    exact ⟨[], by simp [resizeLoop], rfl, by simp⟩
  | succ k ih =>
    intro i y acc hik hy
    have hi : (i : ℝ) + 1 ≤ n := by exact_mod_cast (by omega : i + 1 ≤ n)
    have hi0 : (0 : ℝ) ≤ i := by positivity
    set h := l / n with hh
    have hnh : n * h = l := by rw [hh]; field_simp
    have hhpos : 0 < h := by positivity
    have e1 : -l + (2 * (i : ℝ) - 1) * l / n = -l + (2 * i - 1) * h := by rw [hh]; ring
    have e2 : 2 * l / n = 2 * h := by rw [hh]; ring
    rw [e1] at hy
    rw [e2] at hω
    set c := -l + (2 * (i : ℝ) + 1) * h with hc
    have hc' : c = (-l + (2 * i - 1) * h) + 2 * h := by rw [hc]; ring
    have hclo : -(l - h) ≤ c := by nlinarith
    have hchi : c ≤ l - h := by
      have : (2 * (i : ℝ) + 1) * h ≤ (2 * n - 1) * h := mul_le_mul_of_nonneg_right (by linarith) hhpos.le
      nlinarith
    have hul0 : 0 < u * l := by positivity
    have hsum : |y + ω - c| ≤ (3 * i + 3) * (u * l) + 9 / 8 * (u * l) := by
      rw [hc', show ∀ a b : ℝ, y + ω - (a + b) = (y - a) + (ω - b) by intros; ring]
      exact (abs_add_le _ _).trans (add_le_add hy hω)
    have hsmall : (3 * (i : ℝ) + 6) * (u * l) ≤ l * (1 / 2 ^ 21) := by
      have h1 : (3 * (i : ℝ) + 6) ≤ 2 ^ 24 := by linarith
      have h2 : (3 * (i : ℝ) + 6) * (u * l) ≤ 2 ^ 24 * (u * l) := mul_le_mul_of_nonneg_right h1 hul0.le
      nlinarith
    have hh20 : l * (1 / 2 ^ 20) ≤ h := by
      rw [hh, div_eq_mul_one_div l (n : ℝ)]
      exact mul_le_mul_of_nonneg_left (one_div_le_one_div_of_le hnp hnr') hl.le
    have hbig : |y + ω| ≤ 2 * l := by
      have := abs_le.1 hsum
      rw [abs_le]; constructor <;> linarith [this.1, this.2]
    have hbig' : |y + ω| ≤ 2 ^ 101 := hbig.trans (by norm_num at hul ⊢; linarith)
    set y' := near (y + ω) with hy'
    have herr := hne (y + ω)
    rw [← hy'] at herr
    have hstep : |y' - c| ≤ (3 * i + 6) * (u * l) := by
      have h1 : |y' - c| ≤ |y' - (y + ω)| + |y + ω - c| := by
        have := abs_sub_le y' (y + ω) c; exact this
      have h2 : |y + ω| * (u / 2) ≤ u * l := by nlinarith
      linarith
    have hin : |y'| ≤ l * (1 - 1 / 2 ^ 21) := by
      have := abs_le.1 hstep
      have e3 : l * (1 / 2 ^ 20) = 2 * (l * (1 / 2 ^ 21)) := by ring
      have e4 : l * (1 - 1 / 2 ^ 21) = l - l * (1 / 2 ^ 21) := by ring
      rw [e4, abs_le]; constructor <;> linarith [this.1, this.2]
    obtain ⟨r, a, f1, f2, f3, f4, f5⟩ := Shape.rib_b64 hv hp hrx hmxr (rep_near (y + ω)) hin
    rw [← hy'] at f1 f4
    obtain ⟨new, g1, g2, g3⟩ := ih (i + 1) y' (acc ++ [Rib.make (i : ℤ) (fin r) (fin y') (fin ω) (fin a)]) (by omega) (by
      push_cast
      rw [show -l + (2 * ((i : ℝ) + 1) - 1) * l / n = c by rw [hc, hh]; ring]
      refine hstep.trans (le_of_eq ?_)
      ring)
    refine ⟨Rib.make (i : ℤ) (fin r) (fin y') (fin ω) (fin a) :: new, ?_, by simp [g2], ?_⟩
    · have hz : ((Scalar.zero : B64) <. fin r) = true := by
        rw [B64.zero_eq, lt_fin]; exact decide_eq_true f2
      rw [resizeLoop]
      simp only [add_fin, round_near (k := 101) (by norm_num) hbig', ← hy', f1, f4, Res.bind_ok, Res.assert, hz, if_true,
        eq_self_fin, Res.pure_eq]
      rw [g1]
      simp
    · intro j rib hj
      cases j with
      | zero =>
        simp only [List.getElem?_cons_zero, Option.some.injEq] at hj
        refine ⟨y', r, a, by rw [← hj, Nat.add_zero], ?_, hin.trans ?_, f2, f3, hin, f5⟩
        · rw [Nat.add_zero, show -l + (2 * (i : ℝ) + 1) * l / n = c by rw [hc, hh]; ring]
          exact hstep
        · nlinarith
      | succ j =>
        simp only [List.getElem?_cons_succ] at hj
        obtain ⟨c', r', a', k1, k2, k3⟩ := g3 j rib hj
        rw [show i + 1 + j = i + (j + 1) by omega] at k1 k2
        exact ⟨c', r', a', k1, k2, k3⟩

/-- The construction of a tyre, with what the code computes for the radii. -/
theorem Shell.make_b64 (fresh : Nat → Output B64) {n : ℕ} (hn : 1 ≤ n) (hn' : n ≤ 2 ^ 20) {rx mx ry my ly : B64}
    {Rx Mx Ry My L : ℝ} (hrx : IsDouble rx Rx) (hmx : IsDouble mx Mx) (hry : IsDouble ry Ry) (hmy : IsDouble my My)
    (hly : IsDouble ly L) (hv : ValidProfile Rx Mx Ry My L) (hp : PlainProfile Rx Mx Ry My L) :
    ∃ s, Shell.make fresh n rx mx ry my ly = .ok s ∧ s.size = n ∧ ∀ i < n, ∃ c w r : ℝ,
      s.ribCenter i = .ok ⟨fin 0, fin c, fin 0⟩ ∧ s.ribWidth i = .ok (fin w) ∧ s.ribRadius i = .ok (fin r) ∧
      |c - (-L + (2 * i + 1) * L / n)| ≤ (3 * i + 6) * (2 ^ (-52 : ℤ) * L) ∧ |c| ≤ L ∧
      |w - 2 * L / n| ≤ 2 ^ (-52 : ℤ) * (2 * L / n) ∧ 0 < r ∧ r ≤ Rx ∧ RoundedRadius Rx Mx Ry My L c r := by
  obtain ⟨rfl, hrxr, -⟩ := hrx
  obtain ⟨rfl, hmxr, -⟩ := hmx
  obtain ⟨rfl, -, -⟩ := hry
  obtain ⟨rfl, -, -⟩ := hmy
  obtain ⟨rfl, hlr, -⟩ := hly
  have hl := hv.ly_pos
  have hul : L ≤ 2 ^ 100 := hv.ly_le.trans hp.ry_le
  have hnr : (1 : ℝ) ≤ n := by exact_mod_cast hn
  have hnr' : (n : ℝ) ≤ 2 ^ 20 := by exact_mod_cast hn'
  have hnp : (0 : ℝ) < n := by linarith
  set u : ℝ := 2 ^ (-52 : ℤ) with hu
  have hu0 : 0 < u := by positivity
  have hu53 : (2 : ℝ) ^ (-53 : ℤ) = u / 2 := by rw [hu]; norm_num
  have hh20 : 2 ^ (-120 : ℤ) ≤ L / n := by
    rw [le_div_iff₀ hnp]
    calc (2 : ℝ) ^ (-120 : ℤ) * n ≤ 2 ^ (-120 : ℤ) * 2 ^ 20 := mul_le_mul_of_nonneg_left hnr' (by positivity)
      _ = 2 ^ (-100 : ℤ) := by norm_num
      _ ≤ L := hp.le_ly
  obtain ⟨η, hηd⟩ : ∃ η : ℝ, η = 2 ^ (-1075 : ℤ) := ⟨_, rfl⟩
  have hη : η ≤ 1 / 8 * (u * (L / n)) := by
    rw [hηd]
    calc (2 : ℝ) ^ (-1075 : ℤ) ≤ 2 ^ (-175 : ℤ) := zpow_le_zpow_right₀ (by norm_num) (by norm_num)
      _ = 1 / 8 * (u * 2 ^ (-120 : ℤ)) := by rw [hu]; norm_num
      _ ≤ 1 / 8 * (u * (L / n)) := mul_le_mul_of_nonneg_left (mul_le_mul_of_nonneg_left hh20 hu0.le) (by norm_num)
  have hne : ∀ x, |near x - x| ≤ |x| * (u / 2) + η := by
    intro x
    rw [hηd, ← hu53]
    exact near_error x
  have hu1 : u ≤ 1 / 16 := by rw [hu]; norm_num
  have hloop : ∀ {ω : ℝ}, |ω - 2 * L / n| ≤ 9 / 8 * (u * L) → _ := fun hω =>
    Shell.resizeLoop_b64 hv hp hrxr hmxr hn hn' hω
  rw [← hu] at hloop
  clear hηd hu53 hh20
  clear_value u
  clear hu
  have hhl : L / n ≤ L := div_le_self hl.le hnr
  set h := L / n with hh
  have hhpos : 0 < h := by positivity
  have e2 : 2 * L / n = 2 * h := by rw [hh]; ring
  -- the width
  have h2l : |2 * L| ≤ 2 ^ 101 := by rw [abs_of_pos (by linarith)]; norm_num at hul ⊢; linarith
  have h2lr : Rep (2 * L) := by
    obtain ⟨m, f, g1, g2, g3⟩ := hlr
    exact ⟨m, f + 1, by rw [g1, zpow_add_one₀ (by norm_num)]; ring, g2, by omega⟩
  have hw2 : (Scalar.two : B64) *. fin L = fin (2 * L) := by
    rw [B64.two_eq, mul_fin, round_near (by norm_num) h2l, near_rep h2lr]
  have hnat : (Scalar.ofNat n : B64) = fin n := by
    show round (Scalar.lit n 1 : XR) = _
    rw [show (Scalar.lit n 1 : XR) = .fin ((n : ℝ) / (1 : ℕ)) from rfl, Nat.cast_one, div_one,
      round_near (k := 20) (by norm_num) (by rw [abs_of_pos hnp]; exact hnr'),
      near_rep ⟨n, 0, by simp, by rw [Nat.abs_cast]; exact_mod_cast hn'.trans (by norm_num), by norm_num⟩]
  have hwabs : |2 * L / n| ≤ 2 ^ 101 := by
    rw [e2, abs_of_pos (by linarith)]; rw [abs_of_pos (by linarith)] at h2l; linarith
  set ω := near (2 * L / n) with hω
  have hωerr : |ω - 2 * h| ≤ u * h + 1 / 8 * (u * h) := by
    have := hne (2 * L / n)
    rw [← hω, e2, abs_of_pos (by linarith : 0 < 2 * h)] at this
    linarith
  have hωw : |ω - 2 * L / n| ≤ u * (2 * L / n) := by
    rw [e2]; have : 0 < u * h := by positivity
    linarith
  have huh : u * h ≤ u * L := mul_le_mul_of_nonneg_left hhl hu0.le
  have hωl : |ω - 2 * L / n| ≤ 9 / 8 * (u * L) := by rw [e2]; linarith
  have hωb : 0 ≤ ω ∧ ω ≤ 3 * h := by
    have h1 := abs_le.1 hωerr
    constructor <;> nlinarith
  -- the start
  have hhalfabs : |ω / 2| ≤ 2 ^ 101 := by
    rw [abs_of_nonneg (by linarith [hωb.1])]; rw [abs_of_pos (by linarith)] at h2l; linarith [hωb.2]
  set v := near (ω / 2) with hvv
  have hverr : |v - h| ≤ 3 / 2 * (u * h) := by
    have h1 := hne (ω / 2)
    rw [← hvv, abs_of_nonneg (by linarith [hωb.1] : 0 ≤ ω / 2)] at h1
    have h2 : |ω / 2 - h| ≤ (u * h + 1 / 8 * (u * h)) / 2 := by
      rw [show ω / 2 - h = (ω - 2 * h) / 2 by ring, abs_div, abs_two]; linarith
    have h3 := abs_sub_le v (ω / 2) h
    have h4 : ω / 2 * (u / 2) ≤ 3 / 4 * (u * h) := by nlinarith [hωb.2]
    have h5 : 0 < u * h := by positivity
    linarith
  have hvb : |v| ≤ 2 * h := by
    have := abs_le.1 hverr
    rw [abs_le]; constructor <;> nlinarith
  have hstabs : |-L - v| ≤ 3 * L := by
    have := abs_le.1 hvb
    rw [abs_le]; constructor <;> linarith [this.1, this.2]
  have hst : |near (-L - v) - (-L + (2 * (0 : ℕ) - 1) * L / n)| ≤ (3 * (0 : ℕ) + 3) * (u * L) := by
    have h1 := hne (-L - v)
    have h2 : |-L - v - (-L - h)| ≤ 3 / 2 * (u * h) := by
      rw [show -L - v - (-L - h) = -(v - h) by ring, abs_neg]; exact hverr
    have h3 := abs_sub_le (near (-L - v)) (-L - v) (-L - h)
    have h4 : |-L - v| * (u / 2) ≤ (L + h + 3 / 2 * (u * h)) * (u / 2) := by
      refine mul_le_mul_of_nonneg_right ?_ (by positivity)
      have h5 := abs_le.1 h2
      rw [abs_le]; constructor <;> linarith [h5.1, h5.2]
    have h6 : (L + h + 3 / 2 * (u * h)) * (u / 2) ≤ u * L + 1 / 16 * (u * L) := by
      have : u * (u * h) ≤ 1 / 16 * (u * L) :=
        mul_le_mul hu1 huh (by positivity) (by norm_num)
      nlinarith
    push_cast
    rw [show -L + (2 * 0 - 1) * L / n = -L - h by rw [hh]; ring]
    have hq : 0 < u * L := by positivity
    linarith
  obtain ⟨new, g1, g2, g3⟩ := hloop hωl n 0 _ [] (by omega) hst
  have hst3 : |-L - v| ≤ 2 ^ 102 := hstabs.trans (by norm_num at hul ⊢; linarith)
  have hres : Shell.resize fresh (⟨Affine.id, ⟨fin Rx, fin Mx, fin Ry, fin My, fin L⟩, Box.default, [], RecVec.init fresh, []⟩ :
      Shell B64) n = .ok ⟨Affine.id, ⟨fin Rx, fin Mx, fin Ry, fin My, fin L⟩, Box.default, new,
        (RecVec.init fresh).clearReserve fresh, List.replicate n []⟩ () := by
    rw [Shell.resize, if_neg (by omega)]
    simp only [Shape.surfaceMaxWidth, hw2, hnat]
    rw [div_fin _ hnp.ne', round_near (by norm_num) hwabs, ← hω, B64.two_eq, div_fin _ (by norm_num),
      round_near (by norm_num) hhalfabs, ← hvv, show (-. (fin L) : B64) = fin (-L) from rfl, sub_fin,
      round_near (by norm_num) hst3, g1]
    rfl
  have hmake : Shell.make fresh n (fin Rx) (fin Mx) (fin Ry) (fin My) (fin L) = .ok (Shell.updateBBox ⟨Affine.id,
      ⟨fin Rx, fin Mx, fin Ry, fin My, fin L⟩, Box.default, new, (RecVec.init fresh).clearReserve fresh,
      List.replicate n []⟩) := by
    rw [Shell.make]; simp only [hres]
  refine ⟨_, hmake, g2, fun i hi => ?_⟩
  obtain ⟨rib, hrib⟩ : ∃ r, new[i]? = some r := ⟨_, List.getElem?_eq_getElem (by rw [g2]; exact hi)⟩
  obtain ⟨c, r, a, rfl, k2, k3, k4, k5⟩ := g3 i _ hrib
  rw [Nat.zero_add] at k2
  refine ⟨c, ω, r, ?_, ?_, ?_, k2, k3, hωw, k4, k5⟩
  · simp [Shell.ribCenter, Shell.ribAt, hrib, Rib.center, Disk.center, Rib.make, Shell.updateBBox, B64.zero_eq]
  · simp [Shell.ribWidth, Shell.ribAt, hrib, Rib.make, Shell.updateBBox]
  · simp [Shell.ribRadius, Shell.ribAt, hrib, Rib.make, Rib.radius, Shell.updateBBox]

/-- **C104, what holds.**  In the arithmetic of `double`, for parameters within wide ranges and up to a million ribs, the
constructor succeeds; the ribs have positive radii not larger than that of the tyre; their centres lie within the width of the
tyre and are where they should be, up to a few units in the last place of the half width per rib (the loop adds the
width again and again), and the widths are right up to one unit in the last place. -/
theorem C104_build_partial (fresh : Nat → Output B64) {n : ℕ} (hn : 1 ≤ n) (hn' : n ≤ 2 ^ 20) {rx mx ry my ly : B64}
    {Rx Mx Ry My L : ℝ} (hrx : IsDouble rx Rx) (hmx : IsDouble mx Mx) (hry : IsDouble ry Ry) (hmy : IsDouble my My)
    (hly : IsDouble ly L) (hv : ValidProfile Rx Mx Ry My L) (hp : PlainProfile Rx Mx Ry My L) :
    ∃ s, Shell.make fresh n rx mx ry my ly = .ok s ∧ s.size = n ∧ ∀ i < n, ∃ c w r : ℝ,
      s.ribCenter i = .ok ⟨fin 0, fin c, fin 0⟩ ∧ s.ribWidth i = .ok (fin w) ∧ s.ribRadius i = .ok (fin r) ∧
      |c - (-L + (2 * i + 1) * L / n)| ≤ (3 * i + 6) * (2 ^ (-52 : ℤ) * L) ∧ |c| ≤ L ∧
      |w - 2 * L / n| ≤ 2 ^ (-52 : ℤ) * (2 * L / n) ∧ 0 < r ∧ r ≤ Rx := by
  obtain ⟨s, h1, h2, h3⟩ := Shell.make_b64 fresh hn hn' hrx hmx hry hmy hly hv hp
  refine ⟨s, h1, h2, fun i hi => ?_⟩
  obtain ⟨c, w, r, k1, k2, k3, k4, k5, k6, k7, k8, -⟩ := h3 i hi
  exact ⟨c, w, r, k1, k2, k3, k4, k5, k6, k7, k8⟩

/-- The hypotheses are met by a common tyre, with any number of ribs up to a million. -/
example (fresh : Nat → Output B64) {n : ℕ} (hn : 1 ≤ n) (hn' : n ≤ 2 ^ 20) :
    ∃ s, Shell.make fresh n (fin (5 / 16)) (fin 8) (fin (3 / 16)) (fin 4) (fin (1 / 8)) = .ok s ∧ s.size = n := by
  have d : ∀ (x : ℝ) (m f : ℤ), x = m * (2 : ℝ) ^ f → |m| ≤ 2 ^ 53 → -1074 ≤ f → |x| < 2 ^ (10 : ℤ) → IsDouble (fin x) x :=
    fun x m f h1 h2 h3 h4 => ⟨rfl, ⟨m, f, h1, h2, h3⟩, h4.trans (zpow_lt_zpow_right₀ (by norm_num) (by norm_num))⟩
  obtain ⟨s, h1, h2, -⟩ := C104_build_partial fresh hn hn' (d (5 / 16) 5 (-4) (by norm_num) (by norm_num) (by norm_num) (by rw [abs_of_pos] <;> norm_num))
    (d 8 8 0 (by norm_num) (by norm_num) (by norm_num) (by rw [abs_of_pos] <;> norm_num))
    (d (3 / 16) 3 (-4) (by norm_num) (by norm_num) (by norm_num) (by rw [abs_of_pos] <;> norm_num))
    (d 4 4 0 (by norm_num) (by norm_num) (by norm_num) (by rw [abs_of_pos] <;> norm_num))
    (d (1 / 8) 1 (-3) (by norm_num) (by norm_num) (by norm_num) (by rw [abs_of_pos] <;> norm_num))
    ⟨by norm_num, by norm_num, by norm_num, by norm_num, by norm_num, by norm_num⟩
    ⟨by norm_num, by norm_num, by norm_num, by norm_num, by norm_num, by norm_num, by norm_num, by norm_num⟩
  exact ⟨s, h1, h2⟩

theorem B64.near_tiny {x : ℝ} (h0 : 0 ≤ x) (h1 : x ≤ 2 ^ (-1080 : ℤ)) : near x = 0 := by
  obtain ⟨m, f, e1, e2, e3⟩ := rep_near x
  have h2 : 0 ≤ near x := near_neg_le rep_zero h0
  have h3 := near_error x
  by_contra hne
  have hm : 1 ≤ m := by
    have hf : (0 : ℝ) < 2 ^ f := by positivity
    have : (0 : ℝ) < m := by
      rw [e1] at h2 hne
      rcases lt_trichotomy (m : ℝ) 0 with h | h | h
      · nlinarith
      · rw [h, zero_mul] at hne; exact absurd rfl hne
      · exact h
    exact_mod_cast this
  have h4 : (2 : ℝ) ^ (-1074 : ℤ) ≤ near x := by
    rw [e1]
    calc (2 : ℝ) ^ (-1074 : ℤ) ≤ 2 ^ f := zpow_le_zpow_right₀ (by norm_num) e3
      _ = 1 * 2 ^ f := by ring
      _ ≤ m * 2 ^ f := mul_le_mul_of_nonneg_right (by exact_mod_cast hm) (by positivity)
  obtain ⟨ζ, hζ⟩ : ∃ ζ : ℝ, ζ = 2 ^ (-1080 : ℤ) := ⟨_, rfl⟩
  have z1 : (2 : ℝ) ^ (-1074 : ℤ) = 64 * ζ := by
    rw [hζ, show (-1074 : ℤ) = 6 + -1080 by norm_num, zpow_add₀ (by norm_num)]; norm_num
  have z2 : (2 : ℝ) ^ (-1075 : ℤ) = 32 * ζ := by
    rw [hζ, show (-1075 : ℤ) = 5 + -1080 by norm_num, zpow_add₀ (by norm_num)]; norm_num
  have z0 : 0 < ζ := by rw [hζ]; positivity
  rw [z1] at h4
  rw [z2] at h3
  rw [← hζ] at h1
  clear hζ z1 z2
  have h5 : |x| * (2 : ℝ) ^ (-53 : ℤ) ≤ ζ := by
    rw [abs_of_nonneg h0]
    have : (2 : ℝ) ^ (-53 : ℤ) ≤ 1 := by norm_num
    nlinarith
  have h6 := (abs_le.1 h3).2
  linarith

/-- **C104 fails for sharp profiles.**  With the exponent `Mx = 2⁻¹²` (any positive exponent is a valid profile, and in exact arithmetic
the tyre has ribs of positive radii) the radius of a rib is so small that it is rounded to zero, and the constructor
throws. -/
theorem C104_sharp_refuted (fresh : Nat → Output B64) :
    ValidProfile 1 (1 / 4096) 1 1 1 ∧
    (∀ fresh' : Nat → Output ℝ, ∃ s, Shell.make fresh' 2 1 (1 / 4096) 1 1 1 = .ok s ∧ s.size = 2) ∧
    Shell.make fresh 2 (fin 1) (fin (1 / 4096)) (fin 1) (fin 1) (fin 1) = .throw "negative rib radius detected." := by
  have hv : ValidProfile 1 (1 / 4096) 1 1 1 :=
    ⟨by norm_num, by norm_num, by norm_num, by norm_num, by norm_num, by norm_num⟩
  refine ⟨hv, fun fresh' => ?_, ?_⟩
  · obtain ⟨s, h1, h2, -⟩ := C04_construct fresh' 2 (by norm_num) 1 (1 / 4096) 1 1 1 hv
    exact ⟨s, h1, h2⟩
  · have rd : ∀ (x : ℝ) (m f : ℤ), x = m * (2 : ℝ) ^ f → |m| < 2 ^ 53 → -970 ≤ f → f ≤ 900 → B64.round (.fin x) = fin x :=
      fun x m f h1 h2 h3 h4 => B64.exact m f h1 h2 h3 h4
    have r2 : B64.round (.fin 2) = fin 2 := rd 2 2 0 (by norm_num) (by norm_num) (by norm_num) (by norm_num)
    have r1 : B64.round (.fin 1) = fin 1 := rd 1 1 0 (by norm_num) (by norm_num) (by norm_num) (by norm_num)
    have rh : B64.round (.fin (1 / 2)) = fin (1 / 2) := rd _ 1 (-1) (by norm_num) (by norm_num) (by norm_num) (by norm_num)
    have r3 : B64.round (.fin (-(3 / 2))) = fin (-(3 / 2)) := rd _ (-3) (-1) (by norm_num) (by norm_num) (by norm_num) (by norm_num)
    have rmh : B64.round (.fin (-(1 / 2))) = fin (-(1 / 2)) := rd _ (-1) (-1) (by norm_num) (by norm_num) (by norm_num) (by norm_num)
    have r4096 : B64.round (.fin 4096) = fin 4096 := rd _ 4096 0 (by norm_num) (by norm_num) (by norm_num) (by norm_num)
    have r0 : B64.round (.fin 0) = fin 0 := rd _ 0 0 (by norm_num) (by norm_num) (by norm_num) (by norm_num)
    have tiny : ∀ k : ℕ, 1080 ≤ k → B64.round (.fin ((1 / 2 : ℝ) ^ (k : ℝ))) = fin 0 := by
      intro k hk
      have e : (1 / 2 : ℝ) ^ (k : ℝ) = 2 ^ (-(k : ℤ)) := by
        rw [Real.rpow_natCast, zpow_neg, zpow_natCast, one_div, inv_pow]
      have h1 : (1 / 2 : ℝ) ^ (k : ℝ) ≤ 2 ^ (-1080 : ℤ) := by
        rw [e]; exact zpow_le_zpow_right₀ (by norm_num) (by omega)
      have h0 : 0 ≤ (1 / 2 : ℝ) ^ (k : ℝ) := by positivity
      rw [round_near (k := 0) (by norm_num), B64.near_tiny h0 h1]
      rw [abs_of_nonneg h0]
      exact Real.rpow_le_one (by norm_num) (by norm_num) (by positivity)
    have t1 := tiny 4096 (by norm_num)
    push_cast at t1
    have nat2 : (Scalar.ofNat 2 : B64) = fin 2 := by
      show round (Scalar.lit 2 1 : XR) = _
      rw [show (Scalar.lit 2 1 : XR) = .fin (((2 : ℕ) : ℝ) / (1 : ℕ)) from rfl]
      norm_num [r2]
    set sh : Shape B64 := ⟨fin 1, fin (1 / 4096), fin 1, fin 1, fin 1⟩ with hsh
    have chk : sh.checkWidthBound (fin (-(1 / 2))) = true := by
      simp [Shape.checkWidthBound, DoubleDemo.abs_fin, hsh]; norm_num [abs_of_pos]
    have hrad : sh.surfaceRadius (fin (-(1 / 2))) = .ok (fin 0) := by
      simp only [Shape.surfaceRadius, Res.assert, Res.pure_eq, hsh, DoubleDemo.abs_fin, B64.one_eq]
      rw [show |(-(1 / 2) : ℝ)| = 1 / 2 by rw [abs_neg, abs_of_pos] <;> norm_num, div_fin _ one_ne_zero, div_one, rh,
        pow_fin (.inl (by norm_num)),
        Real.rpow_one, rh, sub_fin, show (1 - 1 / 2 : ℝ) = 1 / 2 by norm_num, rh, div_fin _ (by norm_num),
        show (1 / (1 / 4096) : ℝ) = 4096 by norm_num, r4096, pow_fin (.inl (by norm_num)), t1, mul_fin, mul_zero, r0,
        if_pos (by rw [← hsh]; exact chk)]
      rfl
    have hang : ∃ a, sh.surfaceAngle (fin (-(1 / 2))) Scalar.eps = .ok a := by
      have : ∃ d, sh.surfaceDerivative (fin (-(1 / 2))) Scalar.eps = .ok d := by
        simp only [Shape.surfaceDerivative, chk, Res.assert, if_true, Res.bind_ok, Res.pure_eq]
        split <;> exact ⟨_, rfl⟩
      obtain ⟨d, hd⟩ := this
      exact ⟨_, by rw [Shape.surfaceAngle, hd, Res.bind_ok, Res.pure_eq]⟩
    obtain ⟨a, ha⟩ := hang
    rw [Shell.make]
    simp only [Shell.resize, if_neg (by norm_num : ¬ (2 : ℕ) = 0), Shape.surfaceMaxWidth, nat2, B64.two_eq, mul_fin, mul_one, r2]
    rw [div_fin _ (by norm_num), div_self (by norm_num), r1, div_fin _ (by norm_num), rh,
      show (-. (fin 1) : B64) = fin (-1) from rfl, sub_fin, show (-1 - 1 / 2 : ℝ) = -(3 / 2) by norm_num, r3]
    simp only [Shell.resizeLoop, add_fin]
    rw [show (-(3 / 2) + 1 : ℝ) = -(1 / 2) by norm_num, rmh, hrad, ha]
    have hz : ((Scalar.zero : B64) <. fin 0) = false := by rw [B64.zero_eq, lt_fin]; simp
    simp only [Res.bind_ok, Res.assert, hz]
    rfl

end Enve
