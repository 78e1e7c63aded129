import Verif.Lemmas.Mean
import Verif.Props.DoubleProps
import Verif.Props.AreaProps
import Mathlib.Analysis.SpecialFunctions.Trigonometric.Bounds

/-! # Rounding errors of the area and volume of a circular segment -/

namespace Enve
open Scalar Spec B64

namespace SegRound

/-- The angles of two numbers. -/
theorem arccos_sub {a b : ℝ} (ha : -1 ≤ a) (ha' : a ≤ 1) (hb : -1 ≤ b) (hb' : b ≤ 1) :
    |Real.arccos a - Real.arccos b| / Real.pi * Real.sin ((Real.arccos a + Real.arccos b) / 2) * 2 ≤ |a - b| := by
  set x := Real.arccos a
  set y := Real.arccos b
  have hx0 := Real.arccos_nonneg a
  have hy0 := Real.arccos_nonneg b
  have hx1 := Real.arccos_le_pi a
  have hy1 := Real.arccos_le_pi b
  have e : a - b = -2 * Real.sin ((x + y) / 2) * Real.sin ((x - y) / 2) := by
    rw [← Real.cos_sub_cos, Real.cos_arccos ha ha', Real.cos_arccos hb hb']
  have hs : 0 ≤ Real.sin ((x + y) / 2) := Real.sin_nonneg_of_nonneg_of_le_pi (by linarith) (by linarith)
  have hd : |x - y| ≤ Real.pi := abs_le.2 ⟨by linarith, by linarith⟩
  have h2 : |x - y| / Real.pi ≤ |Real.sin ((x - y) / 2)| := by
    have : Real.sin (|x - y| / 2) = |Real.sin ((x - y) / 2)| := by
      rcases abs_cases (x - y) with ⟨h, h'⟩ | ⟨h, h'⟩
      · rw [h, abs_of_nonneg (Real.sin_nonneg_of_nonneg_of_le_pi (by linarith) (by linarith))]
      · rw [h, show -(x - y) / 2 = -((x - y) / 2) by ring, Real.sin_neg, abs_of_nonpos]
        have := Real.sin_nonneg_of_nonneg_of_le_pi (x := -((x - y) / 2)) (by linarith) (by linarith)
        rw [Real.sin_neg] at this
        linarith
    rw [← this]
    have := Real.mul_le_sin (x := |x - y| / 2) (by positivity) (by linarith)
    calc |x - y| / Real.pi = 2 / Real.pi * (|x - y| / 2) := by field_simp
      _ ≤ _ := this
  rw [e, abs_mul, abs_mul, abs_of_nonneg hs]
  norm_num
  nlinarith

/-- Always. -/
theorem arccos_holder {a b e : ℝ} (ha : -1 ≤ a) (ha' : a ≤ 1) (hb : -1 ≤ b) (hb' : b ≤ 1) (he : 0 ≤ e) (h : |a - b| ≤ 2 * e ^ 2) :
    |Real.arccos a - Real.arccos b| ≤ Real.pi * e := by
  have k := arccos_sub ha ha' hb hb'
  have hp := Real.pi_pos
  set x := Real.arccos a
  set y := Real.arccos b
  have hx0 : 0 ≤ x := Real.arccos_nonneg a
  have hy0 : 0 ≤ y := Real.arccos_nonneg b
  have hx1 : x ≤ Real.pi := Real.arccos_le_pi a
  have hy1 : y ≤ Real.pi := Real.arccos_le_pi b
  have hd : |x - y| ≤ Real.pi := abs_le.2 ⟨by linarith, by linarith⟩
  have hs : |x - y| / Real.pi ≤ Real.sin ((x + y) / 2) := by
    have h1 : |x - y| / Real.pi ≤ Real.sin (|x - y| / 2) := by
      have := Real.mul_le_sin (x := |x - y| / 2) (by positivity) (by linarith)
      calc |x - y| / Real.pi = 2 / Real.pi * (|x - y| / 2) := by field_simp
        _ ≤ _ := this
    refine h1.trans ?_
    have hle : |x - y| / 2 ≤ (x + y) / 2 := by
      rcases abs_cases (x - y) with ⟨h, h'⟩ | ⟨h, h'⟩ <;> linarith
    have hle' : |x - y| / 2 ≤ Real.pi - (x + y) / 2 := by
      rcases abs_cases (x - y) with ⟨h, h'⟩ | ⟨h, h'⟩ <;> linarith
    rcases le_total ((x + y) / 2) (Real.pi / 2) with hc | hc
    · exact Real.sin_le_sin_of_le_of_le_pi_div_two (by linarith [abs_nonneg (x - y)]) hc hle
    · rw [← Real.sin_pi_sub ((x + y) / 2)]
      exact Real.sin_le_sin_of_le_of_le_pi_div_two (by linarith [abs_nonneg (x - y)]) (by linarith) hle'
  have h0 : 0 ≤ |x - y| / Real.pi := by positivity
  have h3 : |x - y| / Real.pi * (|x - y| / Real.pi) * 2 ≤ 2 * e ^ 2 := by nlinarith
  have h4 : |x - y| / Real.pi ≤ e := abs_le_of_sq_le_sq' (by nlinarith) he |>.2
  rw [div_le_iff₀ hp] at h4
  linarith

/-- Away from one. -/
theorem arccos_lip {a b : ℝ} (ha : 0 ≤ a) (ha' : a ≤ 1) (hb : -1 ≤ b) (hb' : b ≤ 1) :
    |Real.arccos a - Real.arccos b| * (2 * Real.sqrt ((1 - a) / 2)) ≤ Real.pi * |a - b| := by
  have k := arccos_sub (by linarith) ha' hb hb'
  have hp := Real.pi_pos
  have hx2 : Real.arccos a ≤ Real.pi / 2 := Real.arccos_le_pi_div_two.2 ha
  have hhalf : Real.sqrt ((1 - a) / 2) = Real.sin (Real.arccos a / 2) := by
    rw [Real.sin_half_eq_sqrt (Real.arccos_nonneg a) (by linarith), Real.cos_arccos (by linarith) ha']
  have hx0 : 0 ≤ Real.arccos a := Real.arccos_nonneg a
  have hy0 : 0 ≤ Real.arccos b := Real.arccos_nonneg b
  have hy1 : Real.arccos b ≤ Real.pi := Real.arccos_le_pi b
  have hs : Real.sin (Real.arccos a / 2) ≤ Real.sin ((Real.arccos a + Real.arccos b) / 2) := by
    rcases le_total ((Real.arccos a + Real.arccos b) / 2) (Real.pi / 2) with hc | hc
    · exact Real.sin_le_sin_of_le_of_le_pi_div_two (by linarith) hc (by linarith)
    · rw [← Real.sin_pi_sub ((Real.arccos a + Real.arccos b) / 2)]
      exact Real.sin_le_sin_of_le_of_le_pi_div_two (by linarith) (by linarith) (by linarith)
  rw [hhalf]
  set x := Real.arccos a
  set y := Real.arccos b
  have h1 : |x - y| / Real.pi * Real.sin (x / 2) * 2 ≤ |a - b| := by
    refine le_trans ?_ k
    have : 0 ≤ |x - y| / Real.pi := by positivity
    nlinarith
  calc |x - y| * (2 * Real.sin (x / 2)) = Real.pi * (|x - y| / Real.pi * Real.sin (x / 2) * 2) := by field_simp
    _ ≤ _ := mul_le_mul_of_nonneg_left h1 hp.le

/-- The area of a segment is not too small. -/
theorem area_lower {R d : ℝ} (hR : 0 < R) (h0 : 0 ≤ d) (h1 : d ≤ R) : d * Real.sqrt (R * d) ≤ segmentArea R d := by
  rw [segmentArea_eq hR h0 (by linarith)]
  have hmono : MonotoneOn (fun x => - primSeg R (R - x) - x * Real.sqrt (R * x)) (Set.Icc 0 R) := by
    refine monotoneOn_of_deriv_nonneg (convex_Icc _ _) ?_ ?_ ?_
    · have := primSeg_continuous R
      exact Continuous.continuousOn (by fun_prop)
    · intro x hx
      rw [interior_Icc] at hx
      have a1 := (primSeg_deriv (R := R) (t := R - x) (by linarith [hx.2]) (by linarith [hx.1])).differentiableAt
      have a2 : DifferentiableAt ℝ (fun x => primSeg R (R - x)) x :=
        DifferentiableAt.comp x a1 (by fun_prop)
      have a3 : DifferentiableAt ℝ (fun x => Real.sqrt (R * x)) x :=
        DifferentiableAt.sqrt (by fun_prop) (mul_pos hR hx.1).ne'
      exact (a2.neg.sub (differentiableAt_fun_id.mul a3)).differentiableWithinAt
    · intro x hx
      rw [interior_Icc] at hx
      have b1 : HasDerivAt (fun x => primSeg R (R - x)) (2 * Real.sqrt (R ^ 2 - (R - x) ^ 2) * (-1)) x :=
        HasDerivAt.comp x (primSeg_deriv (R := R) (t := R - x) (by linarith [hx.2]) (by linarith [hx.1]))
          ((hasDerivAt_id x).const_sub R)
      have hRx : 0 < R * x := mul_pos hR hx.1
      have b2 : HasDerivAt (fun x => Real.sqrt (R * x)) (R * 1 / (2 * Real.sqrt (R * x))) x :=
        HasDerivAt.sqrt ((hasDerivAt_id x).const_mul R) hRx.ne'
      have b3 := (b1.neg.sub ((hasDerivAt_id x).mul b2)).deriv
      have b4 : deriv (fun x => - primSeg R (R - x) - x * Real.sqrt (R * x)) x = 
          -(2 * Real.sqrt (R ^ 2 - (R - x) ^ 2) * (-1)) - (1 * Real.sqrt (R * x) + x * (R * 1 / (2 * Real.sqrt (R * x)))) := b3
      rw [b4]
      have hs : 0 < Real.sqrt (R * x) := Real.sqrt_pos.2 hRx
      have hq : Real.sqrt (R * x) ≤ Real.sqrt (R ^ 2 - (R - x) ^ 2) := Real.sqrt_le_sqrt (by nlinarith [hx.1, hx.2])
      have hr : x * (R * 1 / (2 * Real.sqrt (R * x))) = Real.sqrt (R * x) / 2 := by
        rw [mul_one, mul_div_assoc']
        rw [div_eq_div_iff (by positivity) (by norm_num)]
        have := Real.mul_self_sqrt hRx.le
        linarith
      rw [hr]
      linarith
  have := hmono (a := 0) ⟨le_rfl, hR.le⟩ (b := d) ⟨h0, h1⟩ h0
  simp only [sub_zero, primSeg_right hR, zero_mul, neg_zero] at this
  linarith

/-- One rounding. -/
theorem rnd {x X e C : ℝ} (h : |x - X| ≤ e) (hC : |x| ≤ C) (hlo : 1 / 2 ^ 170 ≤ C) : |near x - X| ≤ e + C * (1 / 2 ^ 53 + 1 / 2 ^ 73) := by
  have h1 := Mean.near_error' x
  have h2 : |x| / 2 ^ 53 ≤ C / 2 ^ 53 := div_le_div_of_nonneg_right hC (by norm_num)
  have h3 : (1 : ℝ) / 2 ^ 250 ≤ C / 2 ^ 73 := by norm_num at hlo ⊢; linarith
  calc |near x - X| ≤ |near x - x| + |x - X| := abs_sub_le _ _ _
    _ ≤ _ := by
      rw [mul_add, mul_one_div, mul_one_div]; linarith

theorem mulErr {a A b B ea eb Ca CB : ℝ} (h1 : |a - A| ≤ ea) (h2 : |b - B| ≤ eb) (ha : |a| ≤ Ca) (hB : |B| ≤ CB) :
    |a * b - A * B| ≤ Ca * eb + ea * CB := by
  have e : a * b - A * B = a * (b - B) + (a - A) * B := by ring
  rw [e]
  refine (abs_add_le _ _).trans ?_
  rw [abs_mul, abs_mul]
  exact add_le_add (mul_le_mul ha h2 (abs_nonneg _) ((abs_nonneg _).trans ha))
    (mul_le_mul h1 hB (abs_nonneg _) ((abs_nonneg _).trans h1))

/-- Roots of close numbers. -/
theorem sqrtErr {p P η ε : ℝ} (hp : 0 ≤ p) (hP : 0 ≤ P) (hη : 0 ≤ η) (hη' : η ≤ 1) (hε : 0 ≤ ε) (h : |p - P| ≤ η * P + ε ^ 2) :
    |Real.sqrt p - Real.sqrt P| ≤ η * Real.sqrt P + ε := by
  obtain ⟨h1, h2⟩ := abs_le.1 h
  have hs := Real.sqrt_nonneg P
  have hq := Real.sqrt_nonneg p
  have hs2 := Real.sq_sqrt hP
  have hq2 := Real.sq_sqrt hp
  generalize Real.sqrt P = S at *
  generalize Real.sqrt p = q at *
  subst hs2 hq2
  rw [abs_le]
  constructor
  · by_contra hc
    push Not at hc
    have h3 : q < S * (1 - η) - ε := by linarith
    have h4 : 0 ≤ S * (1 - η) - ε - q := by linarith
    have h5 : q * q < (S * (1 - η) - ε) * (S * (1 - η) - ε) := mul_self_lt_mul_self hq h3
    have h6 : ε * (S * (1 - η) - ε) ≥ 0 := mul_nonneg hε (by linarith)
    have h7 : 0 ≤ S ^ 2 * (η * (1 - η)) := mul_nonneg (sq_nonneg _) (mul_nonneg hη (by linarith))
    nlinarith
  · have h3 : q ≤ S + (η * S + ε) := by
      refine abs_le_of_sq_le_sq' ?_ (by positivity) |>.2
      have : 0 ≤ S * ε := mul_nonneg hs hε
      have : 0 ≤ η * S * ε := mul_nonneg (mul_nonneg hη hs) hε
      have : 0 ≤ η * S ^ 2 := mul_nonneg hη (sq_nonneg _)
      nlinarith [sq_nonneg (η * S)]
    linarith

section
variable {R w d : ℝ}

theorem nearNonneg {x : ℝ} (h : 0 ≤ x) : 0 ≤ near x := near_neg_le rep_zero h

/-- The half chord. -/
theorem root (hlo : 1 / 2 ^ 20 ≤ R) (hhi : R ≤ 2 ^ 20) (h0 : 0 ≤ d) (h1 : d ≤ R) :
    ∃ s, Scalar.sqrt (B64.fin d *. (Scalar.two *. B64.fin R -. B64.fin d)) = .fin s ∧ 0 ≤ s ∧
      |s - Real.sqrt (d * (2 * R - d))| ≤ 8 * (1 / 2 ^ 53 + 1 / 2 ^ 73) * Real.sqrt (d * (2 * R - d)) + 1 / 2 ^ 123 := by
  obtain ⟨μ, hμ⟩ : ∃ μ : ℝ, μ = 1 / 2 ^ 53 + 1 / 2 ^ 73 := ⟨_, rfl⟩
  have hμ0 : 0 < μ := by rw [hμ]; norm_num
  have hμ1 : μ ≤ 1 / 2 ^ 52 := by rw [hμ]; norm_num
  have hμ2 : 1 / 2 ^ 53 ≤ μ := by rw [hμ]; norm_num
  have hR : 0 < R := by linarith [show (0:ℝ) < 1 / 2 ^ 20 by norm_num]
  have a1 : |near (2 * R) - 2 * R| ≤ 2 * R * μ := by
    have := rnd (x := 2 * R) (X := 2 * R) (e := 0) (C := 2 * R) (by simp) (by rw [abs_of_nonneg (by linarith)])
      (by norm_num at hlo ⊢; linarith)
    rw [← hμ] at this; linarith
  have b1 := abs_le.1 a1
  have hRμ : R * μ ≤ R * (1 / 2 ^ 52) := mul_le_mul_of_nonneg_left hμ1 hR.le
  obtain ⟨y, hy⟩ : ∃ y, y = near (2 * R) := ⟨_, rfl⟩
  rw [← hy] at a1 b1
  have hyd : 0 ≤ y - d := by norm_num at hRμ; linarith
  have hyd' : y - d ≤ 3 * R := by norm_num at hRμ; linarith
  have a2 : |near (y - d) - (2 * R - d)| ≤ 5 * μ * (2 * R - d) := by
    have := rnd (x := y - d) (X := 2 * R - d) (e := 2 * R * μ) (C := 3 * R)
      (by rwa [show y - d - (2 * R - d) = y - 2 * R by ring])
      (by rwa [abs_of_nonneg hyd]) (by norm_num at hlo ⊢; linarith)
    rw [← hμ] at this
    have h2 : R * μ ≤ (2 * R - d) * μ := mul_le_mul_of_nonneg_right (by linarith) hμ0.le
    linarith
  obtain ⟨z, hz⟩ : ∃ z, z = near (y - d) := ⟨_, rfl⟩
  have hz0 : 0 ≤ z := by rw [hz]; exact nearNonneg hyd
  rw [← hz] at a2
  have hP : 0 ≤ d * (2 * R - d) := mul_nonneg h0 (by linarith)
  have a3 : |d * z - d * (2 * R - d)| ≤ 5 * μ * (d * (2 * R - d)) := by
    rw [← mul_sub, abs_mul, abs_of_nonneg h0]
    calc d * |z - (2 * R - d)| ≤ d * (5 * μ * (2 * R - d)) := mul_le_mul_of_nonneg_left a2 h0
      _ = _ := by ring
  have hPle : d * (2 * R - d) ≤ R ^ 2 := by nlinarith [sq_nonneg (R - d)]
  have hR2 : R ^ 2 ≤ 2 ^ 40 := by nlinarith
  obtain ⟨P, hPd⟩ : ∃ P, P = d * (2 * R - d) := ⟨_, rfl⟩
  rw [← hPd] at hP a3 hPle ⊢
  have hPμ : P * μ ≤ P * (1 / 2 ^ 52) := mul_le_mul_of_nonneg_left hμ1 hP
  have hdz : 0 ≤ d * z := mul_nonneg h0 hz0
  have b3 := abs_le.1 a3
  have hdz' : d * z ≤ P * (1 + 1 / 2 ^ 49) := by norm_num at hPμ ⊢; linarith
  obtain ⟨q, hq⟩ : ∃ q, q = near (d * z) := ⟨_, rfl⟩
  have hq0 : 0 ≤ q := by rw [hq]; exact nearNonneg hdz
  have a4 : |q - P| ≤ 13 / 2 * μ * P + (1 / 2 ^ 125) ^ 2 := by
    have h2 := Mean.near_error' (d * z)
    rw [← hq, abs_of_nonneg hdz] at h2
    have h3 : |q - P| ≤ |q - d * z| + |d * z - P| := abs_sub_le _ _ _
    have h4 : d * z / 2 ^ 53 ≤ 3 / 2 * μ * P := by
      have : P * (1 / 2 ^ 53) ≤ P * μ := mul_le_mul_of_nonneg_left hμ2 hP
      norm_num at hdz' this ⊢; linarith
    have h5 : ((1 : ℝ) / 2 ^ 125) ^ 2 = 1 / 2 ^ 250 := by norm_num
    rw [h5]
    linarith
  have a5 := sqrtErr hq0 hP (η := 13 / 2 * μ) (by positivity) (by norm_num at hμ1 ⊢; linarith) (by positivity) a4
  have hS := Real.sqrt_nonneg P
  have hSR : Real.sqrt P ≤ R := Real.sqrt_le_iff.2 ⟨hR.le, hPle⟩
  have hSq := Real.sqrt_nonneg q
  obtain ⟨S, hSd⟩ : ∃ S, S = Real.sqrt P := ⟨_, rfl⟩
  obtain ⟨u, hu⟩ : ∃ u, u = Real.sqrt q := ⟨_, rfl⟩
  have key : Scalar.sqrt (B64.fin d *. (Scalar.two *. B64.fin R -. B64.fin d)) = B64.round (.fin u) := by
    rw [B64.two_eq, B64.mul_fin, round_near (k := 21) (by norm_num) (by rw [abs_of_nonneg (by linarith)]; norm_num at hhi ⊢; linarith),
      ← hy, B64.sub_fin, round_near (k := 22) (by norm_num) (by rw [abs_of_nonneg hyd]; norm_num at hhi ⊢; linarith), ← hz, B64.mul_fin,
      round_near (k := 41) (by norm_num) (by rw [abs_of_nonneg hdz]; norm_num at hdz' hR2 ⊢; linarith), ← hq, B64.sqrt_fin hq0, ← hu]
  rw [← hSd, ← hu] at a5
  rw [← hSd] at hS hSR
  rw [← hu] at hSq
  have hSμ : S * μ ≤ S * (1 / 2 ^ 52) := mul_le_mul_of_nonneg_left hμ1 hS
  have b5 := abs_le.1 a5
  have hule : u ≤ S * (1 + 1 / 2 ^ 49) + 1 / 2 ^ 125 := by norm_num at hSμ b5 ⊢; linarith
  refine ⟨near u, ?_, nearNonneg hSq, ?_⟩
  · rw [key, round_near (k := 22) (by norm_num)]
    rw [abs_of_nonneg hSq]; norm_num at hule hhi ⊢; linarith
  · rw [← hSd, ← hμ]
    have h2 := Mean.near_error' u
    rw [abs_of_nonneg hSq] at h2
    have h3 : |near u - S| ≤ |near u - u| + |u - S| := abs_sub_le _ _ _
    have h4 : S * (1 / 2 ^ 53) ≤ S * μ := mul_le_mul_of_nonneg_left hμ2 hS
    norm_num at h2 h3 h4 hule a5 ⊢
    linarith

/-- The chord times the width. -/
theorem area (hlo : 1 / 2 ^ 20 ≤ R) (hhi : R ≤ 2 ^ 20) (hw : 0 ≤ w) (hw' : w ≤ 2 ^ 20) (h0 : 0 ≤ d) (h1 : d ≤ R) :
    ∃ a, Rib.depthArea (.fin R) (.fin w) (.fin d) = B64.fin a ∧ 0 ≤ a ∧
      |a - Rib.depthArea R w d| ≤ Rib.depthArea R w d / 2 ^ 49 + 1 / 2 ^ 100 := by
  obtain ⟨s, e, hs0, hs⟩ := root hlo hhi h0 h1
  have hR : 0 < R := by linarith [show (0:ℝ) < 1 / 2 ^ 20 by norm_num]
  have hA : Rib.depthArea R w d = 2 * Real.sqrt (d * (2 * R - d)) * w := by
    simp only [Rib.depthArea, real_mul, real_sub, real_two, real_sqrt]
  rw [hA]
  have hS := Real.sqrt_nonneg (d * (2 * R - d))
  have hSR : Real.sqrt (d * (2 * R - d)) ≤ R := Real.sqrt_le_iff.2 ⟨hR.le, by nlinarith [sq_nonneg (R - d)]⟩
  generalize Real.sqrt (d * (2 * R - d)) = S at *
  have c1 := abs_le.1 hs
  have hsR : s ≤ 2 ^ 21 := by clear hA e hw hw'; norm_num at *; linarith
  have hs2 := Mean.near_error' (2 * s)
  rw [abs_of_nonneg (show 0 ≤ 2 * s by linarith)] at hs2
  have c2 := abs_le.1 hs2
  have hn0 := nearNonneg (x := 2 * s) (by linarith)
  obtain ⟨u, hu⟩ : ∃ u, u = near (2 * s) := ⟨_, rfl⟩
  rw [← hu] at hs2 c2 hn0
  have hu' : u ≤ 2 ^ 23 := by clear hA e hw hw'; norm_num at *; linarith
  have a1 : |u - 2 * S| ≤ 2 * S * (39 / 4 / 2 ^ 53) + 1 / 2 ^ 121 := by
    clear hA e hw hw' hu; norm_num at *; rw [abs_le]; constructor <;> linarith
  have a2 : |u * w - 2 * S * w| ≤ 2 * S * w * (39 / 4 / 2 ^ 53) + 1 / 2 ^ 101 := by
    rw [← sub_mul, abs_mul, abs_of_nonneg hw]
    calc |u - 2 * S| * w ≤ (2 * S * (39 / 4 / 2 ^ 53) + 1 / 2 ^ 121) * w := mul_le_mul_of_nonneg_right a1 hw
      _ = 2 * S * w * (39 / 4 / 2 ^ 53) + 1 / 2 ^ 121 * w := by ring
      _ ≤ 2 * S * w * (39 / 4 / 2 ^ 53) + 1 / 2 ^ 121 * 2 ^ 20 := by
        gcongr
      _ = _ := by norm_num
  have huw : 0 ≤ u * w := mul_nonneg hn0 hw
  have huw' : u * w ≤ 2 ^ 23 * 2 ^ 20 := mul_le_mul hu' hw' hw (by norm_num)
  refine ⟨near (u * w), ?_, nearNonneg huw, ?_⟩
  · rw [Rib.depthArea, e, B64.two_eq, B64.mul_fin, round_near (k := 22) (by norm_num) (by rw [abs_of_nonneg (by linarith)]; norm_num at *; linarith),
      ← hu, B64.mul_fin, round_near (k := 43) (by norm_num) (by rw [abs_of_nonneg huw]; norm_num at *; linarith)]
  · have h2 := Mean.near_error' (u * w)
    rw [abs_of_nonneg huw] at h2
    have h3 : |near (u * w) - 2 * S * w| ≤ |near (u * w) - u * w| + |u * w - 2 * S * w| := abs_sub_le _ _ _
    have hX : 0 ≤ 2 * S * w := by positivity
    have c3 := abs_le.1 a2
    generalize 2 * S * w = X at *
    generalize near (u * w) = N at *
    generalize u * w = Y at *
    clear * - h2 h3 hX c3 a2
    norm_num at *
    linarith

/-- The area of the segment times the width. -/
theorem volume (hrR : Rep R) (hlo : 1 / 2 ^ 20 ≤ R) (hhi : R ≤ 2 ^ 20) (hw : 1 / 2 ^ 20 ≤ w) (hw' : w ≤ 2 ^ 20) (h0 : 0 ≤ d) (h1 : d ≤ R)
    {μ H : ℝ} (hμ : μ = 1 / 2 ^ 53 + 1 / 2 ^ 73) (hH0 : 0 ≤ H) (hH : H ≤ 1 / 2)
    (hac : ∀ k, 0 ≤ k → k ≤ 1 → |k - (R - d) / R| ≤ 2 * μ → |Real.arccos k - Real.arccos ((R - d) / R)| ≤ H) :
    ∃ v, Rib.depthVolume (.fin R) (.fin w) (.fin d) = B64.fin v ∧
      |v - Rib.depthVolume R w d| ≤ w * R ^ 2 * (H + 27 * μ) := by
  obtain ⟨s, es, hs0, hs⟩ := root hlo hhi h0 h1
  have hR : 0 < R := by linarith [show (0:ℝ) < 1 / 2 ^ 20 by norm_num]
  have hwp : 0 < w := by linarith [show (0:ℝ) < 1 / 2 ^ 20 by norm_num]
  have hμ0 : 0 < μ := by rw [hμ]; norm_num
  have hμ1 : μ ≤ 1 / 2 ^ 52 := by rw [hμ]; norm_num
  have hμ2 : 1 / 2 ^ 53 ≤ μ := by rw [hμ]; norm_num
  have hV : Rib.depthVolume R w d =
      (R * R * Real.arccos ((R - d) / R) - (R - d) * Real.sqrt (d * (2 * R - d))) * w := by
    simp only [Rib.depthVolume, real_mul, real_sub, real_div, real_two, real_sqrt, real_acos]
  rw [hV]
  rw [← hμ] at hs
  have hS := Real.sqrt_nonneg (d * (2 * R - d))
  have hSR : Real.sqrt (d * (2 * R - d)) ≤ R := Real.sqrt_le_iff.2 ⟨hR.le, by nlinarith [sq_nonneg (R - d)]⟩
  generalize Real.sqrt (d * (2 * R - d)) = S at *
  have hRlo2 : 1 / 2 ^ 40 ≤ R ^ 2 := by
    have : (1 / 2 ^ 20 : ℝ) ^ 2 ≤ R ^ 2 := pow_le_pow_left₀ (by norm_num) hlo 2
    norm_num at this ⊢; linarith
  have hRhi2 : R ^ 2 ≤ 2 ^ 40 := by
    have : R ^ 2 ≤ (2 ^ 20 : ℝ) ^ 2 := pow_le_pow_left₀ hR.le hhi 2
    norm_num at this ⊢; linarith
  have hR2 : 0 < R ^ 2 := by positivity
  -- the half chord
  have sErr : |s - S| ≤ 9 * R * μ := by
    have k1 : S * μ ≤ R * μ := mul_le_mul_of_nonneg_right hSR hμ0.le
    have k2 : 1 / 2 ^ 20 * (1 / 2 ^ 53) ≤ R * μ := mul_le_mul hlo hμ2 (by norm_num) hR.le
    norm_num at k2 hs ⊢
    linarith
  have hRμ : R * μ ≤ R * (1 / 2 ^ 52) := mul_le_mul_of_nonneg_left hμ1 hR.le
  have hsR : s ≤ 2 * R := by
    have := (abs_le.1 sErr).2
    norm_num at hRμ
    linarith
  -- distance of the chord from the centre
  obtain ⟨c, hc⟩ : ∃ c, c = near (R - d) := ⟨_, rfl⟩
  have hc0 : 0 ≤ c := by rw [hc]; exact nearNonneg (by linarith)
  have hcR : c ≤ R := by rw [hc]; exact near_le hrR (by linarith)
  have cErr : |c - (R - d)| ≤ R * μ := by
    have := rnd (x := R - d) (X := R - d) (e := 0) (C := R) (by simp) (by rw [abs_of_nonneg (by linarith)]; linarith)
      (by norm_num at hlo ⊢; linarith)
    rw [← hμ] at this; rw [hc]; linarith
  -- cosine
  obtain ⟨k, hk⟩ : ∃ k, k = near (c / R) := ⟨_, rfl⟩
  have hcq0 : 0 ≤ c / R := by positivity
  have hcq1 : c / R ≤ 1 := (div_le_one hR).2 hcR
  have hk0 : 0 ≤ k := by rw [hk]; exact nearNonneg hcq0
  have hk1 : k ≤ 1 := by rw [hk]; exact near_le rep_one hcq1
  have kErr : |k - (R - d) / R| ≤ 2 * μ := by
    have h2 : |c / R - (R - d) / R| ≤ μ := by
      rw [← sub_div, abs_div, abs_of_pos hR, div_le_iff₀ hR]; linarith
    have := rnd (C := 1) h2 (by rwa [abs_of_nonneg hcq0]) (by norm_num)
    rw [← hμ] at this; rw [hk]; linarith
  -- angle
  have hang := hac k hk0 hk1 kErr
  have hpi : Real.pi ≤ 4 := Real.pi_le_four
  have hΘ0 : 0 ≤ Real.arccos ((R - d) / R) := Real.arccos_nonneg _
  have hκ0 : 0 ≤ (R - d) / R := div_nonneg (by linarith) hR.le
  have hΘ1 : Real.arccos ((R - d) / R) ≤ 2 := (Real.arccos_le_pi_div_two.2 hκ0).trans (by linarith)
  have hφ0 : 0 ≤ Real.arccos k := Real.arccos_nonneg _
  have hφ1 : Real.arccos k ≤ 2 := (Real.arccos_le_pi_div_two.2 hk0).trans (by linarith)
  have eac : Scalar.acos (B64.fin k) = B64.round (.fin (Real.arccos k)) := by
    show B64.round (Scalar.acos (XR.fin k)) = _
    have : Scalar.acos (XR.fin k) = XR.fin (Real.arccos k) := by
      show (if _ then _ else _) = _
      rw [if_pos ⟨by linarith, hk1⟩]
    rw [this]
  generalize Real.arccos ((R - d) / R) = Θ at *
  generalize Real.arccos k = φ at *
  obtain ⟨θ, hθ⟩ : ∃ θ, θ = near φ := ⟨_, rfl⟩
  have hθ0 : 0 ≤ θ := by rw [hθ]; exact nearNonneg hφ0
  have hθ1 : θ ≤ 2 := by rw [hθ]; exact near_le (by simpa using rep_pow 1) hφ1
  have θErr : |θ - Θ| ≤ H + 2 * μ := by
    have := rnd (C := 2) hang (by rwa [abs_of_nonneg hφ0]) (by norm_num)
    rw [← hμ] at this; rwa [hθ]
  -- square of the radius
  obtain ⟨q, hq⟩ : ∃ q, q = near (R * R) := ⟨_, rfl⟩
  have hq0 : 0 ≤ q := by rw [hq]; exact nearNonneg (by positivity)
  have qErr : |q - R ^ 2| ≤ R ^ 2 * μ := by
    have := rnd (x := R * R) (X := R ^ 2) (e := 0) (C := R ^ 2) (by rw [← pow_two]; simp) (by rw [← pow_two, abs_of_pos hR2])
      (by norm_num at hRlo2 ⊢; linarith)
    rw [← hμ] at this; rw [hq]; linarith
  have hR2μ : R ^ 2 * μ ≤ R ^ 2 * (1 / 2 ^ 52) := mul_le_mul_of_nonneg_left hμ1 hR2.le
  have hq1 : q ≤ 2 * R ^ 2 := by
    have := (abs_le.1 qErr).2
    norm_num at hR2μ; linarith
  -- sector
  obtain ⟨x, hx⟩ : ∃ x, x = near (q * θ) := ⟨_, rfl⟩
  have hqθ0 : 0 ≤ q * θ := mul_nonneg hq0 hθ0
  have hqθ1 : q * θ ≤ 4 * R ^ 2 := by nlinarith
  have xErr : |x - R ^ 2 * Θ| ≤ R ^ 2 * (H + 8 * μ) := by
    have h2 := mulErr θErr qErr (Ca := 2) (CB := R ^ 2) (by rwa [abs_of_nonneg hθ0]) (by rw [abs_of_pos hR2])
    have := rnd (x := q * θ) (X := R ^ 2 * Θ) (e := 2 * (R ^ 2 * μ) + (H + 2 * μ) * R ^ 2) (C := 4 * R ^ 2)
      (by rw [mul_comm q, mul_comm _ Θ]; exact h2) (by rwa [abs_of_nonneg hqθ0])
      (by norm_num at hRlo2 ⊢; linarith)
    rw [← hμ] at this; rw [hx]; refine this.trans (le_of_eq ?_); ring
  -- triangle
  obtain ⟨y, hy⟩ : ∃ y, y = near (c * s) := ⟨_, rfl⟩
  have hcs0 : 0 ≤ c * s := mul_nonneg hc0 hs0
  have hcs1 : c * s ≤ 2 * R ^ 2 := by
    have : c * s ≤ R * (2 * R) := mul_le_mul hcR hsR hs0 hR.le
    linarith
  have yErr : |y - (R - d) * S| ≤ R ^ 2 * (12 * μ) := by
    have h2 := mulErr cErr sErr (Ca := R) (CB := R) (by rwa [abs_of_nonneg hc0]) (by rwa [abs_of_nonneg hS])
    have := rnd h2 (C := 2 * R ^ 2) (by rwa [abs_of_nonneg hcs0]) (by norm_num at hRlo2 ⊢; linarith)
    rw [← hμ] at this; rw [hy]; refine this.trans (le_of_eq ?_); ring
  -- segment
  have hZ0 : |R ^ 2 * Θ - (R - d) * S| ≤ 2 * R ^ 2 := by
    have k1 : R ^ 2 * Θ ≤ R ^ 2 * 2 := mul_le_mul_of_nonneg_left hΘ1 hR2.le
    have k2 : 0 ≤ R ^ 2 * Θ := mul_nonneg hR2.le hΘ0
    have k3 : (R - d) * S ≤ R * R := mul_le_mul (by linarith) hSR hS hR.le
    have k4 : 0 ≤ (R - d) * S := mul_nonneg (by linarith) hS
    rw [← pow_two] at k3
    rw [abs_le]; constructor <;> linarith
  have zErr0 : |x - y - (R ^ 2 * Θ - (R - d) * S)| ≤ R ^ 2 * (H + 20 * μ) := by
    rw [show x - y - (R ^ 2 * Θ - (R - d) * S) = (x - R ^ 2 * Θ) - (y - (R - d) * S) by ring]
    refine (abs_sub _ _).trans ?_
    calc _ ≤ R ^ 2 * (H + 8 * μ) + R ^ 2 * (12 * μ) := add_le_add xErr yErr
      _ = _ := by ring
  have hHμ : R ^ 2 * (H + 20 * μ) ≤ R ^ 2 * 1 := mul_le_mul_of_nonneg_left (by norm_num at hμ1; linarith) hR2.le
  have hxy : |x - y| ≤ 3 * R ^ 2 := by
    have := abs_sub_abs_le_abs_sub (x - y) (R ^ 2 * Θ - (R - d) * S)
    linarith
  obtain ⟨z, hz⟩ : ∃ z, z = near (x - y) := ⟨_, rfl⟩
  have zErr : |z - (R ^ 2 * Θ - (R - d) * S)| ≤ R ^ 2 * (H + 23 * μ) := by
    have := rnd zErr0 hxy (by norm_num at hRlo2 ⊢; linarith)
    rw [← hμ] at this; rw [hz]; refine this.trans (le_of_eq ?_); ring
  have hz1 : |z| ≤ 4 * R ^ 2 := by
    have := abs_sub_abs_le_abs_sub z (R ^ 2 * Θ - (R - d) * S)
    have : R ^ 2 * (H + 23 * μ) ≤ R ^ 2 * 1 := mul_le_mul_of_nonneg_left (by norm_num at hμ1; linarith) hR2.le
    linarith
  -- times the width
  have hzw : |z * w| ≤ 4 * R ^ 2 * w := by
    rw [abs_mul, abs_of_pos hwp]; exact mul_le_mul_of_nonneg_right hz1 hwp.le
  have hlow : 1 / 2 ^ 40 * (1 / 2 ^ 20) ≤ R ^ 2 * w := mul_le_mul hRlo2 hw (by norm_num) hR2.le
  have vErr : |near (z * w) - (R ^ 2 * Θ - (R - d) * S) * w| ≤ w * R ^ 2 * (H + 27 * μ) := by
    have h2 : |z * w - (R ^ 2 * Θ - (R - d) * S) * w| ≤ R ^ 2 * (H + 23 * μ) * w := by
      rw [← sub_mul, abs_mul, abs_of_pos hwp]; exact mul_le_mul_of_nonneg_right zErr hwp.le
    have := rnd h2 hzw (by norm_num at hlow ⊢; linarith)
    rw [← hμ] at this; refine this.trans (le_of_eq ?_); ring
  have hhigh : R ^ 2 * w ≤ 2 ^ 40 * 2 ^ 20 := mul_le_mul hRhi2 hw' hwp.le (by norm_num)
  refine ⟨near (z * w), ?_, by rwa [← pow_two]⟩
  rw [Rib.depthVolume, es, B64.sub_fin, round_near (k := 20) (by norm_num) (by rw [abs_of_nonneg (by linarith)]; linarith), ← hc,
    B64.div_fin _ hR.ne', round_near (k := 0) (by norm_num) (by rw [abs_of_nonneg hcq0]; simpa using hcq1), ← hk, eac,
    round_near (k := 1) (by norm_num) (by rw [abs_of_nonneg hφ0]; simpa using hφ1), ← hθ,
    B64.mul_fin, round_near (k := 40) (by norm_num) (by rw [← pow_two, abs_of_pos hR2]; exact hRhi2), ← hq,
    B64.mul_fin, round_near (k := 43) (by norm_num) (by rw [abs_of_nonneg hqθ0]; norm_num at hRhi2 ⊢; linarith), ← hx,
    B64.mul_fin, round_near (k := 42) (by norm_num) (by rw [abs_of_nonneg hcs0]; norm_num at hRhi2 ⊢; linarith), ← hy,
    B64.sub_fin, round_near (k := 43) (by norm_num) (by norm_num at hRhi2 hxy ⊢; linarith), ← hz,
    B64.mul_fin, round_near (k := 63) (by norm_num) (by refine hzw.trans ?_; norm_num at hhigh ⊢; linarith)]

/-- Bounds for the volume. -/
theorem volume_bounds (hrR : Rep R) (hlo : 1 / 2 ^ 20 ≤ R) (hhi : R ≤ 2 ^ 20) (hw : 1 / 2 ^ 20 ≤ w) (hw' : w ≤ 2 ^ 20) (h0 : 0 ≤ d)
    (h1 : d ≤ R) : ∃ v, Rib.depthVolume (.fin R) (.fin w) (.fin d) = B64.fin v ∧
      |v - w * segmentArea R d| ≤ w * R ^ 2 / 2 ^ 24 ∧
      (0 < d → |v - w * segmentArea R d| ≤ w * segmentArea R d * ((R / d) ^ 2 / 2 ^ 48)) := by
  have hR : 0 < R := by linarith [show (0:ℝ) < 1 / 2 ^ 20 by norm_num]
  have hwp : 0 < w := by linarith [show (0:ℝ) < 1 / 2 ^ 20 by norm_num]
  obtain ⟨μ, hμ⟩ : ∃ μ : ℝ, μ = 1 / 2 ^ 53 + 1 / 2 ^ 73 := ⟨_, rfl⟩
  have hμ0 : 0 < μ := by rw [hμ]; norm_num
  have hκ1 : (R - d) / R ≤ 1 := (div_le_one hR).2 (by linarith)
  have hκ0 : 0 ≤ (R - d) / R := div_nonneg (by linarith) hR.le
  have hpi0 := Real.pi_pos
  have hpi := Real.pi_lt_d2
  obtain ⟨v, e, hv⟩ := volume hrR hlo hhi hw hw' h0 h1 hμ (H := Real.pi * (1 / 2 ^ 26)) (by positivity) (by norm_num at hpi ⊢; linarith)
    (fun k hk0 hk1 hk => arccos_holder (by linarith) hk1 (by linarith) hκ1 (by norm_num) (hk.trans (by rw [hμ]; norm_num)))
  have hwR : 0 < w * R ^ 2 := by positivity
  rw [(C31_area_volume w hR h0 (by linarith)).2] at hv
  refine ⟨v, e, hv.trans ?_, fun hd => ?_⟩
  · rw [div_eq_mul_one_div]
    refine mul_le_mul_of_nonneg_left ?_ hwR.le
    rw [hμ]; norm_num at hpi ⊢; linarith
  · obtain ⟨t, ht⟩ : ∃ t, t = Real.sqrt (d / R) := ⟨_, rfl⟩
    have hdR : 0 < d / R := by positivity
    have ht0 : 0 < t := by rw [ht]; exact Real.sqrt_pos.2 hdR
    have ht1 : t ≤ 1 := by rw [ht]; exact Real.sqrt_le_one.2 ((div_le_one hR).2 h1)
    have ht2 : t ^ 2 = d / R := by rw [ht]; exact Real.sq_sqrt hdR.le
    have hroot : 1 ≤ Real.sqrt 2 := Real.one_le_sqrt.2 (by norm_num)
    have hroot2 : (14 : ℝ) / 10 ≤ Real.sqrt 2 := Real.le_sqrt_of_sq_le (by norm_num)
    have hhalf : 2 * Real.sqrt ((1 - (R - d) / R) / 2) = Real.sqrt 2 * t := by
      rw [show (1 - (R - d) / R) / 2 = d / R / 2 by field_simp; ring, Real.sqrt_div hdR.le, ← ht]
      have := Real.sq_sqrt (show (0:ℝ) ≤ 2 by norm_num)
      field_simp
      linarith
    have hrt : Real.sqrt (R * d) = R * t := by
      rw [ht, show R * d = R ^ 2 * (d / R) by field_simp, Real.sqrt_mul (sq_nonneg R), Real.sqrt_sq hR.le]
    have hdt : d = R * t ^ 2 := by rw [ht2]; field_simp
    have harea := area_lower hR h0 h1
    rw [hrt] at harea
    have hRd : R / d = 1 / t ^ 2 := by rw [hdt]; field_simp
    have goal : |v - w * segmentArea R d| ≤ w * R ^ 2 * (1 / 2 ^ 48 / t) := by
      rcases le_or_gt t (1 / 2 ^ 40) with hsmall | hbig
      · refine hv.trans (mul_le_mul_of_nonneg_left ?_ hwR.le)
        have : 1 / 2 ^ 8 ≤ 1 / 2 ^ 48 / t := by
          rw [le_div_iff₀ ht0]; norm_num at hsmall ⊢; linarith
        refine le_trans ?_ this
        rw [hμ]; norm_num at hpi ⊢; linarith
      · have hst : 0 < Real.sqrt 2 * t := by positivity
        have hst' : 14 / 10 * t ≤ Real.sqrt 2 * t := mul_le_mul_of_nonneg_right hroot2 ht0.le
        have hH : Real.pi * (2 * μ) / (Real.sqrt 2 * t) ≤ 9 / 2 * μ / t := by
          rw [div_le_div_iff₀ hst ht0]
          have h3 : Real.pi * (2 * μ) ≤ 9 / 2 * μ * Real.sqrt 2 := by nlinarith
          calc Real.pi * (2 * μ) * t ≤ 9 / 2 * μ * Real.sqrt 2 * t := mul_le_mul_of_nonneg_right h3 ht0.le
            _ = _ := by ring
        have hHs : 9 / 2 * μ / t ≤ 1 / 2 := by
          rw [div_le_iff₀ ht0, hμ]; norm_num at hbig ⊢; linarith
        obtain ⟨v', e', hv'⟩ := volume hrR hlo hhi hw hw' h0 h1 hμ (H := Real.pi * (2 * μ) / (Real.sqrt 2 * t)) (by positivity)
          (hH.trans hHs) (fun k hk0 hk1 hk => by
            rw [le_div_iff₀ hst, ← hhalf, abs_sub_comm]
            refine (arccos_lip hκ0 hκ1 (by linarith) hk1).trans (mul_le_mul_of_nonneg_left ?_ hpi0.le)
            rwa [abs_sub_comm])
        rw [e] at e'
        have hvv : v = v' := by injection e' with e'; injection e'
        subst hvv
        rw [(C31_area_volume w hR h0 (by linarith)).2] at hv'
        refine hv'.trans (mul_le_mul_of_nonneg_left ?_ hwR.le)
        have h4 : 27 * μ ≤ 27 * μ / t := by
          rw [le_div_iff₀ ht0]; nlinarith
        calc _ ≤ 9 / 2 * μ / t + 27 * μ / t := add_le_add hH h4
          _ = (63 / 2 * μ) / t := by ring
          _ ≤ _ := div_le_div_of_nonneg_right (by rw [hμ]; norm_num) ht0.le
    refine goal.trans ?_
    rw [hRd]
    have h5 : w * (d * (R * t)) ≤ w * segmentArea R d := mul_le_mul_of_nonneg_left harea hwp.le
    calc w * R ^ 2 * (1 / 2 ^ 48 / t) = w * (d * (R * t)) * ((1 / t ^ 2) ^ 2 / 2 ^ 48) := by
          rw [hdt]; field_simp
      _ ≤ _ := mul_le_mul_of_nonneg_right h5 (by positivity)
end

end SegRound
end Enve
