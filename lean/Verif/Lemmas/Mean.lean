import Verif.Lemmas.Rounding
import Verif.Props.RecordProps

/-! # Rounding errors of sums over the ribs and of their quotients -/

namespace Enve
open Scalar Spec B64

namespace Mean

theorem near_error' (x : ℝ) : |near x - x| ≤ |x| / 2 ^ 53 + 1 / 2 ^ 250 := by
  have h := near_error x
  have h1 : (2 : ℝ) ^ (-53 : ℤ) = 1 / 2 ^ 53 := by norm_num
  have h2 : (2 : ℝ) ^ (-1075 : ℤ) ≤ 1 / 2 ^ 250 := by
    calc (2 : ℝ) ^ (-1075 : ℤ) ≤ 2 ^ (-250 : ℤ) := zpow_le_zpow_right₀ (by norm_num) (by norm_num)
      _ = 1 / 2 ^ 250 := by norm_num
  rw [h1] at h
  calc _ ≤ _ := h
    _ ≤ _ := by rw [mul_one_div]; linarith

/-- A sum over the ribs is as accurate as can be expected. -/
theorem sum_close {n : Nat} (hn : n ≤ 2 ^ 20) {t : Nat → B64} {x : Nat → ℝ} (ht : ∀ i < n, t i = fin (x i)) {A : ℝ}
    (hA : ∑ i ∈ Finset.range n, |x i| ≤ A) (hA' : A ≤ 2 ^ 200) :
    ∃ s, ribSum n t = fin s ∧ |s - ∑ i ∈ Finset.range n, x i| ≤ 2 * n * (A / 2 ^ 53 + 1 / 2 ^ 250) := by
  have hA0 : 0 ≤ A := (Finset.sum_nonneg fun i _ => abs_nonneg _).trans hA
  suffices h : ∀ k ≤ n, ∃ s, ribSum k t = fin s ∧
      |s - ∑ i ∈ Finset.range k, x i| ≤ 2 * k * (A / 2 ^ 53 + 1 / 2 ^ 250) from h n le_rfl
  intro k
  induction k with
  | zero => intro _; exact ⟨0, by simp [ribSum, B64.zero_eq], by simp⟩
  | succ k ih =>
    intro hk
    obtain ⟨s, h1, h2⟩ := ih (by omega)
    obtain ⟨e, he⟩ : ∃ e : ℝ, e = A / 2 ^ 53 + 1 / 2 ^ 250 := ⟨_, rfl⟩
    have he0 : 0 ≤ e := by rw [he]; positivity
    rw [← he] at h2 ⊢
    have hkr : (k : ℝ) ≤ 2 ^ 20 := by exact_mod_cast (show k ≤ 2 ^ 20 by omega)
    have hk0 : (0 : ℝ) ≤ k := Nat.cast_nonneg k
    have hpart : |∑ i ∈ Finset.range (k + 1), x i| ≤ A := by
      refine (Finset.abs_sum_le_sum_abs _ _).trans (le_trans ?_ hA)
      exact Finset.sum_le_sum_of_subset_of_nonneg (Finset.range_mono hk) fun i _ _ => abs_nonneg _
    have hsum : |s + x k| ≤ A + 2 * k * e := by
      have : s + x k = (s - ∑ i ∈ Finset.range k, x i) + ∑ i ∈ Finset.range (k + 1), x i := by
        rw [Finset.sum_range_succ]; ring
      rw [this]
      exact (abs_add_le _ _).trans (by linarith)
    have heA : e ≤ 2 ^ 148 := by rw [he]; norm_num at hA' ⊢; linarith
    have hke : 2 * k * e ≤ 2 ^ 21 * 2 ^ 148 := by
      calc 2 * k * e ≤ 2 ^ 21 * e := mul_le_mul_of_nonneg_right (by linarith) he0
        _ ≤ _ := mul_le_mul_of_nonneg_left heA (by norm_num)
    have hbig : |s + x k| ≤ 2 ^ 201 := hsum.trans (by norm_num at hA' hke ⊢; linarith)
    refine ⟨near (s + x k), ?_, ?_⟩
    · rw [ribSum_succ, h1, ht k (by omega), add_fin, round_near (by norm_num) hbig]
    · have h3 := near_error' (s + x k)
      have h4 : |s + x k| / 2 ^ 53 + 1 / 2 ^ 250 ≤ e + 2 * k * e / 2 ^ 53 := by
        rw [he]; rw [he] at hsum
        have : |s + x k| / 2 ^ 53 ≤ (A + 2 * k * (A / 2 ^ 53 + 1 / 2 ^ 250)) / 2 ^ 53 :=
          div_le_div_of_nonneg_right hsum (by norm_num)
        rw [add_div] at this
        linarith
      have h5 : 2 * k * e / 2 ^ 53 ≤ e := by
        rw [div_le_iff₀ (by norm_num)]
        nlinarith
      rw [Finset.sum_range_succ]
      calc |near (s + x k) - (∑ i ∈ Finset.range k, x i + x k)|
          = |(near (s + x k) - (s + x k)) + (s - ∑ i ∈ Finset.range k, x i)| := by congr 1; ring
        _ ≤ _ := abs_add_le _ _
        _ ≤ (e + e) + 2 * k * e := by linarith
        _ = 2 * ((k + 1 : ℕ) : ℝ) * e := by push_cast; ring

/-- The number of ribs as a double. -/
theorem ofNat_fin {n : Nat} (hn : n ≤ 2 ^ 20) : (Scalar.ofNat n : B64) = fin n := by
  have hnr' : (n : ℝ) ≤ 2 ^ 20 := by exact_mod_cast hn
  show B64.round (Scalar.lit n 1 : XR) = _
  rw [show (Scalar.lit n 1 : XR) = .fin ((n : ℝ) / (1 : ℕ)) from rfl, Nat.cast_one, div_one,
    round_near (k := 20) (by norm_num) (by rw [abs_of_nonneg (Nat.cast_nonneg n)]; exact hnr'),
    near_rep ⟨n, 0, by simp, by rw [Nat.abs_cast]; exact_mod_cast hn.trans (by norm_num), by norm_num⟩]

/-- The plain average. -/
theorem plain {n : Nat} (h1 : 1 ≤ n) (hn : n ≤ 2 ^ 20) {t : Nat → B64} {x : Nat → ℝ} (ht : ∀ i < n, t i = fin (x i)) {B : ℝ}
    (hB : ∀ i < n, |x i| ≤ B) (hB0 : 1 / 2 ^ 100 ≤ B) (hB1 : B ≤ 2 ^ 100) :
    ∃ r, ribSum n t /. Scalar.ofNat n = fin r ∧ |r - (∑ i ∈ Finset.range n, x i) / n| ≤ n * B / 2 ^ 50 := by
  have hnr : (n : ℝ) ≤ 2 ^ 20 := by exact_mod_cast hn
  have hn1 : (1 : ℝ) ≤ n := by exact_mod_cast h1
  have hsumB : ∑ i ∈ Finset.range n, |x i| ≤ n * B := by
    calc _ ≤ ∑ i ∈ Finset.range n, B := Finset.sum_le_sum fun i hi => hB i (Finset.mem_range.1 hi)
      _ = _ := by simp
  have hnB : n * B ≤ 2 ^ 120 := by nlinarith
  obtain ⟨s, e1, e2⟩ := sum_close hn ht hsumB (hnB.trans (by norm_num))
  set S := ∑ i ∈ Finset.range n, x i
  have hS : |S| ≤ n * B := (Finset.abs_sum_le_sum_abs _ _).trans hsumB
  have hη : (1 : ℝ) / 2 ^ 250 ≤ B / 2 ^ 150 := by norm_num at hB0 ⊢; linarith
  have e3 : |s / n - S / n| ≤ 2 * (n * B / 2 ^ 53 + B / 2 ^ 150) := by
    rw [← sub_div, abs_div, abs_of_pos (by linarith : (0 : ℝ) < n), div_le_iff₀ (by linarith)]
    nlinarith
  have e4 : |S / n| ≤ B := by
    rw [abs_div, abs_of_pos (by linarith : (0 : ℝ) < n), div_le_iff₀ (by linarith)]; linarith
  have e5 : |s / n| ≤ 2 * B := by
    have := abs_sub_abs_le_abs_sub (s / n) (S / n)
    nlinarith
  refine ⟨near (s / n), ?_, ?_⟩
  · rw [e1, ofNat_fin hn, div_fin _ (by linarith), round_near (k := 101) (by norm_num) (e5.trans (by norm_num at hB1 ⊢; linarith))]
  · have h3 := near_error' (s / n)
    calc |near (s / n) - S / n| ≤ |near (s / n) - s / n| + |s / n - S / n| := abs_sub_le _ _ _
      _ ≤ (2 * B / 2 ^ 53 + B / 2 ^ 150) + 2 * (n * B / 2 ^ 53 + B / 2 ^ 150) := by
        have : |s / n| / 2 ^ 53 ≤ 2 * B / 2 ^ 53 := div_le_div_of_nonneg_right e5 (by norm_num)
        linarith
      _ ≤ n * B / 2 ^ 50 := by
        have : B ≤ n * B := by nlinarith
        norm_num; linarith

/-- The quotient of two sums with errors. -/
theorem quotient {m B V D N S : ℝ} (hm : 1 ≤ m) (hBp : 0 < B) (hVp : 0 < V) (hDp : 0 < D) (hVlo : 1 / 2 ^ 27 ≤ V)
    (hVD : V ≤ 9 / 8 * D) (hN : |N - S| ≤ (13 / 4 + 1 / 2 ^ 40) * m * (B * V) / 2 ^ 53)
    (hD : |D - V| ≤ m * V / 2 ^ 52 + 1 / 2 ^ 229) (hq : |S / V| ≤ B) : |N / D - S / V| ≤ 25 / 4 * m * B / 2 ^ 53 := by
  have e : N / D - S / V = ((N - S) - (S / V) * (D - V)) / D := by field_simp; ring
  rw [e, abs_div, abs_of_pos hDp, div_le_iff₀ hDp]
  have hmul : |S / V * (D - V)| ≤ B * (m * V / 2 ^ 52 + 1 / 2 ^ 229) := by
    rw [abs_mul]; exact mul_le_mul hq hD (abs_nonneg _) hBp.le
  have hbv : B * V ≤ m * (B * V) := le_mul_of_one_le_left (by positivity) hm
  have hB229 : B * (1 / 2 ^ 229) ≤ m * (B * V) / 2 ^ 150 := by
    have : (1 : ℝ) / 2 ^ 229 ≤ V / 2 ^ 150 := by norm_num at hVlo ⊢; linarith
    calc B * (1 / 2 ^ 229) ≤ B * (V / 2 ^ 150) := mul_le_mul_of_nonneg_left this hBp.le
      _ = B * V / 2 ^ 150 := by ring
      _ ≤ _ := div_le_div_of_nonneg_right hbv (by norm_num)
  have hfin : m * (B * V) ≤ 9 / 8 * (m * B * D) := by
    have h0 : (0 : ℝ) ≤ m * B := by positivity
    calc m * (B * V) = m * B * V := by ring
      _ ≤ m * B * (9 / 8 * D) := mul_le_mul_of_nonneg_left hVD h0
      _ = _ := by ring
  have h1 : |N - S - S / V * (D - V)| ≤ |N - S| + |S / V * (D - V)| := abs_sub _ _
  have h2 : B * (m * V / 2 ^ 52 + 1 / 2 ^ 229) = m * (B * V) / 2 ^ 52 + B * (1 / 2 ^ 229) := by ring
  have h3 : (13 / 4 + 1 / 2 ^ 40) * m * (B * V) / 2 ^ 53 = (13 / 4 + 1 / 2 ^ 40) * (m * (B * V)) / 2 ^ 53 := by ring
  have h4 : 25 / 4 * m * B / 2 ^ 53 * D = 25 / 4 * (m * B * D) / 2 ^ 53 := by ring
  have h5 : 0 ≤ m * (B * V) := by positivity
  rw [h2] at hmul
  rw [h3] at hN
  rw [h4]
  generalize m * (B * V) = c at *
  generalize m * B * D = d at *
  generalize B * (1 / 2 ^ 229) = g at *
  generalize |N - S - S / V * (D - V)| = a1 at *
  generalize |N - S| = a2 at *
  generalize |S / V * (D - V)| = a3 at *
  clear hq hD hVD hVlo hDp hVp hBp e hbv h2 h3 h4
  norm_num at *
  linarith

/-- The weighted average: each product, both sums and the quotient are rounded. -/
theorem weighted {n : Nat} (h1 : 1 ≤ n) (hn : n ≤ 2 ^ 20) {v x : Nat → ℝ} {tv t : Nat → B64} (hv : ∀ i < n, 0 ≤ v i)
    (htv : ∀ i < n, tv i = fin (v i)) (ht : ∀ i < n, t i = fin (near (x i * v i))) {B : ℝ} (hB : ∀ i < n, |x i| ≤ B)
    (hB0 : 1 / 2 ^ 100 ≤ B) (hB1 : B ≤ 2 ^ 100) (hV : ∑ i ∈ Finset.range n, v i ≤ 2 ^ 60)
    (hh : (ribSum n tv <. Scalar.eps) = false) :
    1 / 2 ^ 27 ≤ ∑ i ∈ Finset.range n, v i ∧
    ∃ r, ribSum n t /. ribSum n tv = fin r ∧
      |r - (∑ i ∈ Finset.range n, v i * x i) / ∑ i ∈ Finset.range n, v i| ≤ n * B / 2 ^ 50 := by
  have hnr : (n : ℝ) ≤ 2 ^ 20 := by exact_mod_cast hn
  have hn1 : (1 : ℝ) ≤ n := by exact_mod_cast h1
  have habs : ∑ i ∈ Finset.range n, |v i| = ∑ i ∈ Finset.range n, v i :=
    Finset.sum_congr rfl fun i hi => abs_of_nonneg (hv i (Finset.mem_range.1 hi))
  set V := ∑ i ∈ Finset.range n, v i with hVd
  have hV0 : 0 ≤ V := Finset.sum_nonneg fun i hi => hv i (Finset.mem_range.1 hi)
  obtain ⟨D, d1, d2⟩ := sum_close hn htv habs.le (hV.trans (by norm_num))
  rw [← hVd] at d2
  have hD : 1 / 2 ^ 26 ≤ D := by
    rw [d1] at hh
    have : ¬ (D < (2 : ℝ)⁻¹ ^ 26) := by
      intro hc
      have : (fin D <. (Scalar.eps : B64)) = true := by
        rw [show (Scalar.eps : B64) = fin ((2 : ℝ)⁻¹ ^ 26) from rfl, lt_fin]; exact decide_eq_true hc
      rw [this] at hh; cases hh
    have := not_lt.1 this
    norm_num at this ⊢; linarith
  -- the volume
  have d3 : |D - V| ≤ n * V / 2 ^ 52 + 1 / 2 ^ 229 := by
    refine d2.trans ?_
    have : 2 * n * ((1 : ℝ) / 2 ^ 250) ≤ 1 / 2 ^ 229 := by
      calc 2 * n * ((1 : ℝ) / 2 ^ 250) ≤ 2 * 2 ^ 20 * (1 / 2 ^ 250) :=
            mul_le_mul_of_nonneg_right (by linarith) (by norm_num)
        _ = 1 / 2 ^ 229 := by norm_num
    calc 2 * n * (V / 2 ^ 53 + 1 / 2 ^ 250) = n * V / 2 ^ 52 + 2 * n * (1 / 2 ^ 250) := by ring
      _ ≤ _ := by linarith
  have hnV : n * V / 2 ^ 52 ≤ V / 2 ^ 32 := by
    rw [div_le_div_iff₀ (by norm_num) (by norm_num)]; nlinarith
  have hDV : D ≤ V + V / 2 ^ 32 + 1 / 2 ^ 229 := by linarith [(abs_le.1 d3).2]
  have hVD : V - V / 2 ^ 32 - 1 / 2 ^ 229 ≤ D := by linarith [(abs_le.1 d3).1]
  have hVlo : 1 / 2 ^ 27 ≤ V := by norm_num at hD hDV ⊢; linarith
  refine ⟨hVlo, ?_⟩
  have hVD2 : V ≤ 9 / 8 * D := by norm_num at hVlo hVD ⊢; linarith
  have hBp : 0 < B := lt_of_lt_of_le (by norm_num) hB0
  have hBV : B * V ≤ 2 ^ 160 := by
    calc B * V ≤ 2 ^ 100 * 2 ^ 60 := mul_le_mul hB1 hV hV0 (by norm_num)
      _ = _ := by norm_num
  have hBV0 : 1 / 2 ^ 127 ≤ B * V := by
    calc (1 : ℝ) / 2 ^ 127 = 1 / 2 ^ 100 * (1 / 2 ^ 27) := by norm_num
      _ ≤ _ := mul_le_mul hB0 hVlo (by norm_num) hBp.le
  -- the terms
  have hxv : ∀ i ∈ Finset.range n, |x i * v i| ≤ B * v i := by
    intro i hi
    rw [abs_mul, abs_of_nonneg (hv i (Finset.mem_range.1 hi))]
    exact mul_le_mul_of_nonneg_right (hB i (Finset.mem_range.1 hi)) (hv i (Finset.mem_range.1 hi))
  have hterm : ∀ i ∈ Finset.range n, |near (x i * v i) - x i * v i| ≤ B * v i / 2 ^ 53 + 1 / 2 ^ 250 := by
    intro i hi
    have := near_error' (x i * v i)
    have h' : |x i * v i| / 2 ^ 53 ≤ B * v i / 2 ^ 53 := div_le_div_of_nonneg_right (hxv i hi) (by norm_num)
    linarith
  have hN0 : |∑ i ∈ Finset.range n, x i * v i| ≤ B * V := by
    refine (Finset.abs_sum_le_sum_abs _ _).trans ((Finset.sum_le_sum hxv).trans ?_)
    rw [← Finset.mul_sum]
  have hn250 : (n : ℝ) * (1 / 2 ^ 250) ≤ B * V / 2 ^ 100 := by
    calc (n : ℝ) * (1 / 2 ^ 250) ≤ 2 ^ 20 * (1 / 2 ^ 250) := mul_le_mul_of_nonneg_right hnr (by norm_num)
      _ = 1 / 2 ^ 127 / 2 ^ 103 := by norm_num
      _ ≤ 1 / 2 ^ 127 / 2 ^ 100 := by norm_num
      _ ≤ _ := div_le_div_of_nonneg_right hBV0 (by norm_num)
  have hNr : |∑ i ∈ Finset.range n, near (x i * v i) - ∑ i ∈ Finset.range n, x i * v i| ≤ B * V / 2 ^ 53 + B * V / 2 ^ 100 := by
    rw [← Finset.sum_sub_distrib]
    refine (Finset.abs_sum_le_sum_abs _ _).trans ((Finset.sum_le_sum hterm).trans ?_)
    rw [Finset.sum_add_distrib, ← Finset.sum_div, ← Finset.mul_sum]
    simp only [Finset.sum_const, Finset.card_range, nsmul_eq_mul]
    linarith
  have hA : ∑ i ∈ Finset.range n, |near (x i * v i)| ≤ 9 / 8 * (B * V) := by
    have : ∀ i ∈ Finset.range n, |near (x i * v i)| ≤ B * v i + (B * v i / 2 ^ 53 + 1 / 2 ^ 250) := by
      intro i hi
      have := abs_sub_abs_le_abs_sub (near (x i * v i)) (x i * v i)
      linarith [hterm i hi, hxv i hi]
    refine (Finset.sum_le_sum this).trans ?_
    rw [Finset.sum_add_distrib, Finset.sum_add_distrib, ← Finset.sum_div, ← Finset.mul_sum]
    simp only [Finset.sum_const, Finset.card_range, nsmul_eq_mul]
    have hp : 0 ≤ B * V := by positivity
    norm_num at hn250 ⊢; linarith
  obtain ⟨N, n1, n2⟩ := sum_close hn ht hA (by norm_num at hBV ⊢; linarith)
  set S := ∑ i ∈ Finset.range n, x i * v i with hS
  have hS' : ∑ i ∈ Finset.range n, v i * x i = S := Finset.sum_congr rfl fun i _ => mul_comm _ _
  rw [hS']
  have hp : 0 ≤ B * V := by positivity
  have hBVn : B * V ≤ n * (B * V) := by nlinarith
  have n3 : |N - S| ≤ (13 / 4 + 1 / 2 ^ 40) * n * (B * V) / 2 ^ 53 := by
    calc |N - S| ≤ |N - ∑ i ∈ Finset.range n, near (x i * v i)| + |∑ i ∈ Finset.range n, near (x i * v i) - S| := abs_sub_le _ _ _
      _ ≤ 2 * n * (9 / 8 * (B * V) / 2 ^ 53 + 1 / 2 ^ 250) + (B * V / 2 ^ 53 + B * V / 2 ^ 100) := by linarith
      _ = 9 / 4 * (n * (B * V)) / 2 ^ 53 + 2 * (n * (1 / 2 ^ 250)) + (B * V / 2 ^ 53 + B * V / 2 ^ 100) := by ring
      _ ≤ _ := by
        have e : (13 / 4 + 1 / 2 ^ 40) * n * (B * V) / 2 ^ 53 = (13 / 4 + 1 / 2 ^ 40) * (n * (B * V)) / 2 ^ 53 := by ring
        rw [e]
        generalize n * (B * V) = c at *
        generalize (n : ℝ) * (1 / 2 ^ 250) = g at *
        generalize B * V = f at *
        clear * - hBVn hn250 hp
        norm_num at *
        linarith
  have hDp : 0 < D := lt_of_lt_of_le (by norm_num) hD
  have hVp : 0 < V := lt_of_lt_of_le (by norm_num) hVlo
  have hq0 : |S / V| ≤ B := by
    rw [abs_div, abs_of_pos hVp, div_le_iff₀ hVp]; exact hN0
  have q1 : |N / D - S / V| ≤ 25 / 4 * n * B / 2 ^ 53 := quotient hn1 hBp hVp hDp hVlo hVD2 n3 d3 hq0
  have hnB : n * B / 2 ^ 53 ≤ B / 2 ^ 33 := by
    rw [div_le_div_iff₀ (by norm_num) (by norm_num)]; nlinarith
  have q2 : |N / D| ≤ 9 / 8 * B := by
    have := abs_sub_abs_le_abs_sub (N / D) (S / V)
    have e : 25 / 4 * n * B / 2 ^ 53 = 25 / 4 * (n * B / 2 ^ 53) := by ring
    rw [e] at q1
    generalize n * B / 2 ^ 53 = c at *
    generalize |N / D - S / V| = a at *
    clear * - this q1 hnB hq0 hBp
    norm_num at hnB
    linarith
  refine ⟨near (N / D), ?_, ?_⟩
  · rw [n1, d1, div_fin _ hDp.ne', round_near (k := 101) (by norm_num) (q2.trans (by norm_num at hB1 ⊢; linarith))]
  · have h3 := near_error' (N / D)
    have h4 : |N / D| / 2 ^ 53 ≤ 9 / 8 * B / 2 ^ 53 := div_le_div_of_nonneg_right q2 (by norm_num)
    calc |near (N / D) - S / V| ≤ |near (N / D) - N / D| + |N / D - S / V| := abs_sub_le _ _ _
      _ ≤ (9 / 8 * B / 2 ^ 53 + 1 / 2 ^ 250) + 25 / 4 * n * B / 2 ^ 53 := by linarith
      _ ≤ n * B / 2 ^ 50 := by
        have h5 : B ≤ n * B := le_mul_of_one_le_left hBp.le hn1
        have e : 25 / 4 * n * B / 2 ^ 53 = 25 / 4 * (n * B) / 2 ^ 53 := by ring
        rw [e]
        generalize n * B = c at *
        clear * - hB0 h5
        norm_num at *
        linarith

end Mean
end Enve
