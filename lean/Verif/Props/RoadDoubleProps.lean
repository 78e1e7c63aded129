import Verif.Props.RoadProps

/-! # C107 in doubles: rounding opens no cracks between the triangles of a road -/

namespace Enve

open Scalar Spec B64

namespace Crack

/-- The unit of accuracy used here: the resolution of doubles. -/
noncomputable def ulp1 : ℝ := 1 / 2 ^ 52

theorem fine : Fine ulp1 := ⟨le_rfl, by norm_num [ulp1]⟩

theorem rz : B64.round (.fin 0) = fin 0 := by
  have := B64.exact (x := 0) 0 0 (by norm_num) (by norm_num) (by norm_num) (by norm_num)
  exact this

theorem zero_mul_fin (x : ℝ) : fin 0 *. fin x = fin 0 := by rw [mul_fin, zero_mul, rz]
theorem fin_mul_zero (x : ℝ) : fin x *. fin 0 = fin 0 := by rw [mul_fin, mul_zero, rz]

theorem down : (V3.neg V3.ez : V3 B64) = ⟨fin 0, fin 0, fin (-1)⟩ := by
  simp only [V3.neg, V3.ez, B64.zero_eq, B64.one_eq]
  have h : ∀ x : ℝ, -. (B64.fin x) = .fin (-x) := fun _ => rfl
  simp only [h, neg_zero]

theorem rerr {x : ℝ} (hx : |x| ≤ 2 ^ 150) : ∃ y, B64.round (.fin x) = fin y ∧ |y - x| ≤ |x| / 2 ^ 53 + 1 / 2 ^ 200 := by
  refine ⟨near x, round_near (k := 150) (by norm_num) hx, (near_error x).trans ?_⟩
  have h1 : (2 : ℝ) ^ (-53 : ℤ) = 1 / 2 ^ 53 := by norm_num [zpow_neg]
  have h2 : (2 : ℝ) ^ (-1075 : ℤ) ≤ 1 / 2 ^ 200 := by
    rw [show (1 : ℝ) / 2 ^ 200 = 2 ^ (-200 : ℤ) by norm_num [zpow_neg]]
    exact zpow_le_zpow_right₀ (by norm_num) (by norm_num)
  rw [h1]; linarith

/-- A quotient, computed as the program does: the product with the reciprocal of the denominator. -/
theorem quot {M A W E w : ℝ} {a : ℝ} (hM : M = |A|) (hM0 : 1 / 2 ^ 25 ≤ M) (hM1 : M ≤ 2 ^ 90)
    (ha : |a - A| ≤ M / 2 ^ 34) (hw : |w - W| ≤ E * M) (hE : 0 ≤ E) (hE' : E ≤ 2 ^ 60) (hW : |W / A| ≤ 2 ^ 80) :
    ∃ u, (one /. fin a) *. fin w = fin u ∧ |u - W / A| ≤ |W / A| / 2 ^ 33 + 2 * E + 1 / 2 ^ 60 := by
  have hMp : 0 < M := lt_of_lt_of_le (by norm_num) hM0
  have hA0 : A ≠ 0 := by intro h; rw [h, abs_zero] at hM; linarith
  have haM : M * (1 - 1 / 2 ^ 34) ≤ |a| := by
    have := abs_sub_abs_le_abs_sub A a
    rw [abs_sub_comm] at this
    linarith
  have ha0 : a ≠ 0 := by
    intro h; rw [h, abs_zero] at haM
    have : 0 < M * (1 - 1 / 2 ^ 34) := by apply mul_pos hMp; norm_num
    linarith
  have hap : 0 < |a| := abs_pos.2 ha0
  have hinv : |1 / a| ≤ 2 ^ 26 := by
    rw [abs_div, abs_one, div_le_iff₀ hap]
    norm_num at hM0 haM ⊢
    linarith
  obtain ⟨f, hf, hfe⟩ := rerr (x := 1 / a) (hinv.trans (by norm_num))
  -- `f A` is almost one
  have hfA : |f * A - 1| ≤ 9 / 8 / 2 ^ 34 := by
    have e : f * A - 1 = (f - 1 / a) * A - (a - A) / a := by field_simp; ring
    have h1 : |(a - A) / a| ≤ (1 + 1 / 16) / 2 ^ 34 := by
      rw [abs_div, div_le_iff₀ hap]
      refine ha.trans ?_
      norm_num at haM ⊢
      linarith
    have h2 : |(f - 1 / a) * A| ≤ 1 / 2 ^ 51 := by
      rw [abs_mul, ← hM]
      have h3 : |1 / a| * M ≤ 17 / 16 := by
        rw [abs_div, abs_one, div_mul_eq_mul_div, one_mul, div_le_iff₀ hap]
        norm_num at haM ⊢
        linarith
      have h4 : |f - 1 / a| * M ≤ (|1 / a| / 2 ^ 53 + 1 / 2 ^ 200) * M := mul_le_mul_of_nonneg_right hfe hMp.le
      linarith
    rw [e]
    refine (abs_sub _ _).trans ((add_le_add h2 h1).trans (by norm_num))
  have hfM : |f| * M ≤ 17 / 16 := by
    rw [hM, ← abs_mul]
    have := abs_sub_abs_le_abs_sub (f * A) 1
    rw [abs_one] at this
    linarith
  obtain ⟨U, hU⟩ : ∃ U, U = W / A := ⟨_, rfl⟩
  rw [← hU] at hW ⊢
  have hWU : W = U * A := by rw [hU]; field_simp
  have hfw : |f * w - U| ≤ 9 / 8 / 2 ^ 34 * |U| + 17 / 16 * E := by
    have e : f * w - U = (f * A - 1) * U + f * (w - W) := by rw [hWU]; ring
    rw [e]
    refine (abs_add_le _ _).trans (add_le_add ?_ ?_)
    · rw [abs_mul]; exact mul_le_mul_of_nonneg_right hfA (abs_nonneg _)
    · rw [abs_mul]
      calc |f| * |w - W| ≤ |f| * (E * M) := mul_le_mul_of_nonneg_left hw (abs_nonneg _)
        _ = |f| * M * E := by ring
        _ ≤ _ := mul_le_mul_of_nonneg_right hfM hE
  have hfwb : |f * w| ≤ 17 / 16 * |U| + 17 / 16 * E := by
    have := abs_sub_abs_le_abs_sub (f * w) U
    have h3 := abs_nonneg U
    linarith
  obtain ⟨u, hu, hue⟩ := rerr (x := f * w) (hfwb.trans (by norm_num at hW hE' ⊢; linarith))
  refine ⟨u, ?_, ?_⟩
  · rw [B64.one_eq, div_fin _ ha0, hf, mul_fin, hu]
  · have : u - U = (u - f * w) + (f * w - U) := by ring
    rw [this]
    refine (abs_add_le _ _).trans ?_
    have h3 := abs_nonneg U
    norm_num at hue hfw hfwb ⊢
    linarith

theorem as_close (a : V3 ℝ) {ε : ℝ} : Close3 (0 * ε) (asVec a) a := ⟨Close.exact _, Close.exact _, Close.exact _⟩

theorem Sound.plan_le {D : ℝ} {T : Triangle ℝ} (h : Sound D T) : plan2 T ≤ 2 * (D * D) := by
  have hD : 0 ≤ D := (abs_nonneg _).trans h.edge1.x
  have e1 := h.edge1; have e2 := h.edge2
  rw [plan2]
  refine (abs_sub _ _).trans ?_
  rw [abs_mul, abs_mul]
  have := mul_le_mul e1.x e2.y (abs_nonneg _) hD
  have := mul_le_mul e1.y e2.x (abs_nonneg _) hD
  dsimp only at *
  linarith

theorem Sound.side {D : ℝ} {T : Triangle ℝ} (h : Sound D T) : 1 / 2 ^ 14 ≤ D := by
  have hD : 0 ≤ D := (abs_nonneg _).trans h.edge1.x
  have h1 := Sound.plan_le h
  have h2 := h.big
  by_contra hlt
  push Not at hlt
  have : D * D ≤ 1 / 2 ^ 14 * (1 / 2 ^ 14) := mul_le_mul hlt.le hlt.le hD (by norm_num)
  norm_num at *
  linarith

/-- What the program computes for a vertical line and a triangle. -/
theorem parts {D S Z : ℝ} {T : Triangle ℝ} (hT : Sound D T) {O : V3 ℝ} (hSx : |O.x - T.v0.x| ≤ S) (hSy : |O.y - T.v0.y| ≤ S)
    (hDS : D ≤ S) (hS : S ≤ 2 ^ 22) (hSz : |O.z - T.v0.z| ≤ Z) (hSZ : S ≤ Z) (hZ : Z ≤ 2 ^ 24) :
    let t := asTri T
    let e1 := V3.sub t.v1 t.v0
    let e2 := V3.sub t.v2 t.v0
    let s := V3.sub (asVec O) t.v0
    let d : V3 B64 := ⟨fin 0, fin 0, fin (-1)⟩
    let h := V3.cross d e2
    let q := V3.cross s e1
    let A := (T.v1.x - T.v0.x) * (T.v2.y - T.v0.y) - (T.v1.y - T.v0.y) * (T.v2.x - T.v0.x)
    Close (38 * (D * D) * ulp1) (V3.dot e1 h) A ∧
    Close (38 * (S * D) * ulp1) (V3.dot s h) ((O.x - T.v0.x) * (T.v2.y - T.v0.y) - (O.y - T.v0.y) * (T.v2.x - T.v0.x)) ∧
    Close (52 * (S * D) * ulp1) (V3.dot d q) ((O.y - T.v0.y) * (T.v1.x - T.v0.x) - (O.x - T.v0.x) * (T.v1.y - T.v0.y)) ∧
    Close (64 * (Z * (D * D)) * ulp1) (V3.dot e2 q)
      (V3.dot (V3.sub T.v2 T.v0) (V3.cross (V3.sub O T.v0) (V3.sub T.v1 T.v0))) := by
  intro t e1 e2 s d h q A
  have hε := fine
  have hD := Sound.side hT
  have hD0 : 0 < D := lt_of_lt_of_le (by norm_num) hD
  have hS0 : 0 < S := hD0.trans_le hDS
  have hZ0 : 0 < Z := hS0.trans_le hSZ
  have small := hT.small
  have hDD : 1 / 2 ^ 28 ≤ D * D := by nlinarith
  have hDD' : D * D ≤ 2 ^ 20 := by nlinarith
  have hSD : D * D ≤ S * D := by nlinarith
  have hSD' : S * D ≤ 2 ^ 32 := by nlinarith
  have hZD : D * D ≤ Z * D := by nlinarith
  have hZD' : Z * D ≤ 2 ^ 34 := by nlinarith
  have uE1 : Upto D (V3.sub T.v1 T.v0) := hT.edge1
  have uE2 : Upto D (V3.sub T.v2 T.v0) := hT.edge2
  have c1 : Close3 (D * ulp1) e1 (V3.sub T.v1 T.v0) :=
    (as_close T.v1).sub hε (as_close T.v0) uE1 le_rfl le_rfl (by norm_num at *; linarith) (by norm_num at *; linarith)
  have c2 : Close3 (D * ulp1) e2 (V3.sub T.v2 T.v0) :=
    (as_close T.v2).sub hε (as_close T.v0) uE2 le_rfl le_rfl (by norm_num at *; linarith) (by norm_num at *; linarith)
  have cd : Close3 (0 * ulp1) d ⟨0, 0, -1⟩ := ⟨Close.exact _, Close.exact _, Close.exact _⟩
  have ud : Upto 1 (⟨0, 0, -1⟩ : V3 ℝ) := ⟨by simp, by simp, by simp⟩
  have ch : Close3 (6 * D * ulp1) h (V3.cross ⟨0, 0, -1⟩ (V3.sub T.v2 T.v0)) :=
    cd.cross hε c2 ud uE2 le_rfl hD0.le (δ := D) (by norm_num) (by norm_num at *; linarith) (by norm_num at *; linarith)
  have hH : V3.cross ⟨0, 0, -1⟩ (V3.sub T.v2 T.v0) = ⟨T.v2.y - T.v0.y, -(T.v2.x - T.v0.x), 0⟩ := by
    simp only [V3.real_cross, V3.real_sub]; ext <;> dsimp only <;> ring
  rw [hH] at ch
  have uh : |T.v2.y - T.v0.y| ≤ D ∧ |-(T.v2.x - T.v0.x)| ≤ D := ⟨hT.edge2.y, by rw [abs_neg]; exact hT.edge2.x⟩
  have z0 : Close (0 * ulp1) (fin 0) 0 := Close.exact 0
  have up : ∀ {α β : ℝ} {a : B64} {X : ℝ}, Close (α * ulp1) a X → α ≤ β → Close (β * ulp1) a X := fun h k => h.up hε k
  have hhz : h.z = fin 0 := by
    obtain ⟨x, hx, -⟩ := c2.x
    obtain ⟨y, hy, -⟩ := c2.y
    show fin 0 *. e2.y -. fin 0 *. e2.x = fin 0
    rw [hx, hy, zero_mul_fin, zero_mul_fin, sub_fin, sub_zero, rz]
  have zz : fin 0 *. fin 0 = fin 0 := zero_mul_fin 0
  have cs : Close3 (Z * ulp1) s (V3.sub O T.v0) ∧ Close (S * ulp1) s.x (O.x - T.v0.x) ∧ Close (S * ulp1) s.y (O.y - T.v0.y) := by
    have k := fun (a b : ℝ) (C : ℝ) (hC : |a - b| ≤ C) (hC0 : 1 / 2 ^ 14 ≤ C) (hC1 : C ≤ 2 ^ 24) =>
      (Close.exact (ε := ulp1) a).sub hε (Close.exact (ε := ulp1) b) hC le_rfl le_rfl (by norm_num at *; linarith)
        (show _ ≤ C by norm_num at *; linarith)
    exact ⟨⟨k _ _ Z (hSx.trans hSZ) (by linarith) hZ, k _ _ Z (hSy.trans hSZ) (by linarith) hZ, k _ _ Z hSz (by linarith) hZ⟩,
      k _ _ S hSx (by linarith) (by linarith), k _ _ S hSy (by linarith) (by linarith)⟩
  obtain ⟨cs, csx, csy⟩ := cs
  have uS : Upto Z (V3.sub O T.v0) := ⟨hSx.trans hSZ, hSy.trans hSZ, hSz⟩
  have e1b := hT.edge1
  refine ⟨?_, ?_, ?_, ?_⟩
  · obtain ⟨z, hz, -⟩ := c1.z
    have : V3.dot e1 h = e1.x *. h.x +. e1.y *. h.y +. fin 0 *. fin 0 := by
      show e1.x *. h.x +. e1.y *. h.y +. e1.z *. h.z = _
      rw [hhz, hz, fin_mul_zero, zz]
    rw [this]
    have key := Close3.sum3 hε c1.x c1.y (up z0 hD0.le) ch.x ch.y (up z0 (by linarith : 0 ≤ 6 * D)) e1b.x e1b.y (by rw [abs_zero]; exact hD0.le)
      uh.1 uh.2 (by rw [abs_zero]; exact hD0.le) hD0.le (by linarith) (δ := 8 * (D * D)) (by nlinarith) (by norm_num at *; linarith)
      (show _ ≤ 38 * (D * D) by norm_num at *; linarith)
    convert key using 1
    simp only [A, V3.real_sub]; ring
  · obtain ⟨z, hz, -⟩ := cs.z
    have : V3.dot s h = s.x *. h.x +. s.y *. h.y +. fin 0 *. fin 0 := by
      show s.x *. h.x +. s.y *. h.y +. s.z *. h.z = _
      rw [hhz, hz, fin_mul_zero, zz]
    rw [this]
    have key := Close3.sum3 hε csx csy (up z0 hS0.le) ch.x ch.y (up z0 (by linarith : 0 ≤ 6 * D)) hSx hSy (by rw [abs_zero]; exact hS0.le)
      uh.1 uh.2 (by rw [abs_zero]; exact hD0.le) hS0.le (by linarith) (δ := 8 * (S * D)) (by nlinarith) (by norm_num at *; linarith)
      (show _ ≤ 38 * (S * D) by norm_num at *; linarith)
    convert key using 1
    ring
  · have cq : Close3 (10 * (Z * D) * ulp1) q (V3.cross (V3.sub O T.v0) (V3.sub T.v1 T.v0)) :=
      cs.cross hε c1 uS uE1 hZ0.le hD0.le (δ := 3 * (Z * D)) (by nlinarith) (by norm_num at *; linarith) (by norm_num at *; linarith)
    have cqz : Close (10 * (S * D) * ulp1) q.z ((O.x - T.v0.x) * (T.v1.y - T.v0.y) - (O.y - T.v0.y) * (T.v1.x - T.v0.x)) :=
      Close3.diff2 hε csx csy c1.y c1.x hSx hSy e1b.y e1b.x hS0.le hD0.le (δ := 3 * (S * D)) (by nlinarith) (by norm_num at *; linarith)
        (by norm_num at *; linarith)
    obtain ⟨x, hx, -⟩ := cq.x
    obtain ⟨y, hy, -⟩ := cq.y
    have : V3.dot d q = fin 0 *. fin 0 +. fin 0 *. fin 0 +. fin (-1) *. q.z := by
      show fin 0 *. q.x +. fin 0 *. q.y +. fin (-1) *. q.z = _
      rw [hx, hy, zero_mul_fin, zero_mul_fin, zz]
    rw [this]
    have hb : |(O.x - T.v0.x) * (T.v1.y - T.v0.y) - (O.y - T.v0.y) * (T.v1.x - T.v0.x)| ≤ 2 * (S * D) := by
      refine (abs_sub _ _).trans ?_
      rw [abs_mul, abs_mul]
      have := mul_le_mul hSx e1b.y (abs_nonneg _) hS0.le
      have := mul_le_mul hSy e1b.x (abs_nonneg _) hS0.le
      dsimp only at *
      linarith
    have hp : 0 ≤ S * D := by positivity
    have key := Close3.sum3 hε z0 z0 (Close.exact (-1)) (up z0 (by linarith : 0 ≤ 10 * (S * D))) (up z0 (by linarith : 0 ≤ 10 * (S * D))) cqz
      (A := 1) (by simp) (by simp) (by simp) (B := 2 * (S * D)) (by rw [abs_zero]; linarith) (by rw [abs_zero]; linarith) hb le_rfl
      (by linarith) (δ := 10 * (S * D)) (by linarith) (by norm_num at *; linarith) (show _ ≤ 52 * (S * D) by norm_num at *; linarith)
    convert key using 1
    ring
  · have cq : Close3 (10 * (Z * D) * ulp1) q (V3.cross (V3.sub O T.v0) (V3.sub T.v1 T.v0)) :=
      cs.cross hε c1 uS uE1 hZ0.le hD0.le (δ := 3 * (Z * D)) (by nlinarith) (by norm_num at *; linarith) (by norm_num at *; linarith)
    have uq : Upto (2 * (Z * D)) (V3.cross (V3.sub O T.v0) (V3.sub T.v1 T.v0)) := by
      have k : ∀ a b c d : ℝ, |a| ≤ Z → |b| ≤ Z → |c| ≤ D → |d| ≤ D → |a * c - b * d| ≤ 2 * (Z * D) := by
        intro a b c d ha hb hc hd
        refine (abs_sub _ _).trans ?_
        rw [abs_mul, abs_mul]
        have := mul_le_mul ha hc (abs_nonneg _) hZ0.le
        have := mul_le_mul hb hd (abs_nonneg _) hZ0.le
        linarith
      exact ⟨k _ _ _ _ uS.y uS.z uE1.z uE1.y, k _ _ _ _ uS.z uS.x uE1.x uE1.z, k _ _ _ _ uS.x uS.y uE1.y uE1.x⟩
    have hzd : 0 ≤ Z * D := by positivity
    have hzdd : 0 < Z * (D * D) := by positivity
    have h3 : Z * (D * D) ≤ 2 ^ 44 := by nlinarith
    have h4 : 1 / 2 ^ 42 ≤ Z * (D * D) := by nlinarith
    exact c2.dot hε cq uE2 uq hD0.le (by linarith) (δ := 13 * (Z * (D * D))) (by nlinarith) (by nlinarith) (by nlinarith)

/-- Position of the vertical line in the triangle, and the height at which it crosses the plane of the triangle. -/
theorem place {D : ℝ} {T : Triangle ℝ} (hT : Sound D T) (O : V3 ℝ) : ∃ A U V R : ℝ,
    A = (T.v1.x - T.v0.x) * (T.v2.y - T.v0.y) - (T.v1.y - T.v0.y) * (T.v2.x - T.v0.x) ∧ |A| = plan2 T ∧
    U = ((O.x - T.v0.x) * (T.v2.y - T.v0.y) - (O.y - T.v0.y) * (T.v2.x - T.v0.x)) / A ∧
    V = ((O.y - T.v0.y) * (T.v1.x - T.v0.x) - (O.x - T.v0.x) * (T.v1.y - T.v0.y)) / A ∧
    R = V3.dot (V3.sub T.v2 T.v0) (V3.cross (V3.sub O T.v0) (V3.sub T.v1 T.v0)) / A ∧
    O.x - T.v0.x = U * (T.v1.x - T.v0.x) + V * (T.v2.x - T.v0.x) ∧
    O.y - T.v0.y = U * (T.v1.y - T.v0.y) + V * (T.v2.y - T.v0.y) ∧
    O.z - T.v0.z = R + U * (T.v1.z - T.v0.z) + V * (T.v2.z - T.v0.z) := by
  have h0 : (T.v1.x - T.v0.x) * (T.v2.y - T.v0.y) - (T.v1.y - T.v0.y) * (T.v2.x - T.v0.x) ≠ 0 := by
    intro h
    have := hT.big
    rw [plan2, h, abs_zero] at this
    norm_num at this
  obtain ⟨A, hA⟩ : ∃ A, A = (T.v1.x - T.v0.x) * (T.v2.y - T.v0.y) - (T.v1.y - T.v0.y) * (T.v2.x - T.v0.x) := ⟨_, rfl⟩
  rw [← hA] at h0
  refine ⟨A, _, _, _, hA, by rw [hA, plan2], rfl, rfl, rfl, ?_, ?_, ?_⟩
  · field_simp; rw [hA]; ring
  · field_simp; rw [hA]; ring
  · simp only [V3.real_dot, V3.real_cross, V3.real_sub]; field_simp; rw [hA]; ring

/-- Rounding errors of the position and of the height. -/
theorem computed {D S Z : ℝ} {T : Triangle ℝ} (hT : Sound D T) {O : V3 ℝ} (hSx : |O.x - T.v0.x| ≤ S) (hSy : |O.y - T.v0.y| ≤ S)
    (hDS : D ≤ S) (hS : S ≤ 2 ^ 22) (hSz : |O.z - T.v0.z| ≤ Z) (hSZ : S ≤ Z) (hZ : Z ≤ 2 ^ 24) :
    ∃ A U V R a u v r : ℝ, |A| = plan2 T ∧
    O.x - T.v0.x = U * (T.v1.x - T.v0.x) + V * (T.v2.x - T.v0.x) ∧
    O.y - T.v0.y = U * (T.v1.y - T.v0.y) + V * (T.v2.y - T.v0.y) ∧
    O.z - T.v0.z = R + U * (T.v1.z - T.v0.z) + V * (T.v2.z - T.v0.z) ∧
    |a - A| ≤ plan2 T / 2 ^ 34 ∧ |u - U| ≤ |U| / 2 ^ 33 + S / D / 2 ^ 33 ∧ |v - V| ≤ |V| / 2 ^ 33 + S / D / 2 ^ 33 ∧
    |r - R| ≤ |R| / 2 ^ 33 + Z / 2 ^ 32 ∧ |U| ≤ 2 ^ 54 ∧ |V| ≤ 2 ^ 54 ∧
    Inter.lineTriangle ⟨asVec O, V3.neg V3.ez⟩ (asTri T) Scalar.eps =
      if (-. Scalar.eps) <. fin a && fin a <. Scalar.eps then none
      else if fin u <. zero -. Scalar.eps || one +. Scalar.eps <. fin u then none
      else if fin v <. zero -. Scalar.eps || one +. Scalar.eps <. fin u +. fin v then none
      else some (V3.add (asVec O) (V3.smul (fin r) (V3.neg V3.ez))) := by
  obtain ⟨A, U, V, R, hA, hM, hU, hV, hR, hx, hy, hz⟩ := place hT O
  obtain ⟨pa, pu, pv, pr⟩ := parts hT hSx hSy hDS hS hSz hSZ hZ
  rw [← hA] at pa
  have hD := Sound.side hT
  have hD0 : 0 < D := lt_of_lt_of_le (by norm_num) hD
  have hS0 : 0 < S := hD0.trans_le hDS
  have hZ0 : 0 < Z := hS0.trans_le hSZ
  have hfat := hT.fat
  have hbig := hT.big
  obtain ⟨M, hMdef⟩ : ∃ M, M = plan2 T := ⟨_, rfl⟩
  rw [← hMdef] at hM hfat hbig ⊢
  have hMp : 0 < M := lt_of_lt_of_le (by norm_num) hbig
  have hDM : D * D ≤ 2 ^ 12 * M := by norm_num at *; nlinarith
  have hSDr : 1 ≤ S / D := by rw [le_div_iff₀ hD0]; linarith
  have hSD : S * D ≤ S / D * (2 ^ 12 * M) := by
    have : S * D = S / D * (D * D) := by field_simp
    rw [this]; exact mul_le_mul_of_nonneg_left hDM (by positivity)
  have hSDb : S / D ≤ 2 ^ 40 := by rw [div_le_iff₀ hD0]; norm_num at *; linarith
  have hM90 : M ≤ 2 ^ 90 := by
    have := Sound.plan_le hT
    have h2 : D * D ≤ 2 ^ 10 * 2 ^ 10 := mul_le_mul hT.small hT.small hD0.le (by norm_num)
    rw [← hMdef] at this
    linarith
  obtain ⟨σ, hσ⟩ : ∃ σ, σ = S / D := ⟨_, rfl⟩
  rw [← hσ] at hSDr hSD hSDb ⊢
  have hσM : 0 ≤ σ * M := by have : 0 ≤ σ := by linarith
                             positivity
  obtain ⟨a, ha, ha'⟩ := pa
  obtain ⟨wu, hwu, hwu'⟩ := pu
  obtain ⟨wv, hwv, hwv'⟩ := pv
  obtain ⟨wr, hwr, hwr'⟩ := pr
  have haM : |a - A| ≤ M / 2 ^ 34 := ha'.trans (by unfold ulp1; linarith)
  have hu1 : |wu - ((O.x - T.v0.x) * (T.v2.y - T.v0.y) - (O.y - T.v0.y) * (T.v2.x - T.v0.x))| ≤ σ / 2 ^ 34 * (7 / 8) * M :=
    hwu'.trans (by unfold ulp1; linarith)
  have hv1 : |wv - ((O.y - T.v0.y) * (T.v1.x - T.v0.x) - (O.x - T.v0.x) * (T.v1.y - T.v0.y))| ≤ σ / 2 ^ 34 * (7 / 8) * M :=
    hwv'.trans (by unfold ulp1; linarith)
  have hr1 : |wr - V3.dot (V3.sub T.v2 T.v0) (V3.cross (V3.sub O T.v0) (V3.sub T.v1 T.v0))| ≤ Z / 2 ^ 34 * M := by
    refine hwr'.trans ?_
    have : Z * (D * D) ≤ Z * (2 ^ 12 * M) := mul_le_mul_of_nonneg_left hDM hZ0.le
    unfold ulp1; linarith
  have hW : ∀ x y e f : ℝ, |x| ≤ S → |y| ≤ S → |e| ≤ D → |f| ≤ D → |(x * e - y * f) / A| ≤ 2 ^ 54 := by
    intro x y e f h1 h2 h3 h4
    rw [abs_div, hM, div_le_iff₀ hMp]
    refine (abs_sub _ _).trans ?_
    rw [abs_mul, abs_mul]
    have k1 := mul_le_mul h1 h3 (abs_nonneg _) hS0.le
    have k2 := mul_le_mul h2 h4 (abs_nonneg _) hS0.le
    have k3 : σ * (2 ^ 12 * M) ≤ 2 ^ 40 * (2 ^ 12 * M) := mul_le_mul_of_nonneg_right hSDb (by positivity)
    linarith
  have hUb : |U| ≤ 2 ^ 54 := by rw [hU]; exact hW _ _ _ _ hSx hSy hT.edge2.y hT.edge2.x
  have hVb : |V| ≤ 2 ^ 54 := by rw [hV]; exact hW _ _ _ _ hSy hSx hT.edge1.x hT.edge1.y
  have hRb : |R| ≤ 2 ^ 80 := by
    have e : R = (O.z - T.v0.z) - U * (T.v1.z - T.v0.z) - V * (T.v2.z - T.v0.z) := by linarith
    have k1 : |U * (T.v1.z - T.v0.z)| ≤ 2 ^ 54 * 2 ^ 10 := by
      rw [abs_mul]; exact mul_le_mul hUb (hT.edge1.z.trans hT.small) (abs_nonneg _) (by norm_num)
    have k2 : |V * (T.v2.z - T.v0.z)| ≤ 2 ^ 54 * 2 ^ 10 := by
      rw [abs_mul]; exact mul_le_mul hVb (hT.edge2.z.trans hT.small) (abs_nonneg _) (by norm_num)
    rw [e]
    refine (abs_sub _ _).trans ((add_le_add ((abs_sub _ _).trans (add_le_add hSz k1)) k2).trans ?_)
    linarith
  obtain ⟨u, hu, hue⟩ := quot hM.symm hbig hM90 haM hu1 (by positivity) (by linarith) (by rw [← hU]; exact hUb.trans (by norm_num))
  obtain ⟨v, hv, hve⟩ := quot hM.symm hbig hM90 haM hv1 (by positivity) (by linarith) (by rw [← hV]; exact hVb.trans (by norm_num))
  obtain ⟨r, hr, hre⟩ := quot hM.symm hbig hM90 haM hr1 (by positivity) (by linarith) (by rw [← hR]; exact hRb)
  rw [← hU] at hue
  rw [← hV] at hve
  rw [← hR] at hre
  refine ⟨A, U, V, R, a, u, v, r, hM, hx, hy, hz, haM, hue.trans (by linarith), hve.trans (by linarith),
    hre.trans (by linarith), hUb, hVb, ?_⟩
  unfold Inter.lineTriangle
  simp only [down]
  rw [ha, hwu, hwv, hwr, hu, hv, hr]

theorem eps_val : (Scalar.eps : ℝ) = 1 / 2 ^ 26 := by rw [real_eps]; norm_num

theorem eps_fin : (Scalar.eps : B64) = fin (1 / 2 ^ 26) := by
  rw [show (Scalar.eps : B64) = fin Scalar.eps from rfl, eps_val]

theorem below : (zero -. Scalar.eps : B64) = fin (-(1 / 2 ^ 26)) := by
  rw [eps_fin, B64.zero_eq, sub_fin, zero_sub]
  exact B64.exact (-1) (-26) (by norm_num [zpow_neg]) (by norm_num) (by norm_num) (by norm_num)

theorem above : (one +. Scalar.eps : B64) = fin (1 + 1 / 2 ^ 26) := by
  rw [eps_fin, B64.one_eq, add_fin]
  exact B64.exact (2 ^ 26 + 1) (-26) (by norm_num [zpow_neg]) (by norm_num) (by norm_num) (by norm_num)

theorem neg_eps : (-. Scalar.eps : B64) = fin (-(1 / 2 ^ 26)) := by
  rw [eps_fin]; rfl

/-- The point that the program returns. -/
theorem point {O : V3 ℝ} {C Z R r q : ℝ} (hC : Upto C O) (hC1 : 1 ≤ C) (hC2 : C ≤ 2 ^ 22) (hZ : 1 / 2 ^ 14 ≤ Z) (hZ' : Z ≤ 2 ^ 24)
    (hR : |R| ≤ 6 * Z) (hr : |r - R| ≤ |R| / 2 ^ 33 + Z / 2 ^ 32) (hq : q = O.z - R) :
    Close3 (Z / 2 ^ 29 + C / 2 ^ 52) (V3.add (asVec O) (V3.smul (fin r) (V3.neg V3.ez))) ⟨O.x, O.y, q⟩ := by
  have hr6 : |r| ≤ 7 * Z := by
    have := abs_sub_abs_le_abs_sub r R
    linarith
  rw [down]
  have side : ∀ x : ℝ, |x| ≤ C → Close (Z / 2 ^ 29 + C / 2 ^ 52) (fin x +. fin r *. fin 0) x := by
    intro x hx
    rw [fin_mul_zero, add_fin, add_zero]
    obtain ⟨y, hy, hye⟩ := rerr (x := x) (by linarith)
    exact ⟨y, hy, hye.trans (by linarith)⟩
  refine ⟨side _ hC.x, side _ hC.y, ?_⟩
  show Close _ (fin O.z +. fin r *. fin (-1)) q
  obtain ⟨y, hy, hye⟩ := rerr (x := r * -1) (by rw [mul_neg_one, abs_neg]; linarith)
  rw [mul_neg_one, abs_neg] at hye
  have hyb : |O.z + y| ≤ C + 8 * Z := by
    have h1 := abs_add_le O.z y
    have h2 := abs_sub_abs_le_abs_sub y (-r)
    rw [abs_neg] at h2
    have h3 := hC.z
    linarith
  obtain ⟨w, hw, hwe⟩ := rerr (x := O.z + y) (by linarith)
  rw [mul_fin, hy, add_fin]
  refine ⟨w, hw, ?_⟩
  rw [show w - q = (w - (O.z + y)) + (y - -r) - (r - R) by rw [hq]; ring]
  refine (abs_sub _ _).trans ((add_le_add (abs_add_le _ _) le_rfl).trans ?_)
  linarith

/-- A vertical line through a triangle is found to cross it, and at the right height. -/
theorem hit {D Z C : ℝ} {T : Triangle ℝ} (hT : Sound D T) {O p : V3 ℝ} (hp : InTriangle T.v0 T.v1 T.v2 p) (hx : p.x = O.x)
    (hy : p.y = O.y) (hSz : |O.z - T.v0.z| ≤ Z) (hDZ : D ≤ Z) (hZ : Z ≤ 2 ^ 24) (hC : Upto C O) (hC1 : 1 ≤ C) (hC2 : C ≤ 2 ^ 22) :
    ∃ p', Inter.lineTriangle ⟨asVec O, V3.neg V3.ez⟩ (asTri T) Scalar.eps = some p' ∧ Close3 (Z / 2 ^ 29 + C / 2 ^ 52) p' p := by
  have hD := Sound.side hT
  have hD0 : 0 < D := lt_of_lt_of_le (by norm_num) hD
  obtain ⟨ca, cb, cc, h0, h1, h2, hs, hpe⟩ := hp
  have hca : ca = 1 - cb - cc := by linarith
  have sx : O.x - T.v0.x = cb * (T.v1.x - T.v0.x) + cc * (T.v2.x - T.v0.x) := by
    rw [← hx, hpe, hca]; ring
  have sy : O.y - T.v0.y = cb * (T.v1.y - T.v0.y) + cc * (T.v2.y - T.v0.y) := by
    rw [← hy, hpe, hca]; ring
  have conv : ∀ e f : ℝ, |e| ≤ D → |f| ≤ D → |cb * e + cc * f| ≤ D := by
    intro e f he hf
    refine (abs_add_le _ _).trans ?_
    rw [abs_mul, abs_mul, abs_of_nonneg h1, abs_of_nonneg h2]
    nlinarith [mul_le_mul_of_nonneg_left he h1, mul_le_mul_of_nonneg_left hf h2]
  have bx : |O.x - T.v0.x| ≤ D := by rw [sx]; exact conv _ _ hT.edge1.x hT.edge2.x
  have byy : |O.y - T.v0.y| ≤ D := by rw [sy]; exact conv _ _ hT.edge1.y hT.edge2.y
  obtain ⟨A, U, V, R, a, u, v, r, hA, ex, ey, ez, ha, hu, hv, hr, -, -, hrun⟩ :=
    computed hT bx byy le_rfl (hT.small.trans (by norm_num)) hSz hDZ hZ
  have hbig := hT.big
  have hne : (T.v1.x - T.v0.x) * (T.v2.y - T.v0.y) - (T.v1.y - T.v0.y) * (T.v2.x - T.v0.x) ≠ 0 := by
    intro h
    rw [plan2, h, abs_zero] at hbig
    norm_num at hbig
  have hUc : U = cb := by
    have : (U - cb) * ((T.v1.x - T.v0.x) * (T.v2.y - T.v0.y) - (T.v1.y - T.v0.y) * (T.v2.x - T.v0.x)) = 0 := by
      rw [ex] at sx; rw [ey] at sy
      linear_combination (T.v2.y - T.v0.y) * sx - (T.v2.x - T.v0.x) * sy
    rcases mul_eq_zero.1 this with h | h
    · linarith
    · exact absurd h hne
  have hVc : V = cc := by
    have : (V - cc) * ((T.v1.x - T.v0.x) * (T.v2.y - T.v0.y) - (T.v1.y - T.v0.y) * (T.v2.x - T.v0.x)) = 0 := by
      rw [ex] at sx; rw [ey] at sy
      linear_combination (T.v1.x - T.v0.x) * sy - (T.v1.y - T.v0.y) * sx
    rcases mul_eq_zero.1 this with h | h
    · linarith
    · exact absurd h hne
  rw [hUc] at hu ez
  rw [hVc] at hv ez
  rw [div_self hD0.ne', abs_of_nonneg h1] at hu
  rw [div_self hD0.ne', abs_of_nonneg h2] at hv
  have hR : |R| ≤ 6 * Z := by
    have e : R = (O.z - T.v0.z) - (cb * (T.v1.z - T.v0.z) + cc * (T.v2.z - T.v0.z)) := by linarith
    rw [e]
    refine (abs_sub _ _).trans ?_
    have := conv _ _ hT.edge1.z hT.edge2.z
    linarith
  have hpz : p.z = O.z - R := by
    rw [hpe, hca]; dsimp only; linarith
  have hpt := point hC hC1 hC2 (hD.trans hDZ) hZ hR hr hpz
  have hpp : (⟨O.x, O.y, p.z⟩ : V3 ℝ) = p := by rw [← hx, ← hy]
  rw [hpp] at hpt
  refine ⟨_, ?_, hpt⟩
  obtain ⟨u1, u2⟩ := abs_le.1 hu
  obtain ⟨v1, v2⟩ := abs_le.1 hv
  have ta : ¬ (-(1 / 2 ^ 26) < a ∧ a < 1 / 2 ^ 26) := by
    rintro ⟨k1, k2⟩
    have h3 : |a| < 1 / 2 ^ 26 := abs_lt.2 ⟨k1, k2⟩
    have h4 := abs_sub_abs_le_abs_sub A a
    rw [abs_sub_comm, hA] at h4
    linarith
  obtain ⟨w, hw, hwe⟩ := rerr (x := u + v) (by
    refine (abs_add_le _ _).trans ?_
    have h3 : |u| ≤ 2 := by rw [abs_le]; constructor <;> linarith
    have h4 : |v| ≤ 2 := by rw [abs_le]; constructor <;> linarith
    linarith)
  have hw2 : w ≤ 1 + 1 / 2 ^ 26 := by
    have h3 : |u + v| ≤ 4 := by rw [abs_le]; constructor <;> linarith
    have := (abs_le.1 hwe).2
    linarith
  rw [hrun, neg_eps, below, above, eps_fin, add_fin, hw]
  simp only [lt_fin, Bool.and_eq_true, Bool.or_eq_true, decide_eq_true_eq]
  rw [if_neg ta, if_neg (by rw [not_or, not_lt, not_lt]; constructor <;> linarith),
    if_neg (by rw [not_or, not_lt, not_lt]; constructor <;> linarith)]

/-- What is found is close to the triangle. -/
theorem found {D Z C : ℝ} {T : Triangle ℝ} (hT : Sound D T) {O : V3 ℝ} (hSx : |O.x - T.v0.x| ≤ 2 ^ 22) (hSy : |O.y - T.v0.y| ≤ 2 ^ 22)
    (hSz : |O.z - T.v0.z| ≤ Z) (hDZ : D ≤ Z) (hZ : Z ≤ 2 ^ 20) (hC : Upto C O) (hC1 : 1 ≤ C) (hC2 : C ≤ 2 ^ 22) {p' : V3 B64}
    (hrun : Inter.lineTriangle ⟨asVec O, V3.neg V3.ez⟩ (asTri T) Scalar.eps = some p') :
    ∃ q, NearTriangle (1 / 2 ^ 24) T q ∧ q.x = O.x ∧ q.y = O.y ∧ Close3 (Z / 2 ^ 26 + C / 2 ^ 52) p' q := by
  have hD := Sound.side hT
  have hD0 : 0 < D := lt_of_lt_of_le (by norm_num) hD
  obtain ⟨S, hSdef⟩ : ∃ S, S = Max.max D (Max.max |O.x - T.v0.x| |O.y - T.v0.y|) := ⟨_, rfl⟩
  have hDS : D ≤ S := by rw [hSdef]; exact le_max_left _ _
  have hxS : |O.x - T.v0.x| ≤ S := by rw [hSdef]; exact (le_max_left _ _).trans (le_max_right _ _)
  have hyS : |O.y - T.v0.y| ≤ S := by rw [hSdef]; exact (le_max_right _ _).trans (le_max_right _ _)
  have hS : S ≤ 2 ^ 22 := by rw [hSdef]; exact max_le (hT.small.trans (by norm_num)) (max_le hSx hSy)
  obtain ⟨A, U, V, R, a, u, v, r, hA, ex, ey, ez, ha, hu, hv, hr, hUb, hVb, hrun'⟩ :=
    computed (Z := Z + S) hT hxS hyS hDS hS (by linarith) (by linarith) (by linarith)
  rw [hrun', neg_eps, below, above, eps_fin, add_fin] at hrun
  obtain ⟨σ, hσ⟩ : ∃ σ, σ = S / D := ⟨_, rfl⟩
  rw [← hσ] at hu hv
  have hSσ : S = σ * D := by rw [hσ]; field_simp
  have hσb : σ ≤ 2 ^ 40 := by
    rw [hσ, div_le_iff₀ hD0]; linarith
  have hub : |u| ≤ 2 ^ 60 := by
    have := abs_sub_abs_le_abs_sub u U; linarith
  have hvb : |v| ≤ 2 ^ 60 := by
    have := abs_sub_abs_le_abs_sub v V; linarith
  obtain ⟨w, hw, hwe⟩ := rerr (x := u + v) (by
    refine (abs_add_le _ _).trans ?_
    linarith)
  rw [hw] at hrun
  simp only [lt_fin, Bool.and_eq_true, Bool.or_eq_true, decide_eq_true_eq] at hrun
  split_ifs at hrun with k1 k2 k3
  obtain ⟨u1, u2⟩ := not_or.1 k2
  obtain ⟨v1, w2⟩ := not_or.1 k3
  rw [not_lt] at u1 u2 v1 w2
  have habs : |u + v| ≤ (u + v) + 1 / 2 ^ 24 := by rw [abs_le]; constructor <;> linarith
  have hwl := (abs_le.1 hwe).1
  have huv : u + v ≤ 1 + 1 / 2 ^ 25 + 1 / 2 ^ 30 := by linarith
  have hau : |u| ≤ 1 + 1 / 2 ^ 20 := by rw [abs_le]; constructor <;> linarith
  have hav : |v| ≤ 1 + 1 / 2 ^ 20 := by rw [abs_le]; constructor <;> linarith
  have hlin : ∀ e f : ℝ, |e| ≤ D → |f| ≤ D → |U * e + V * f| ≤ (|U| + |V|) * D := by
    intro e f he hf
    refine (abs_add_le _ _).trans ?_
    rw [abs_mul, abs_mul, add_mul]
    exact add_le_add (mul_le_mul_of_nonneg_left he (abs_nonneg U)) (mul_le_mul_of_nonneg_left hf (abs_nonneg V))
  have hσUV : σ ≤ 1 + |U| + |V| := by
    have hU0 := abs_nonneg U
    have hV0 := abs_nonneg V
    have : S ≤ (1 + |U| + |V|) * D := by
      have hx1 := hlin _ _ hT.edge1.x hT.edge2.x
      have hy1 := hlin _ _ hT.edge1.y hT.edge2.y
      dsimp only at hx1 hy1
      rw [← ex] at hx1
      rw [← ey] at hy1
      have hnn : 0 ≤ (|U| + |V|) * D := by positivity
      rw [hSdef, show (1 + |U| + |V|) * D = D + (|U| + |V|) * D by ring]
      exact max_le (by linarith only [hnn]) (max_le (by linarith only [hx1, hD0]) (by linarith only [hy1, hD0]))
    rw [hσ, div_le_iff₀ hD0]; exact this
  have hP : |U| + |V| ≤ 9 / 4 := by
    have h3 := abs_sub_abs_le_abs_sub U u
    have h4 := abs_sub_abs_le_abs_sub V v
    rw [abs_sub_comm] at h3 h4
    linarith
  have hU1 := abs_nonneg U
  have hV1 := abs_nonneg V
  obtain ⟨u3, u4⟩ := abs_le.1 hu
  obtain ⟨v3, v4⟩ := abs_le.1 hv
  have hS4 : S ≤ 13 / 4 * D := by rw [hSσ]; exact mul_le_mul_of_nonneg_right (by linarith) hD0.le
  have hR : |R| ≤ 6 * (5 * Z) := by
    have e : R = (O.z - T.v0.z) - (U * (T.v1.z - T.v0.z) + V * (T.v2.z - T.v0.z)) := by linarith
    rw [e]
    refine (abs_sub _ _).trans ?_
    have h3 := hlin _ _ hT.edge1.z hT.edge2.z
    have h4 : (|U| + |V|) * D ≤ 9 / 4 * D := mul_le_mul_of_nonneg_right hP hD0.le
    dsimp only at h3
    linarith
  have hpt := point (Z := 5 * Z) (q := O.z - R) hC hC1 hC2 (by linarith) (by linarith) hR (hr.trans (by linarith)) rfl
  refine ⟨⟨O.x, O.y, O.z - R⟩, ⟨1 - U - V, U, V, by linarith, by linarith, by linarith, by ring, ?_⟩, rfl, rfl, ?_⟩
  · ext
    · dsimp only; linarith
    · dsimp only; linarith
    · dsimp only; linarith
  · rw [← Option.some.inj hrun]
    refine hpt.mono ?_
    linarith

end Crack

/-- **C107 in doubles (partial).**  The vertices of the mesh and the origin of the vertical line are doubles, and so is all arithmetic.  The
surface is nowhere steeper than `L`; each triangle fits in a cube with edges `D` and is no needle.  Wherever the line meets the road, also on an edge or a
vertex that triangles share, the ground is found, at the height of the road up to `L D / 2 ^ 19 + Z / 2 ^ 26 + C / 2 ^ 52`, where `Z` is the vertical distance and
`C` bounds the coordinates.  The friction is that of a triangle one of whose points is at most `D / 2 ^ 21` away horizontally. -/
theorem C107_double_partial {L D Z C : ℝ} {ts : List (TriangleGround B64)} {Ts : List (TriangleGround ℝ)}
    (hd : List.Forall₂ InDoubles ts Ts) (hG : Gentle L Ts) (hL : 0 ≤ L) (hT : ∀ T ∈ Ts, Sound D T.tri) {O : V3 ℝ}
    (hO : ∀ T ∈ Ts, |O.x - T.tri.v0.x| ≤ 2 ^ 22 ∧ |O.y - T.tri.v0.y| ≤ 2 ^ 22 ∧ |O.z - T.tri.v0.z| ≤ Z) (hDZ : D ≤ Z)
    (hZ : Z ≤ 2 ^ 20) (hC : Upto C O) (hC1 : 1 ≤ C) (hC2 : C ≤ 2 ^ 22) {p : V3 ℝ} (hp : OnMesh Ts p) (hx : p.x = O.x) (hy : p.y = O.y) :
    ∃ q f, Rib.samplingLineMesh ts ⟨asVec O, V3.neg V3.ez⟩ = some (q, fin f) ∧
      Close3 (L * D / 2 ^ 19 + Z / 2 ^ 26 + C / 2 ^ 52) q p ∧
      ∃ T ∈ Ts, T.friction = f ∧ ∃ p', InTriangle T.tri.v0 T.tri.v1 T.tri.v2 p' ∧ |p'.x - O.x| ≤ D / 2 ^ 21 ∧ |p'.y - O.y| ≤ D / 2 ^ 21 := by
  obtain ⟨T, hTm, hpT⟩ := hp
  obtain ⟨n, hn, hTn⟩ := List.getElem_of_mem hTm
  have hn' : n < ts.length := by rw [hd.length_eq]; exact hn
  have hrel := List.forall₂_iff_get.1 hd |>.2 n hn' hn
  simp only [List.get_eq_getElem] at hrel
  rw [hTn] at hrel
  obtain ⟨p0, h0, c0⟩ := Crack.hit (hT T hTm) hpT hx hy (hO T hTm).2.2 hDZ (hZ.trans (by norm_num)) hC hC1 hC2
  rw [← hrel.1] at h0
  have hD0 : 0 < D := lt_of_lt_of_le (by norm_num) (Crack.Sound.side (hT T hTm))
  have hS : Sized D Ts := fun T hT' => ⟨⟨(hT T hT').edge1.x, (hT T hT').edge1.y⟩, (hT T hT').edge2.x, (hT T hT').edge2.y⟩
  -- everything found is close to a point above or below `O`
  have near : ∀ t ∈ ts, ∀ q, Inter.lineTriangle ⟨asVec O, V3.neg V3.ez⟩ t.tri Scalar.eps = some q →
      ∃ T' ∈ Ts, InDoubles t T' ∧ ∃ q0, NearTriangle (1 / 2 ^ 24) T'.tri q0 ∧ q0.x = O.x ∧ q0.y = O.y ∧
        Close3 (Z / 2 ^ 26 + C / 2 ^ 52) q q0 := by
    intro t ht q hq
    obtain ⟨m, hm, htm⟩ := List.getElem_of_mem ht
    have hm' : m < Ts.length := by rw [← hd.length_eq]; exact hm
    have hr := List.forall₂_iff_get.1 hd |>.2 m hm hm'
    simp only [List.get_eq_getElem] at hr
    rw [htm] at hr
    have hmem := List.getElem_mem hm'
    rw [hr.1] at hq
    obtain ⟨k1, k2, k3⟩ := hO _ hmem
    exact ⟨_, hmem, hr, Crack.found (hT _ hmem) k1 k2 k3 hDZ hZ hC hC1 hC2 hq⟩
  cases hq : Rib.samplingLineMesh ts ⟨asVec O, V3.neg V3.ez⟩ with
  | none => rw [((C28_highest_hit OrderOn.b64 ts _).1.1 hq) _ (List.getElem_mem hn')] at h0; cases h0
  | some qf =>
    obtain ⟨q, f⟩ := qf
    obtain ⟨⟨t', ht', hq', hf⟩, hmax⟩ := (C28_highest_hit OrderOn.b64 ts _).2 q f hq
    obtain ⟨T', hT', hrel', q0, hnear, hqx, hqy, cq⟩ := near t' ht' q hq'
    have hge := hmax (fun t ht q hq => by
      obtain ⟨_, _, _, _, _, _, _, c⟩ := near t ht q hq
      obtain ⟨z, hz, -⟩ := c.z
      rw [hz]
      simp [B64.fin]) _ (List.getElem_mem hn') p0 h0
    obtain ⟨⟨a1, a2⟩, a3, a4⟩ := hS T' hT'
    obtain ⟨r1, r2⟩ := Road.rise hG hS hL hT'
    obtain ⟨p', hp', b1, b2, b3⟩ := Road.clamp (by norm_num) (by norm_num) a1 a3 a2 a4 r1 r2 hnear
    have hg := hG p' p ⟨T', hT', hp'⟩ ⟨T, hTm, hpT⟩
    rw [hx, hy, ← hqx, ← hqy, abs_sub_comm p'.x, abs_sub_comm p'.y] at hg
    have hg' := hg.trans (mul_le_mul_of_nonneg_left (add_le_add b1 b2) hL)
    have hLD : 0 ≤ L * D := by positivity
    have hZ0 : 0 < Z := hD0.trans_le hDZ
    refine ⟨q, T'.friction, by rw [← hf, hrel'.2], ⟨?_, ?_, ?_⟩, T', hT', rfl, p', hp', ?_, ?_⟩
    · rw [hx, ← hqx]; exact cq.x.mono (by linarith)
    · rw [hy, ← hqy]; exact cq.y.mono (by linarith)
    · obtain ⟨z, hz, hze⟩ := cq.z
      obtain ⟨z0, hz0, hz0e⟩ := c0.z
      rw [hz, hz0, le_fin, decide_eq_true_eq] at hge
      refine ⟨z, hz, ?_⟩
      have e1 := abs_le.1 hze
      have e2 := abs_le.1 hz0e
      have e3 := abs_le.1 b3
      have e4 := abs_le.1 hg'
      rw [abs_le]; constructor <;> linarith
    · rw [abs_sub_comm, ← hqx]; refine b1.trans ?_; linarith
    · rw [abs_sub_comm, ← hqy]; refine b2.trans ?_; linarith

/-- The level unit square in two triangles, and a line through the edge that they share. -/
example (ts : List (TriangleGround B64)) (hd : List.Forall₂ InDoubles ts (Road.grid 1)) :
    ∃ q f, Rib.samplingLineMesh ts ⟨asVec ⟨1 / 4, 3 / 4, 1 / 2⟩, V3.neg V3.ez⟩ = some (q, fin f) ∧
      Close3 (1 / 2 ^ 25) q ⟨1 / 4, 3 / 4, 0⟩ := by
  have h1 : ∀ T ∈ Road.grid 1, Upto 1 ⟨T.tri.v1.x - T.tri.v0.x, T.tri.v1.y - T.tri.v0.y, T.tri.v1.z - T.tri.v0.z⟩ ∧
      Upto 1 ⟨T.tri.v2.x - T.tri.v0.x, T.tri.v2.y - T.tri.v0.y, T.tri.v2.z - T.tri.v0.z⟩ := by
    intro T hT
    obtain ⟨⟨a, b⟩, c, d⟩ := Road.grid_sized one_pos T hT
    have z0 := ((Road.on_grid one_pos _).1 ⟨T, hT, Road.vertex0 _ _ _⟩).1
    have z1 := ((Road.on_grid one_pos _).1 ⟨T, hT, Road.vertex1 _ _ _⟩).1
    have z2 := ((Road.on_grid one_pos _).1 ⟨T, hT, Road.vertex2 _ _ _⟩).1
    exact ⟨⟨a, b, by rw [z0, z1]; simp⟩, c, d, by rw [z0, z2]; simp⟩
  obtain ⟨q, f, h2, h3, -⟩ := C107_double_partial (L := 0) (D := 1) (Z := 1) (C := 1) hd (Road.grid_level one_pos) le_rfl
    (fun T hT => ⟨(h1 T hT).1, (h1 T hT).2, by norm_num, by rw [Road.grid_plan one_pos hT]; norm_num,
      by rw [Road.grid_plan one_pos hT]; norm_num⟩)
    (O := ⟨1 / 4, 3 / 4, 1 / 2⟩)
    (fun T hT => by
      obtain ⟨hz, ⟨a, b⟩, c, d⟩ := (Road.on_grid one_pos _).1 ⟨T, hT, Road.vertex0 _ _ _⟩
      rw [hz]
      dsimp only
      refine ⟨?_, ?_, ?_⟩ <;> rw [abs_le] <;> constructor <;> linarith)
    le_rfl (by norm_num) ⟨by norm_num [abs_of_pos], by norm_num [abs_of_pos], by norm_num [abs_of_pos]⟩ le_rfl (by norm_num)
    ((Road.on_grid one_pos ⟨1 / 4, 3 / 4, 0⟩).2 (by norm_num)) rfl rfl
  exact ⟨q, f, h2, h3.mono (by norm_num)⟩

end Enve
