import Verif.Spec.Calm
import Verif.Lemmas.RealVec
import Verif.Props.BuildProps

/-! # Rounding errors of the operations of `double` -/

namespace Enve

open Scalar Spec B64

theorem Spec.Fine.pos {ε : ℝ} (h : Fine ε) : 0 < ε := lt_of_lt_of_le (by norm_num) h.lo

namespace Spec.Close
variable {ε : ℝ} {a b : B64} {X Y : ℝ} {α β γ δ A B C : ℝ}

theorem mono {e e' : ℝ} (h : Close e a X) (he : e ≤ e') : Close e' a X := by
  obtain ⟨x, h1, h2⟩ := h; exact ⟨x, h1, h2.trans he⟩

theorem up (hε : Fine ε) (h : Close (α * ε) a X) (he : α ≤ β) : Close (β * ε) a X :=
  h.mono (mul_le_mul_of_nonneg_right he hε.pos.le)

theorem exact (x : ℝ) : Close (0 * ε) (fin x) x := ⟨x, rfl, by simp⟩

/-- Rounding. -/
theorem round (hε : Fine ε) {v : ℝ} (hv : |v - X| ≤ α * ε) (hX : |X| ≤ C) (hα : 0 ≤ α) (hr : C + α ≤ 2 ^ 200)
    (h : α + (C + α / 2 ^ 40) / 2 + 1 / 2 ^ 60 ≤ γ) : Close (γ * ε) (B64.round (.fin v)) X := by
  have hp := hε.pos
  have hαε : α * ε ≤ α / 2 ^ 40 := by
    rw [div_eq_mul_one_div]; exact mul_le_mul_of_nonneg_left hε.hi hα
  have hvC : |v| ≤ C + α / 2 ^ 40 := by
    have := abs_sub_abs_le_abs_sub v X
    linarith
  have hv200 : |v| ≤ 2 ^ 200 := by
    have : α / 2 ^ 40 ≤ α := div_le_self hα (by norm_num)
    exact hvC.trans (by linarith)
  refine ⟨near v, round_near (by norm_num) hv200, ?_⟩
  have hn := near_error v
  have hu : (2 : ℝ) ^ (-53 : ℤ) ≤ ε / 2 := by
    have := hε.lo; norm_num at this ⊢; linarith
  have ht : (2 : ℝ) ^ (-1075 : ℤ) ≤ 1 / 2 ^ 60 * ε := by
    calc (2 : ℝ) ^ (-1075 : ℤ) ≤ 2 ^ (-112 : ℤ) := zpow_le_zpow_right₀ (by norm_num) (by norm_num)
      _ = 1 / 2 ^ 60 * (1 / 2 ^ 52) := by norm_num
      _ ≤ 1 / 2 ^ 60 * ε := mul_le_mul_of_nonneg_left hε.lo (by norm_num)
  obtain ⟨u, hud⟩ : ∃ u : ℝ, u = 2 ^ (-53 : ℤ) := ⟨_, rfl⟩
  obtain ⟨t, htd⟩ : ∃ t : ℝ, t = 2 ^ (-1075 : ℤ) := ⟨_, rfl⟩
  rw [← hud] at hu
  rw [← htd] at ht
  rw [← hud, ← htd] at hn
  clear hud htd
  have h1 : |v| * u ≤ (C + α / 2 ^ 40) * (ε / 2) :=
    (mul_le_mul_of_nonneg_left hu (abs_nonneg _)).trans (mul_le_mul_of_nonneg_right hvC (by positivity))
  calc |near v - X| ≤ |near v - v| + |v - X| := abs_sub_le _ _ _
    _ ≤ (C + α / 2 ^ 40) * (ε / 2) + 1 / 2 ^ 60 * ε + α * ε := by linarith
    _ = (α + (C + α / 2 ^ 40) / 2 + 1 / 2 ^ 60) * ε := by ring
    _ ≤ γ * ε := mul_le_mul_of_nonneg_right h hp.le

theorem add (hε : Fine ε) (ha : Close (α * ε) a X) (hb : Close (β * ε) b Y) (hC : |X + Y| ≤ C) (hα : 0 ≤ α)
    (hβ : 0 ≤ β) (hr : C + (α + β) ≤ 2 ^ 200) (h : α + β + (C + (α + β) / 2 ^ 40) / 2 + 1 / 2 ^ 60 ≤ γ) :
    Close (γ * ε) (a +. b) (X + Y) := by
  obtain ⟨x, rfl, hx⟩ := ha
  obtain ⟨y, rfl, hy⟩ := hb
  rw [add_fin]
  refine round hε (α := α + β) ?_ hC (by linarith) hr h
  rw [show x + y - (X + Y) = (x - X) + (y - Y) by ring]
  exact (abs_add_le _ _).trans (by linarith)

theorem sub (hε : Fine ε) (ha : Close (α * ε) a X) (hb : Close (β * ε) b Y) (hC : |X - Y| ≤ C) (hα : 0 ≤ α)
    (hβ : 0 ≤ β) (hr : C + (α + β) ≤ 2 ^ 200) (h : α + β + (C + (α + β) / 2 ^ 40) / 2 + 1 / 2 ^ 60 ≤ γ) :
    Close (γ * ε) (a -. b) (X - Y) := by
  obtain ⟨x, rfl, hx⟩ := ha
  obtain ⟨y, rfl, hy⟩ := hb
  rw [sub_fin]
  refine round hε (α := α + β) ?_ hC (by linarith) hr h
  rw [show x - y - (X - Y) = (x - X) - (y - Y) by ring]
  exact (abs_sub _ _).trans (by linarith)

theorem neg {e : ℝ} (ha : Close e a X) : Close e (-. a) (-X) := by
  obtain ⟨x, rfl, hx⟩ := ha
  exact ⟨-x, rfl, by rw [show -x - -X = -(x - X) by ring, abs_neg]; exact hx⟩

theorem abs {e : ℝ} (ha : Close e a X) : Close e (Scalar.abs a) |X| := by
  obtain ⟨x, rfl, hx⟩ := ha
  exact ⟨|x|, DoubleDemo.abs_fin x, (abs_abs_sub_abs_le_abs_sub _ _).trans hx⟩

theorem mul (hε : Fine ε) (ha : Close (α * ε) a X) (hb : Close (β * ε) b Y) (hA : |X| ≤ A) (hB : |Y| ≤ B)
    (hα : 0 ≤ α) (hβ : 0 ≤ β) (hδ : α * B + β * A + α * β / 2 ^ 40 ≤ δ) (hr : A * B + δ ≤ 2 ^ 200)
    (h : δ + (A * B + δ / 2 ^ 40) / 2 + 1 / 2 ^ 60 ≤ γ) : Close (γ * ε) (a *. b) (X * Y) := by
  obtain ⟨x, rfl, hx⟩ := ha
  obtain ⟨y, rfl, hy⟩ := hb
  have hp := hε.pos
  have hA0 : 0 ≤ A := (abs_nonneg _).trans hA
  have hB0 : 0 ≤ B := (abs_nonneg _).trans hB
  have hδ0 : 0 ≤ δ := le_trans (by positivity) hδ
  rw [mul_fin]
  refine round hε (α := δ) ?_ (C := A * B) ?_ hδ0 hr h
  · rw [show x * y - X * Y = (x - X) * Y + X * (y - Y) + (x - X) * (y - Y) by ring]
    have h1 : |(x - X) * Y| ≤ α * ε * B := by rw [abs_mul]; exact mul_le_mul hx hB (abs_nonneg _) (by positivity)
    have h2 : |X * (y - Y)| ≤ A * (β * ε) := by rw [abs_mul]; exact mul_le_mul hA hy (abs_nonneg _) hA0
    have h3 : |(x - X) * (y - Y)| ≤ α * ε * (β * ε) := by
      rw [abs_mul]; exact mul_le_mul hx hy (abs_nonneg _) (by positivity)
    have h4 : α * ε * (β * ε) ≤ α * β / 2 ^ 40 * ε := by
      rw [show α * ε * (β * ε) = α * β * ε * ε by ring, show α * β / 2 ^ 40 * ε = α * β * ε * (1 / 2 ^ 40) by ring]
      exact mul_le_mul_of_nonneg_left hε.hi (by positivity)
    calc |(x - X) * Y + X * (y - Y) + (x - X) * (y - Y)| ≤ |(x - X) * Y| + |X * (y - Y)| + |(x - X) * (y - Y)| :=
          (abs_add_le _ _).trans (by linarith [abs_add_le ((x - X) * Y) (X * (y - Y))])
      _ ≤ (α * B + β * A + α * β / 2 ^ 40) * ε := by linarith
      _ ≤ δ * ε := mul_le_mul_of_nonneg_right hδ hp.le
  · rw [abs_mul]; exact mul_le_mul hA hB (abs_nonneg _) hA0

/-- `D` bounds the divisor from below. -/
theorem div (hε : Fine ε) {D : ℝ} (ha : Close (α * ε) a X) (hb : Close (β * ε) b Y) (hA : |X| ≤ A) (hD : D ≤ |Y|)
    (hα : 0 ≤ α) (hβ : 0 ≤ β) (hD0 : 0 < D) (hβD : β / 2 ^ 40 ≤ D / 16)
    (hδ : 16 / 15 * (α / D + A * β / (D * D)) ≤ δ) (hr : A / D + δ ≤ 2 ^ 200)
    (h : δ + (A / D + δ / 2 ^ 40) / 2 + 1 / 2 ^ 60 ≤ γ) : Close (γ * ε) (a /. b) (X / Y) := by
  obtain ⟨x, rfl, hx⟩ := ha
  obtain ⟨y, rfl, hy⟩ := hb
  have hp := hε.pos
  have hA0 : 0 ≤ A := (abs_nonneg _).trans hA
  have hβε : β * ε ≤ D / 16 := by
    refine le_trans ?_ hβD
    rw [div_eq_mul_one_div]; exact mul_le_mul_of_nonneg_left hε.hi hβ
  have hyD : 15 / 16 * D ≤ |y| := by
    have := abs_sub_abs_le_abs_sub Y y
    rw [abs_sub_comm] at this
    linarith
  have hy0 : 0 < |y| := lt_of_lt_of_le (by positivity) hyD
  have hY0 : 0 < |Y| := lt_of_lt_of_le hD0 hD
  have hyne : y ≠ 0 := abs_pos.1 hy0
  have hYne : Y ≠ 0 := abs_pos.1 hY0
  have hδ0 : 0 ≤ δ := le_trans (by positivity) hδ
  rw [div_fin _ hyne]
  refine round hε (α := δ) ?_ (C := A / D) ?_ hδ0 hr h
  · rw [show x / y - X / Y = (x - X) / y + X * (Y - y) / (y * Y) by field_simp; ring]
    have h1 : |(x - X) / y| ≤ α * ε / (15 / 16 * D) := by
      rw [abs_div]; exact div_le_div₀ (by positivity) hx (by positivity) hyD
    have h2 : |X * (Y - y) / (y * Y)| ≤ A * (β * ε) / (15 / 16 * D * D) := by
      rw [abs_div, abs_mul, abs_mul, abs_sub_comm Y y]
      refine div_le_div₀ (by positivity) (mul_le_mul hA hy (abs_nonneg _) hA0) (by positivity) ?_
      exact mul_le_mul hyD hD hD0.le (abs_nonneg _)
    calc |(x - X) / y + X * (Y - y) / (y * Y)| ≤ _ := abs_add_le _ _
      _ ≤ α * ε / (15 / 16 * D) + A * (β * ε) / (15 / 16 * D * D) := add_le_add h1 h2
      _ = 16 / 15 * (α / D + A * β / (D * D)) * ε := by field_simp
      _ ≤ δ * ε := mul_le_mul_of_nonneg_right hδ hp.le
  · rw [abs_div]; exact div_le_div₀ hA0 hA hD0 hD

end Spec.Close

namespace Spec.Close3
variable {ε : ℝ} {a b : V3 B64} {X Y : V3 ℝ} {α β γ δ A B C : ℝ}

theorem mono {e e' : ℝ} (h : Close3 e a X) (he : e ≤ e') : Close3 e' a X := ⟨h.x.mono he, h.y.mono he, h.z.mono he⟩

theorem up (hε : Fine ε) (h : Close3 (α * ε) a X) (he : α ≤ β) : Close3 (β * ε) a X :=
  ⟨h.x.up hε he, h.y.up hε he, h.z.up hε he⟩

end Spec.Close3

namespace Spec.Close3
variable {ε : ℝ} {a b : V3 B64} {X Y : V3 ℝ} {α β γ δ A B C : ℝ}

theorem add (hε : Fine ε) (ha : Close3 (α * ε) a X) (hb : Close3 (β * ε) b Y) (hC : Upto C (V3.add X Y)) (hα : 0 ≤ α)
    (hβ : 0 ≤ β) (hr : C + (α + β) ≤ 2 ^ 200) (h : α + β + (C + (α + β) / 2 ^ 40) / 2 + 1 / 2 ^ 60 ≤ γ) :
    Close3 (γ * ε) (V3.add a b) (V3.add X Y) :=
  ⟨ha.x.add hε hb.x hC.x hα hβ hr h, ha.y.add hε hb.y hC.y hα hβ hr h, ha.z.add hε hb.z hC.z hα hβ hr h⟩

theorem sub (hε : Fine ε) (ha : Close3 (α * ε) a X) (hb : Close3 (β * ε) b Y) (hC : Upto C (V3.sub X Y)) (hα : 0 ≤ α)
    (hβ : 0 ≤ β) (hr : C + (α + β) ≤ 2 ^ 200) (h : α + β + (C + (α + β) / 2 ^ 40) / 2 + 1 / 2 ^ 60 ≤ γ) :
    Close3 (γ * ε) (V3.sub a b) (V3.sub X Y) :=
  ⟨ha.x.sub hε hb.x hC.x hα hβ hr h, ha.y.sub hε hb.y hC.y hα hβ hr h, ha.z.sub hε hb.z hC.z hα hβ hr h⟩

theorem smul (hε : Fine ε) {s : B64} {S : ℝ} (hs : Close (α * ε) s S) (hb : Close3 (β * ε) b Y) (hA : |S| ≤ A)
    (hB : Upto B Y) (hα : 0 ≤ α) (hβ : 0 ≤ β) (hδ : α * B + β * A + α * β / 2 ^ 40 ≤ δ) (hr : A * B + δ ≤ 2 ^ 200)
    (h : δ + (A * B + δ / 2 ^ 40) / 2 + 1 / 2 ^ 60 ≤ γ) : Close3 (γ * ε) (V3.smul s b) (V3.smul S Y) :=
  ⟨hs.mul hε hb.x hA hB.x hα hβ hδ hr h, hs.mul hε hb.y hA hB.y hα hβ hδ hr h, hs.mul hε hb.z hA hB.z hα hβ hδ hr h⟩

/-- Sums of three products. -/
theorem sum3 (hε : Fine ε) {a0 a1 a2 b0 b1 b2 : B64} {X0 X1 X2 Y0 Y1 Y2 : ℝ} (h0 : Close (α * ε) a0 X0)
    (h1 : Close (α * ε) a1 X1) (h2 : Close (α * ε) a2 X2) (k0 : Close (β * ε) b0 Y0)
    (k1 : Close (β * ε) b1 Y1) (k2 : Close (β * ε) b2 Y2) (hA0 : |X0| ≤ A) (hA1 : |X1| ≤ A) (hA2 : |X2| ≤ A)
    (hB0 : |Y0| ≤ B) (hB1 : |Y1| ≤ B) (hB2 : |Y2| ≤ B) (hα : 0 ≤ α) (hβ : 0 ≤ β)
    (hδ : α * B + β * A + α * β / 2 ^ 40 ≤ δ) (hr : A * B + δ ≤ 2 ^ 100)
    (h : 4 * δ + 5 * (A * B) + 1 / 2 ^ 50 ≤ γ) :
    Close (γ * ε) (a0 *. b0 +. a1 *. b1 +. a2 *. b2) (X0 * Y0 + X1 * Y1 + X2 * Y2) := by
  have hA : 0 ≤ A := (abs_nonneg _).trans hA0
  have hB : 0 ≤ B := (abs_nonneg _).trans hB0
  have hδ0 : 0 ≤ δ := le_trans (by positivity) hδ
  have hAB : 0 ≤ A * B := by positivity
  have hr' : A * B + δ ≤ 2 ^ 200 := hr.trans (by norm_num)
  obtain ⟨κ, hκ⟩ : ∃ κ, κ = δ + (A * B + δ / 2 ^ 40) / 2 + 1 / 2 ^ 60 := ⟨_, rfl⟩
  have hκ0 : 0 ≤ κ := by rw [hκ]; positivity
  have m0 := h0.mul hε k0 hA0 hB0 hα hβ hδ hr' hκ.ge
  have m1 := h1.mul hε k1 hA1 hB1 hα hβ hδ hr' hκ.ge
  have m2 := h2.mul hε k2 hA2 hB2 hα hβ hδ hr' hκ.ge
  have p0 : |X0 * Y0| ≤ A * B := by rw [abs_mul]; exact mul_le_mul hA0 hB0 (abs_nonneg _) hA
  have p1 : |X1 * Y1| ≤ A * B := by rw [abs_mul]; exact mul_le_mul hA1 hB1 (abs_nonneg _) hA
  have p2 : |X2 * Y2| ≤ A * B := by rw [abs_mul]; exact mul_le_mul hA2 hB2 (abs_nonneg _) hA
  have q1 : |X0 * Y0 + X1 * Y1| ≤ 2 * (A * B) := (abs_add_le _ _).trans (by linarith)
  have q2 : |X0 * Y0 + X1 * Y1 + X2 * Y2| ≤ 3 * (A * B) := (abs_add_le _ _).trans (by linarith)
  have big : (16 : ℝ) * 2 ^ 100 + 1 ≤ 2 ^ 200 := by norm_num
  have s1 := m0.add hε m1 q1 hκ0 hκ0 (by rw [hκ]; norm_num at hr ⊢; linarith) le_rfl
  refine s1.add hε m2 q2 (by positivity) hκ0 ?_ ?_
  · rw [hκ]; norm_num at hr ⊢; linarith
  · rw [hκ]; refine le_trans ?_ h; norm_num; linarith

theorem dot (hε : Fine ε) (ha : Close3 (α * ε) a X) (hb : Close3 (β * ε) b Y) (hA : Upto A X) (hB : Upto B Y)
    (hα : 0 ≤ α) (hβ : 0 ≤ β) (hδ : α * B + β * A + α * β / 2 ^ 40 ≤ δ) (hr : A * B + δ ≤ 2 ^ 100)
    (h : 4 * δ + 5 * (A * B) + 1 / 2 ^ 50 ≤ γ) : Close (γ * ε) (V3.dot a b) (V3.dot X Y) :=
  sum3 hε ha.x ha.y ha.z hb.x hb.y hb.z hA.x hA.y hA.z hB.x hB.y hB.z hα hβ hδ hr h

theorem mulVec (hε : Fine ε) {m : M3 B64} {P : M3 ℝ} (h0 : Close3 (α * ε) m.c0 P.c0) (h1 : Close3 (α * ε) m.c1 P.c1)
    (h2 : Close3 (α * ε) m.c2 P.c2) (hb : Close3 (β * ε) b Y) (hA0 : Upto A P.c0) (hA1 : Upto A P.c1)
    (hA2 : Upto A P.c2) (hB : Upto B Y) (hα : 0 ≤ α) (hβ : 0 ≤ β) (hδ : α * B + β * A + α * β / 2 ^ 40 ≤ δ)
    (hr : A * B + δ ≤ 2 ^ 100) (h : 4 * δ + 5 * (A * B) + 1 / 2 ^ 50 ≤ γ) :
    Close3 (γ * ε) (M3.mulVec m b) (M3.mulVec P Y) :=
  ⟨sum3 hε h0.x h1.x h2.x hb.x hb.y hb.z hA0.x hA1.x hA2.x hB.x hB.y hB.z hα hβ hδ hr h,
   sum3 hε h0.y h1.y h2.y hb.x hb.y hb.z hA0.y hA1.y hA2.y hB.x hB.y hB.z hα hβ hδ hr h,
   sum3 hε h0.z h1.z h2.z hb.x hb.y hb.z hA0.z hA1.z hA2.z hB.x hB.y hB.z hα hβ hδ hr h⟩

/-- Differences of two products. -/
theorem diff2 (hε : Fine ε) {a0 a1 b0 b1 : B64} {X0 X1 Y0 Y1 : ℝ} (h0 : Close (α * ε) a0 X0)
    (h1 : Close (α * ε) a1 X1) (k0 : Close (β * ε) b0 Y0) (k1 : Close (β * ε) b1 Y1) (hA0 : |X0| ≤ A) (hA1 : |X1| ≤ A)
    (hB0 : |Y0| ≤ B) (hB1 : |Y1| ≤ B) (hα : 0 ≤ α) (hβ : 0 ≤ β)
    (hδ : α * B + β * A + α * β / 2 ^ 40 ≤ δ) (hr : A * B + δ ≤ 2 ^ 100)
    (h : 17 / 8 * δ + 3 * (A * B) + 1 / 2 ^ 50 ≤ γ) :
    Close (γ * ε) (a0 *. b0 -. a1 *. b1) (X0 * Y0 - X1 * Y1) := by
  have hA : 0 ≤ A := (abs_nonneg _).trans hA0
  have hB : 0 ≤ B := (abs_nonneg _).trans hB0
  have hδ0 : 0 ≤ δ := le_trans (by positivity) hδ
  have hAB : 0 ≤ A * B := by positivity
  have hr' : A * B + δ ≤ 2 ^ 200 := hr.trans (by norm_num)
  obtain ⟨κ, hκ⟩ : ∃ κ, κ = δ + (A * B + δ / 2 ^ 40) / 2 + 1 / 2 ^ 60 := ⟨_, rfl⟩
  have hκ0 : 0 ≤ κ := by rw [hκ]; positivity
  have m0 := h0.mul hε k0 hA0 hB0 hα hβ hδ hr' hκ.ge
  have m1 := h1.mul hε k1 hA1 hB1 hα hβ hδ hr' hκ.ge
  have p0 : |X0 * Y0| ≤ A * B := by rw [abs_mul]; exact mul_le_mul hA0 hB0 (abs_nonneg _) hA
  have p1 : |X1 * Y1| ≤ A * B := by rw [abs_mul]; exact mul_le_mul hA1 hB1 (abs_nonneg _) hA
  have q1 : |X0 * Y0 - X1 * Y1| ≤ 2 * (A * B) := (abs_sub _ _).trans (by linarith)
  refine m0.sub hε m1 q1 hκ0 hκ0 ?_ ?_
  · rw [hκ]; norm_num at hr ⊢; linarith
  · rw [hκ]; refine le_trans ?_ h; norm_num; linarith

theorem cross (hε : Fine ε) (ha : Close3 (α * ε) a X) (hb : Close3 (β * ε) b Y) (hA : Upto A X) (hB : Upto B Y)
    (hα : 0 ≤ α) (hβ : 0 ≤ β) (hδ : α * B + β * A + α * β / 2 ^ 40 ≤ δ) (hr : A * B + δ ≤ 2 ^ 100)
    (h : 17 / 8 * δ + 3 * (A * B) + 1 / 2 ^ 50 ≤ γ) : Close3 (γ * ε) (V3.cross a b) (V3.cross X Y) :=
  ⟨diff2 hε ha.y ha.z hb.z hb.y hA.y hA.z hB.z hB.y hα hβ hδ hr h,
   diff2 hε ha.z ha.x hb.x hb.z hA.z hA.x hB.x hB.z hα hβ hδ hr h,
   diff2 hε ha.x ha.y hb.y hb.x hA.x hA.y hB.y hB.x hα hβ hδ hr h⟩

end Spec.Close3

/-- The squared length of a vector of doubles, up to a relative error. -/
theorem B64.sqNorm_close {v : V3 ℝ} (hx : |v.x| ≤ 2 ^ 100) (hy : |v.y| ≤ 2 ^ 100) (hz : |v.z| ≤ 2 ^ 100) :
    ∃ s, V3.sqNorm (⟨fin v.x, fin v.y, fin v.z⟩ : V3 B64) = fin s ∧
      |s - V3.sqNorm v| ≤ 1 / 2 ^ 51 * V3.sqNorm v + 1 / 2 ^ 200 := by
  have sq : ∀ a : ℝ, |a| ≤ 2 ^ 100 → a * a ≤ 2 ^ 200 ∧ fin a *. fin a = fin (near (a * a)) ∧ 0 ≤ near (a * a) ∧
      near (a * a) ≤ 2 ^ 200 := by
    intro a ha
    have h1 : a * a ≤ 2 ^ 200 := by
      rw [← abs_mul_abs_self, show (2 : ℝ) ^ 200 = 2 ^ 100 * 2 ^ 100 by norm_num]
      exact mul_le_mul ha ha (abs_nonneg _) (by positivity)
    have h2 : |a * a| ≤ 2 ^ 200 := by rw [abs_mul_self]; exact h1
    exact ⟨h1, by rw [mul_fin, round_near (by norm_num) h2], near_neg_le rep_zero (mul_self_nonneg a),
      (abs_le.1 (near_abs h2)).2⟩
  obtain ⟨x1, x2, x3, x4⟩ := sq _ hx
  obtain ⟨y1, y2, y3, y4⟩ := sq _ hy
  obtain ⟨z1, z2, z3, z4⟩ := sq _ hz
  have b1 : |near (v.x * v.x) + near (v.y * v.y)| ≤ 2 ^ 201 := by
    rw [abs_of_nonneg (by positivity)]
    exact (add_le_add x4 y4).trans (le_of_eq (by norm_num))
  have n1 : 0 ≤ near (near (v.x * v.x) + near (v.y * v.y)) := near_neg_le rep_zero (by positivity)
  have n1' := (abs_le.1 (near_abs b1)).2
  have b2 : |near (near (v.x * v.x) + near (v.y * v.y)) + near (v.z * v.z)| ≤ 2 ^ 202 := by
    rw [abs_of_nonneg (by positivity)]
    refine (add_le_add n1' z4).trans ?_
    norm_num
  refine ⟨near (near (near (v.x * v.x) + near (v.y * v.y)) + near (v.z * v.z)), ?_, ?_⟩
  · simp only [V3.sqNorm, V3.dot]
    rw [x2, y2, z2, add_fin, round_near (by norm_num) b1, add_fin, round_near (by norm_num) b2]
  have e1 := near_error (v.x * v.x)
  have e2 := near_error (v.y * v.y)
  have e3 := near_error (v.z * v.z)
  have e4 := near_error (near (v.x * v.x) + near (v.y * v.y))
  have e5 := near_error (near (near (v.x * v.x) + near (v.y * v.y)) + near (v.z * v.z))
  rw [abs_mul_self] at e1 e2 e3
  rw [abs_of_nonneg (by positivity : 0 ≤ near (v.x * v.x) + near (v.y * v.y))] at e4
  rw [abs_of_nonneg (by positivity : 0 ≤ near (near (v.x * v.x) + near (v.y * v.y)) + near (v.z * v.z))] at e5
  rw [V3.real_sqNorm]
  have hX := mul_self_nonneg v.x
  have hY := mul_self_nonneg v.y
  have hZ := mul_self_nonneg v.z
  have hu : (2 : ℝ) ^ (-53 : ℤ) = 1 / 2 ^ 53 := by norm_num
  have ht : (2 : ℝ) ^ (-1075 : ℤ) ≤ 1 / 2 ^ 210 := by
    calc (2 : ℝ) ^ (-1075 : ℤ) ≤ 2 ^ (-210 : ℤ) := zpow_le_zpow_right₀ (by norm_num) (by norm_num)
      _ = 1 / 2 ^ 210 := by norm_num
  obtain ⟨t, htd⟩ : ∃ t : ℝ, t = 2 ^ (-1075 : ℤ) := ⟨_, rfl⟩
  rw [hu, ← htd] at e1 e2 e3 e4 e5
  rw [← htd] at ht
  clear htd x1 y1 z1 x2 y2 z2 x4 y4 z4 b1 b2 n1' hx hy hz sq
  generalize v.x * v.x = X at *
  generalize v.y * v.y = Y at *
  generalize v.z * v.z = Z at *
  generalize near X = X' at *
  generalize near Y = Y' at *
  generalize near Z = Z' at *
  generalize near (X' + Y') = S' at *
  generalize near (S' + Z') = T' at *
  obtain ⟨η, hη⟩ : ∃ η : ℝ, η = 1 / 2 ^ 210 := ⟨_, rfl⟩
  have hη2 : (1 : ℝ) / 2 ^ 200 = 1024 * η := by rw [hη]; norm_num
  rw [← hη] at ht
  rw [hη2]
  have hη0 : 0 ≤ η := by rw [hη]; positivity
  clear hη hη2
  rw [abs_le] at *
  norm_num at e1 e2 e3 e4 e5 ⊢
  constructor <;> linarith

theorem V3.norm_sub_le (a b : V3 ℝ) {e : ℝ} (hx : |a.x - b.x| ≤ e) (hy : |a.y - b.y| ≤ e) (hz : |a.z - b.z| ≤ e) :
    V3.norm (V3.sub a b) ≤ 7 / 4 * e := by
  have he : 0 ≤ e := (abs_nonneg _).trans hx
  rw [V3.norm_eq, length3]
  apply Real.sqrt_le_iff.2
  refine ⟨by positivity, ?_⟩
  simp only [V3.real_sub]
  have h1 := sq_le_sq' (abs_le.1 hx).1 (abs_le.1 hx).2
  have h2 := sq_le_sq' (abs_le.1 hy).1 (abs_le.1 hy).2
  have h3 := sq_le_sq' (abs_le.1 hz).1 (abs_le.1 hz).2
  nlinarith

theorem V3.abs_le_norm (a : V3 ℝ) : Upto (V3.norm a) a := by
  rw [V3.norm_eq, length3]
  refine ⟨?_, ?_, ?_⟩ <;> apply Real.abs_le_sqrt <;> nlinarith [sq_nonneg a.x, sq_nonneg a.y, sq_nonneg a.z]

theorem V3.dot_le_norm (a b : V3 ℝ) : |V3.dot a b| ≤ V3.norm a * V3.norm b := by
  rw [V3.norm_eq, V3.norm_eq, length3, length3, ← Real.sqrt_mul (by positivity), V3.real_dot]
  apply Real.abs_le_sqrt
  nlinarith [sq_nonneg (a.x * b.y - a.y * b.x), sq_nonneg (a.y * b.z - a.z * b.y), sq_nonneg (a.z * b.x - a.x * b.z)]

theorem V3.norm_add_le (a b : V3 ℝ) : V3.norm (V3.add a b) ≤ V3.norm a + V3.norm b := by
  have h := V3.dot_le_norm a b
  have ha := V3.norm_nonneg a
  have hb := V3.norm_nonneg b
  apply abs_le_of_sq_le_sq' _ (by positivity) |>.2
  rw [V3.norm_sq]
  have e1 := V3.norm_sq a
  have e2 := V3.norm_sq b
  have h2 := (abs_le.1 h).2
  rw [V3.real_dot] at h2
  simp only [V3.real_add]
  nlinarith

theorem V3.abs_norm_sub (a b : V3 ℝ) : |V3.norm a - V3.norm b| ≤ V3.norm (V3.sub a b) := by
  have h1 := V3.norm_add_le (V3.sub a b) b
  have h2 := V3.norm_add_le (V3.sub b a) a
  have e1 : V3.add (V3.sub a b) b = a := by ext <;> simp [V3.add, V3.sub]
  have e2 : V3.add (V3.sub b a) a = b := by ext <;> simp [V3.add, V3.sub]
  have e3 : V3.norm (V3.sub b a) = V3.norm (V3.sub a b) := by
    rw [V3.real_norm, V3.real_norm]; simp only [V3.real_sub]; congr 1; ring
  rw [e1] at h1
  rw [e2, e3] at h2
  rw [abs_le]; constructor <;> linarith

namespace Spec.Close3
variable {ε : ℝ} {a b : V3 B64} {X Y : V3 ℝ} {α β γ δ A B C : ℝ}

/-- The length of a vector. -/
theorem norm' (hε : Fine ε) (ha : Close3 (α * ε) a X) (hα : 0 ≤ α) (hα' : α ≤ 2 ^ 60) (hA : V3.norm X ≤ A) (hA' : A ≤ 2 ^ 50)
    (h : 3 * A + 9 / 4 * α + 1 / 2 ^ 10 ≤ γ) :
    Close (γ * ε) (V3.norm a) (V3.norm X) ∧
      ∃ s, V3.sqNorm a = fin s ∧ (1 / 2 ^ 60 + 2 * (α * ε) ≤ V3.norm X → 0 < s) := by
  have hp := hε.pos
  have hε1 : ε ≤ 1 := hε.hi.trans (by norm_num)
  obtain ⟨⟨x, hx, hx'⟩, ⟨y, hy, hy'⟩, ⟨z, hz, hz'⟩⟩ := ha
  obtain ⟨v, hv⟩ : ∃ v : V3 ℝ, v = ⟨x, y, z⟩ := ⟨_, rfl⟩
  have ha : a = ⟨fin v.x, fin v.y, fin v.z⟩ := by
    rw [hv]; ext1 <;> assumption
  have hd : V3.norm (V3.sub v X) ≤ 7 / 4 * (α * ε) := V3.norm_sub_le v X (by rw [hv]; exact hx') (by rw [hv]; exact hy') (by rw [hv]; exact hz')
  have hL := (V3.abs_norm_sub v X).trans hd
  have hL1 := (abs_le.1 hL).2
  have hL0 := (abs_le.1 hL).1
  have hαε : α * ε ≤ 2 ^ 60 := by nlinarith
  have hαε' : α * ε ≤ α / 2 ^ 40 := by
    rw [div_eq_mul_one_div]; exact mul_le_mul_of_nonneg_left hε.hi hα
  have hn := V3.norm_nonneg v
  have hn100 : V3.norm v ≤ 2 ^ 63 := by
    norm_num at hα' hA' hαε ⊢; linarith
  have hup := V3.abs_le_norm v
  have big : (2 : ℝ) ^ 63 ≤ 2 ^ 100 := by norm_num
  obtain ⟨s, hs, hs'⟩ := B64.sqNorm_close (hup.x.trans (hn100.trans big)) (hup.y.trans (hn100.trans big))
    (hup.z.trans (hn100.trans big))
  have hS : V3.sqNorm v = V3.norm v * V3.norm v := (V3.norm_mul_self v).symm
  rw [hS] at hs'
  rw [← ha] at hs
  generalize V3.norm v = L at *
  rw [abs_le] at hs'
  have hsb : 0 ≤ s ∨ L ≤ 1 / 2 ^ 70 := by
    by_contra hc
    push Not at hc
    have : (1 / 2 ^ 70 : ℝ) * (1 / 2 ^ 70) ≤ L * L := mul_le_mul hc.2.le hc.2.le (by norm_num) hn
    norm_num at this hs' hc
    linarith [hs'.1, hc.1]
  have hsneg : 0 ≤ s := by
    have : V3.sqNorm a = fin s := hs
    rw [ha] at this
    simp only [V3.sqNorm, V3.dot] at this
    rcases hsb with h | h
    · exact h
    · -- squares and their sums are never negative
      have q : ∀ t : ℝ, |t| ≤ 2 ^ 100 → ∃ r, fin t *. fin t = fin r ∧ 0 ≤ r ∧ r ≤ 2 ^ 200 := by
        intro t ht
        have h2 : |t * t| ≤ 2 ^ 200 := by
          rw [abs_mul, show (2 : ℝ) ^ 200 = 2 ^ 100 * 2 ^ 100 by norm_num]
          exact mul_le_mul ht ht (abs_nonneg _) (by positivity)
        exact ⟨near (t * t), by rw [mul_fin, round_near (by norm_num) h2], near_neg_le rep_zero (mul_self_nonneg t),
          (abs_le.1 (near_abs h2)).2⟩
      obtain ⟨r0, q0, q1, q2⟩ := q _ (hup.x.trans (hn100.trans big))
      obtain ⟨r1, q3, q4, q5⟩ := q _ (hup.y.trans (hn100.trans big))
      obtain ⟨r2, q6, q7, q8⟩ := q _ (hup.z.trans (hn100.trans big))
      have b1 : |r0 + r1| ≤ 2 ^ 201 := by
        rw [abs_of_nonneg (by positivity)]; exact (add_le_add q2 q5).trans (le_of_eq (by norm_num))
      have n1 : 0 ≤ near (r0 + r1) := near_neg_le rep_zero (by positivity)
      have b2 : |near (r0 + r1) + r2| ≤ 2 ^ 202 := by
        rw [abs_of_nonneg (by positivity)]
        refine (add_le_add (abs_le.1 (near_abs b1)).2 q8).trans ?_
        norm_num
      rw [q0, q3, q6, add_fin, round_near (by norm_num) b1, add_fin, round_near (by norm_num) b2] at this
      have h3 : near (near (r0 + r1) + r2) = s := by
        have := congrArg B64.val this
        exact XR.fin.inj this
      rw [← h3]
      exact near_neg_le rep_zero (by positivity)
  -- the root
  have hroot : |Real.sqrt s - L| ≤ 2 * L * ε + 1 / 2 ^ 16 * ε := by
    have hr0 := Real.sqrt_nonneg s
    have hrr := Real.mul_self_sqrt hsneg
    have hlo := hε.lo
    by_cases hL70 : L ≤ 1 / 2 ^ 70
    · have h1 : Real.sqrt s ≤ 1 / 2 ^ 69 := by
        apply Real.sqrt_le_iff.2
        refine ⟨by norm_num, ?_⟩
        have : L * L ≤ 1 / 2 ^ 70 * (1 / 2 ^ 70) := mul_le_mul hL70 hL70 hn (by norm_num)
        norm_num at this hs' ⊢
        linarith [hs'.2]
      rw [abs_le]
      have h2 : (1 : ℝ) / 2 ^ 68 ≤ 1 / 2 ^ 16 * ε := by
        calc (1 : ℝ) / 2 ^ 68 = 1 / 2 ^ 16 * (1 / 2 ^ 52) := by norm_num
          _ ≤ _ := mul_le_mul_of_nonneg_left hlo (by norm_num)
      have h3 : 0 ≤ 2 * L * ε := by positivity
      norm_num at h1 h2 hL70
      constructor <;> linarith
    · push Not at hL70
      have hLp : 0 < L := lt_trans (by norm_num) hL70
      have h1 : |Real.sqrt s - L| * L ≤ 1 / 2 ^ 51 * (L * L) + 1 / 2 ^ 200 := by
        have h2 : (Real.sqrt s - L) * (Real.sqrt s + L) = s - L * L := by linear_combination hrr
        have h3 : |Real.sqrt s - L| * (Real.sqrt s + L) = |s - L * L| := by
          rw [← h2, abs_mul, abs_of_nonneg (by positivity : 0 ≤ Real.sqrt s + L)]
        calc |Real.sqrt s - L| * L ≤ |Real.sqrt s - L| * (Real.sqrt s + L) :=
              mul_le_mul_of_nonneg_left (by linarith) (abs_nonneg _)
          _ = |s - L * L| := h3
          _ ≤ _ := abs_le.2 hs'
      have h4 : (1 : ℝ) / 2 ^ 200 ≤ 1 / 2 ^ 130 * L := by
        calc (1 : ℝ) / 2 ^ 200 = 1 / 2 ^ 130 * (1 / 2 ^ 70) := by norm_num
          _ ≤ _ := mul_le_mul_of_nonneg_left hL70.le (by norm_num)
      have h5 : |Real.sqrt s - L| ≤ 1 / 2 ^ 51 * L + 1 / 2 ^ 130 := by
        refine le_of_mul_le_mul_right ?_ hLp
        calc _ ≤ _ := h1
          _ ≤ 1 / 2 ^ 51 * (L * L) + 1 / 2 ^ 130 * L := by linarith
          _ = _ := by ring
      have h6 : 1 / 2 ^ 51 * L ≤ 2 * L * ε := by
        rw [show 2 * L * ε = 2 * ε * L by ring]
        exact mul_le_mul_of_nonneg_right (by norm_num at hlo ⊢; linarith) hn
      have h7 : (1 : ℝ) / 2 ^ 130 ≤ 1 / 2 ^ 16 * ε := by
        calc (1 : ℝ) / 2 ^ 130 ≤ 1 / 2 ^ 16 * (1 / 2 ^ 52) := by norm_num
          _ ≤ _ := mul_le_mul_of_nonneg_left hlo (by norm_num)
      linarith
  refine ⟨?_, s, hs, ?_⟩
  · have e1 : V3.norm a = B64.round (.fin (Real.sqrt s)) := by rw [V3.norm, hs, sqrt_fin hsneg]
    rw [e1]
    have hA0 : 0 ≤ A := (V3.norm_nonneg X).trans hA
    have hLA : L ≤ A + 7 / 4 * (α / 2 ^ 40) := by linarith
    refine Close.round hε (α := 2 * L + 1 / 2 ^ 16 + 7 / 4 * α) (C := A) ?_ ?_ (by positivity) ?_ ?_
    · calc |Real.sqrt s - V3.norm X| ≤ |Real.sqrt s - L| + |L - V3.norm X| := abs_sub_le _ _ _
        _ ≤ _ := by linarith
    · rw [abs_of_nonneg (V3.norm_nonneg X)]; exact hA
    · norm_num at hA' hα' hn100 ⊢; linarith
    · refine le_trans ?_ h
      norm_num at hLA ⊢
      linarith
  · intro h60
    have hL60 : 1 / 2 ^ 60 ≤ L := by
      have : 0 ≤ α * ε := by positivity
      linarith
    have : (1 / 2 ^ 60 : ℝ) * (1 / 2 ^ 60) ≤ L * L := mul_le_mul hL60 hL60 (by norm_num) hn
    norm_num at this hs'
    linarith [hs'.1]

/-- Normalising a vector that is not too short. -/
theorem normalized (hε : Fine ε) (ha : Close3 (α * ε) a X) {ℓ : ℝ} (hℓ : V3.norm X = ℓ) (h0 : 1 / 2 ^ 20 ≤ ℓ) (h1 : ℓ ≤ 2 ^ 20)
    (hα : 0 ≤ α) (hαℓ : α / 2 ^ 40 ≤ ℓ / 64) (h : 4 + 7 / 2 * (α / ℓ) + 1 / 2 ^ 9 / ℓ ≤ γ) :
    Close3 (γ * ε) (V3.normalized a) (V3.sdiv X ℓ) := by
  have hp := hε.pos
  have hℓ0 : 0 < ℓ := lt_of_lt_of_le (by norm_num) h0
  have hα50 : α ≤ 2 ^ 60 := by norm_num at hαℓ h1 ⊢; linarith
  obtain ⟨hn, s, hs, hpos⟩ := ha.norm' hε hα hα50 hℓ.le (h1.trans (by norm_num)) le_rfl
  have hαε' : α * ε ≤ α / 2 ^ 40 := by
    rw [div_eq_mul_one_div]; exact mul_le_mul_of_nonneg_left hε.hi hα
  have hs0 : 0 < s := hpos (by rw [hℓ]; norm_num at h0 ⊢; linarith)
  have hnorm : V3.normalized a = V3.sdiv a (V3.norm a) := by
    rw [V3.normalized, hs, B64.zero_eq, lt_fin, if_pos (by simpa using hs0), ← hs, V3.norm]
  rw [hnorm]
  rw [hℓ] at hn
  have hup := V3.abs_le_norm X
  rw [hℓ] at hup
  have hβ0 : 0 ≤ 3 * ℓ + 9 / 4 * α + 1 / 2 ^ 10 := by positivity
  have hβℓ : (3 * ℓ + 9 / 4 * α + 1 / 2 ^ 10) / 2 ^ 40 ≤ ℓ / 16 := by
    norm_num at hαℓ h0 ⊢; linarith
  obtain ⟨q, hq⟩ : ∃ q, q = α / ℓ := ⟨_, rfl⟩
  obtain ⟨p, hpd⟩ : ∃ p, p = 1 / 2 ^ 9 / ℓ := ⟨_, rfl⟩
  have hq0 : 0 ≤ q := by rw [hq]; positivity
  have hp0 : 0 ≤ p := by rw [hpd]; positivity
  have hq1 : q ≤ 2 ^ 40 := by
    rw [hq, div_le_iff₀ hℓ0]; norm_num at hαℓ ⊢; linarith
  have hp1 : p ≤ 2 ^ 20 := by
    rw [hpd, div_le_iff₀ hℓ0]; norm_num at h0 ⊢; linarith
  rw [← hq, ← hpd] at h
  have hδ : 16 / 15 * (α / ℓ + ℓ * (3 * ℓ + 9 / 4 * α + 1 / 2 ^ 10) / (ℓ * ℓ)) = 16 / 15 * (3 + 13 / 4 * q + p / 2) := by
    rw [hq, hpd]; field_simp; ring
  have key : ∀ {x : B64} {u : ℝ}, Close (α * ε) x u → |u| ≤ ℓ → Close (γ * ε) (x /. V3.norm a) (u / ℓ) := by
    intro x u hx hu
    refine hx.div hε hn hu (D := ℓ) (le_abs_self ℓ) hα hβ0 hℓ0 hβℓ hδ.le ?_ ?_
    · rw [div_self hℓ0.ne']; norm_num at hq1 hp1 ⊢; linarith
    · rw [div_self hℓ0.ne']; refine le_trans ?_ h; norm_num; linarith
  exact ⟨key ha.x hup.x, key ha.y hup.y, key ha.z hup.z⟩

end Spec.Close3

end Enve
