import Verif.Spec.Cut
import Verif.Lemmas.Rounding

/-! # The line where the plane of a rib cuts the ground -/

namespace Enve

open Scalar Spec

namespace Cut

/-- A vector in terms of two unit vectors and their vector product. -/
theorem basis {n N : V3 ℝ} (hn : n.x ^ 2 + n.y ^ 2 + n.z ^ 2 = 1) (hN : N.x ^ 2 + N.y ^ 2 + N.z ^ 2 = 1) (c : V3 ℝ) :
    V3.smul (1 - dot3 n N ^ 2) c = V3.add (V3.add (V3.smul (dot3 c n - dot3 n N * dot3 c N) n)
      (V3.smul (dot3 c N - dot3 n N * dot3 c n) N)) (V3.smul (dot3 c (V3.cross n N)) (V3.cross n N)) := by
  have gen : ∀ a b : ℝ, a = n.x ^ 2 + n.y ^ 2 + n.z ^ 2 → b = N.x ^ 2 + N.y ^ 2 + N.z ^ 2 →
      V3.smul (a * b - dot3 n N ^ 2) c = V3.add (V3.add (V3.smul (dot3 c n * b - dot3 n N * dot3 c N) n)
      (V3.smul (dot3 c N * a - dot3 n N * dot3 c n) N)) (V3.smul (dot3 c (V3.cross n N)) (V3.cross n N)) := by
    rintro a b rfl rfl
    simp only [V3.real_smul, V3.real_add, V3.real_cross, dot3]
    ext <;> dsimp only <;> ring
  have := gen 1 1 hn.symm hN.symm
  simpa only [mul_one, one_mul] using this

/-- The squared length of a combination of two unit vectors. -/
theorem comb_sq {n N : V3 ℝ} (hn : n.x ^ 2 + n.y ^ 2 + n.z ^ 2 = 1) (hN : N.x ^ 2 + N.y ^ 2 + N.z ^ 2 = 1) (a b : ℝ) :
    V3.norm (V3.add (V3.smul a n) (V3.smul b N)) ^ 2 = a ^ 2 + b ^ 2 + 2 * dot3 n N * (a * b) := by
  rw [V3.norm_sq]
  simp only [V3.real_smul, V3.real_add, dot3]
  linear_combination a ^ 2 * hn + b ^ 2 * hN

theorem cross_sq {n N : V3 ℝ} (hn : n.x ^ 2 + n.y ^ 2 + n.z ^ 2 = 1) (hN : N.x ^ 2 + N.y ^ 2 + N.z ^ 2 = 1) :
    V3.dot (V3.cross n N) (V3.cross n N) = 1 - dot3 n N ^ 2 := by
  simp only [V3.real_dot, V3.real_cross, dot3]
  linear_combination (N.x ^ 2 + N.y ^ 2 + N.z ^ 2) * hn + hN

/-- The point of the line that `Intersection(plane, plane, line)` takes as its origin. -/
noncomputable def base (n N o c : V3 ℝ) : V3 ℝ :=
  V3.add (V3.smul ((V3.dot o n - V3.dot n N * V3.dot c N) * (1 / (1 - V3.dot n N * V3.dot n N))) n)
    (V3.smul ((V3.dot c N - V3.dot n N * V3.dot o n) * (1 / (1 - V3.dot n N * V3.dot n N))) N)

/-- The point of the line nearest to `c`. -/
noncomputable def foot (n N o c : V3 ℝ) : V3 ℝ :=
  V3.add c (V3.smul (V3.dot n (V3.sub o c) / (1 - dot3 n N ^ 2)) (V3.sub n (V3.smul (dot3 n N) N)))

theorem foot_eq {y : ℝ} {P : Affine ℝ} {o n : V3 ℝ} : foot n P.linear.c1 o (hub y P) = nearCut y P o n := by
  simp only [foot, nearCut, V3.real_add, V3.real_smul, V3.real_sub, V3.real_dot, dot3]

variable {n N o c : V3 ℝ}

theorem dot_eq (a b : V3 ℝ) : V3.dot a b = dot3 a b := V3.real_dot a b

theorem base_dir (hk : 1 - dot3 n N ^ 2 ≠ 0) : dot3 (base n N o c) (V3.cross n N) = 0 := by
  simp only [base, V3.real_add, V3.real_smul, V3.real_cross, dot3]
  ring

/-- From the origin of the line to the nearest point. -/
theorem base_foot (hn : n.x ^ 2 + n.y ^ 2 + n.z ^ 2 = 1) (hN : N.x ^ 2 + N.y ^ 2 + N.z ^ 2 = 1) (hk : 1 - dot3 n N ^ 2 ≠ 0) :
    V3.sub (base n N o c) (V3.smul (V3.dot (V3.sub (base n N o c) c) (V3.cross n N) * (1 / (1 - dot3 n N ^ 2))) (V3.cross n N)) =
      foot n N o c := by
  have ha : V3.dot (V3.sub (base n N o c) c) (V3.cross n N) = -dot3 c (V3.cross n N) := by
    have := base_dir (o := o) (c := c) hk
    simp only [V3.real_dot, V3.real_sub, dot3] at this ⊢
    linear_combination this
  rw [ha]
  have hb := basis hn hN c
  have h1 : ∀ v : V3 ℝ, V3.smul (1 - dot3 n N ^ 2) v = V3.smul (1 - dot3 n N ^ 2) (foot n N o c) → v = foot n N o c := by
    intro v h
    simp only [V3.real_smul] at h
    rw [V3.mk.injEq] at h
    exact V3.ext (mul_left_cancel₀ hk h.1) (mul_left_cancel₀ hk h.2.1) (mul_left_cancel₀ hk h.2.2)
  apply h1
  have e1 : V3.smul (1 - dot3 n N ^ 2) (foot n N o c) = V3.add (V3.smul (1 - dot3 n N ^ 2) c)
      (V3.smul (dot3 n (V3.sub o c)) (V3.sub n (V3.smul (dot3 n N) N))) := by
    simp only [foot, dot_eq, V3.real_add, V3.real_smul]
    ext <;> dsimp only <;> field_simp
  rw [e1, hb]
  have e2 : V3.smul (1 - dot3 n N ^ 2) (V3.sub (base n N o c)
      (V3.smul (-dot3 c (V3.cross n N) * (1 / (1 - dot3 n N ^ 2))) (V3.cross n N))) =
      V3.add (V3.add (V3.smul (dot3 o n - dot3 n N * dot3 c N) n) (V3.smul (dot3 c N - dot3 n N * dot3 o n) N))
        (V3.smul (dot3 c (V3.cross n N)) (V3.cross n N)) := by
    simp only [base, dot_eq, V3.real_add, V3.real_smul, V3.real_sub, ← pow_two]
    ext <;> dsimp only <;> field_simp <;> ring
  rw [e2]
  have e3 : dot3 n (V3.sub o c) = dot3 o n - dot3 c n := by simp only [dot3, V3.real_sub]; ring
  rw [e3]
  simp only [V3.real_add, V3.real_smul, V3.real_sub]
  ext <;> dsimp only <;> ring

theorem foot_perp (hn : n.x ^ 2 + n.y ^ 2 + n.z ^ 2 = 1) (hN : N.x ^ 2 + N.y ^ 2 + N.z ^ 2 = 1) :
    dot3 (V3.sub (foot n N o c) c) (V3.cross n N) = 0 := by
  simp only [foot, V3.real_add, V3.real_smul, V3.real_sub, V3.real_cross, dot3]
  ring

/-- The discriminant of the line and the circle. -/
theorem disc_eq (hn : n.x ^ 2 + n.y ^ 2 + n.z ^ 2 = 1) (hN : N.x ^ 2 + N.y ^ 2 + N.z ^ 2 = 1) (hk : 1 - dot3 n N ^ 2 ≠ 0) (R : ℝ) :
    V3.dot (V3.sub (base n N o c) c) (V3.cross n N) * V3.dot (V3.sub (base n N o c) c) (V3.cross n N) -
      (V3.dot (V3.sub (base n N o c) c) (V3.sub (base n N o c) c) - R * R) * V3.dot (V3.cross n N) (V3.cross n N) =
    (1 - dot3 n N ^ 2) * (R ^ 2 - V3.norm (V3.sub (foot n N o c) c) ^ 2) := by
  have h1 := base_foot (o := o) (c := c) hn hN hk
  have h2 := foot_perp (o := o) (c := c) hn hN
  have h3 := cross_sq hn hN
  rw [h3]
  rw [dot_eq] at h3
  rw [V3.norm_sq]
  simp only [dot_eq] at h1 ⊢
  generalize hB : base n N o c = B at *
  generalize hF : foot n N o c = F at *
  generalize hD : V3.cross n N = D at *
  generalize 1 - dot3 n N ^ 2 = k at *
  generalize ha : dot3 (V3.sub B c) D = a at *
  subst h1
  simp only [dot3, V3.real_sub, V3.real_smul] at h2 h3 ha ⊢
  field_simp at h2 ⊢
  linear_combination (-2 * k * a) * ha + a ^ 2 * h3

theorem foot_sub_sq (hn : n.x ^ 2 + n.y ^ 2 + n.z ^ 2 = 1) (hN : N.x ^ 2 + N.y ^ 2 + N.z ^ 2 = 1) :
    V3.norm (V3.sub n (V3.smul (dot3 n N) N)) ^ 2 = 1 - dot3 n N ^ 2 := by
  rw [V3.norm_sq]
  simp only [V3.real_sub, V3.real_smul]
  have : dot3 n N = n.x * N.x + n.y * N.y + n.z * N.z := rfl
  linear_combination hn + dot3 n N ^ 2 * hN + 2 * dot3 n N * this

theorem cross_foot : V3.cross N (V3.sub c (foot n N o c)) = V3.smul (V3.dot n (V3.sub o c) / (1 - dot3 n N ^ 2)) (V3.cross n N) := by
  simp only [foot, V3.real_add, V3.real_smul, V3.real_sub, V3.real_cross]
  ext <;> dsimp only <;> ring

theorem base_norm (hn : n.x ^ 2 + n.y ^ 2 + n.z ^ 2 = 1) (hN : N.x ^ 2 + N.y ^ 2 + N.z ^ 2 = 1) (hs : |dot3 n N| ≤ 3 / 5)
    {A : ℝ} (ho : |dot3 o n| ≤ A) (hc : |dot3 c N| ≤ A) : V3.norm (base n N o c) ≤ 112 / 50 * A + A / 200 := by
  have hA : 0 ≤ A := (abs_nonneg _).trans ho
  apply abs_le_of_sq_le_sq' _ (by linarith) |>.2
  rw [base, comb_sq hn hN]
  simp only [dot_eq]
  generalize dot3 n N = s at *
  generalize dot3 o n = d at *
  generalize dot3 c N = e at *
  have hs2 : s ^ 2 ≤ 9 / 25 := by
    have := abs_le.1 hs; nlinarith
  have hk : 0 < 1 - s * s := by nlinarith
  have e1 : ((d - s * e) * (1 / (1 - s * s))) ^ 2 + ((e - s * d) * (1 / (1 - s * s))) ^ 2 +
      2 * s * ((d - s * e) * (1 / (1 - s * s)) * ((e - s * d) * (1 / (1 - s * s)))) =
      (d ^ 2 + e ^ 2 - 2 * s * (d * e)) / (1 - s * s) := by
    have hi : 1 / (1 - s * s) * (1 - s * s) = 1 := one_div_mul_cancel hk.ne'
    rw [div_eq_mul_one_div (d ^ 2 + e ^ 2 - 2 * s * (d * e))]
    generalize 1 / (1 - s * s) = i at hi ⊢
    linear_combination (d ^ 2 + e ^ 2 - 2 * s * (d * e)) * i * hi
  rw [e1, div_le_iff₀ hk]
  have hd2 : d ^ 2 ≤ A ^ 2 := by have := abs_le.1 ho; nlinarith
  have he2 : e ^ 2 ≤ A ^ 2 := by have := abs_le.1 hc; nlinarith
  have hde : |s * (d * e)| ≤ 3 / 5 * A ^ 2 := by
    rw [abs_mul, abs_mul]
    refine (mul_le_mul hs (mul_le_mul ho hc (abs_nonneg _) hA) (by positivity) (by norm_num)).trans (by linarith [pow_two A])
  have := (abs_le.1 hde).1
  nlinarith
end Cut

end Enve
