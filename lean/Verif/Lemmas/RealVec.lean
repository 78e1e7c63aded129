import Verif.Spec.Rigid
import Mathlib.LinearAlgebra.Matrix.Determinant.Basic
import Mathlib.LinearAlgebra.Matrix.NonsingularInverse
import Mathlib.Tactic.LinearCombination

/-! # Real vectors and rotations -/

namespace Enve
open Scalar Spec

namespace V3

/-- Squared length written with powers. -/
theorem sqNorm_pow (a : V3 ℝ) : sqNorm a = a.x ^ 2 + a.y ^ 2 + a.z ^ 2 := by
  rw [real_sqNorm]; ring

theorem sqNorm_nonneg (a : V3 ℝ) : 0 ≤ sqNorm a := by rw [sqNorm_pow]; positivity

theorem norm_eq (a : V3 ℝ) : norm a = length3 a := by
  rw [norm, real_sqrt, sqNorm_pow, length3]

theorem norm_nonneg (a : V3 ℝ) : 0 ≤ norm a := by rw [norm_eq]; exact Real.sqrt_nonneg _

theorem norm_sq (a : V3 ℝ) : norm a ^ 2 = a.x ^ 2 + a.y ^ 2 + a.z ^ 2 := by
  rw [norm_eq, length3, Real.sq_sqrt (by positivity)]

theorem norm_mul_self (a : V3 ℝ) : norm a * norm a = sqNorm a := by
  rw [norm, real_sqrt, Real.mul_self_sqrt (sqNorm_nonneg a)]

theorem sqNorm_eq_zero {a : V3 ℝ} : sqNorm a = 0 ↔ a = ⟨0, 0, 0⟩ := by
  rw [sqNorm_pow]
  constructor
  · intro h
    have h1 := sq_nonneg a.x; have h2 := sq_nonneg a.y; have h3 := sq_nonneg a.z
    ext
    · exact pow_eq_zero_iff (two_ne_zero) |>.1 (by linarith)
    · exact pow_eq_zero_iff (two_ne_zero) |>.1 (by linarith)
    · exact pow_eq_zero_iff (two_ne_zero) |>.1 (by linarith)
  · rintro rfl; norm_num

theorem sqNorm_pos {a : V3 ℝ} : 0 < sqNorm a ↔ a ≠ ⟨0, 0, 0⟩ := by
  rw [Ne, ← sqNorm_eq_zero]
  exact ⟨fun h => h.ne', fun h => lt_of_le_of_ne (sqNorm_nonneg a) (Ne.symm h)⟩

theorem norm_pos {a : V3 ℝ} : 0 < norm a ↔ a ≠ ⟨0, 0, 0⟩ := by
  rw [← sqNorm_pos, norm, real_sqrt, Real.sqrt_pos]

theorem norm_eq_one {a : V3 ℝ} : norm a = 1 ↔ a.x ^ 2 + a.y ^ 2 + a.z ^ 2 = 1 := by
  rw [norm_eq, length3, Real.sqrt_eq_one]

theorem norm_eq_zero {a : V3 ℝ} : norm a = 0 ↔ a = ⟨0, 0, 0⟩ := by
  constructor
  · intro h; by_contra hne; exact absurd (norm_pos.2 hne) (by rw [h]; exact lt_irrefl 0)
  · rintro rfl; simp [real_norm]

/-- Normalising a nonzero vector divides it by its length. -/
theorem normalized_of_ne {a : V3 ℝ} (h : a ≠ ⟨0, 0, 0⟩) :
    normalized a = ⟨a.x / norm a, a.y / norm a, a.z / norm a⟩ := by
  unfold normalized
  simp only [real_lt, real_zero, real_sqrt]
  rw [if_pos (by simpa using sqNorm_pos.2 h), real_sdiv]
  rfl

theorem normalized_zero {a : V3 ℝ} (h : a = ⟨0, 0, 0⟩) : normalized a = a := by
  unfold normalized
  simp only [real_lt, real_zero, real_sqrt]
  rw [if_neg]
  simpa using (sqNorm_eq_zero.2 h).le

theorem sq_normalized {a : V3 ℝ} (h : a ≠ ⟨0, 0, 0⟩) :
    (normalized a).x ^ 2 + (normalized a).y ^ 2 + (normalized a).z ^ 2 = 1 := by
  rw [normalized_of_ne h]
  have hn := norm_pos.2 h
  have hs := norm_sq a
  simp only [div_pow]
  rw [← add_div, ← add_div, ← hs, div_self (by positivity)]

theorem norm_normalized {a : V3 ℝ} (h : a ≠ ⟨0, 0, 0⟩) : norm (normalized a) = 1 :=
  norm_eq_one.2 (sq_normalized h)

/-- A unit vector is not changed by normalising. -/
theorem normalized_unit {a : V3 ℝ} (h : a.x ^ 2 + a.y ^ 2 + a.z ^ 2 = 1) : normalized a = a := by
  have hne : a ≠ ⟨0, 0, 0⟩ := by rintro rfl; norm_num at h
  rw [normalized_of_ne hne, norm_eq_one.2 h]
  simp

/-- Normalising commutes with positive factors. -/
theorem normalized_smul {a : V3 ℝ} {k : ℝ} (hk : 0 < k) :
    normalized ⟨k * a.x, k * a.y, k * a.z⟩ = normalized a := by
  by_cases h : a = ⟨0, 0, 0⟩
  · subst h; simp
  · have h' : (⟨k * a.x, k * a.y, k * a.z⟩ : V3 ℝ) ≠ ⟨0, 0, 0⟩ := by
      intro h0
      apply h
      rw [V3.mk.injEq] at h0
      ext
      · simpa [hk.ne'] using h0.1
      · simpa [hk.ne'] using h0.2.1
      · simpa [hk.ne'] using h0.2.2
    have e : norm ⟨k * a.x, k * a.y, k * a.z⟩ = k * norm a := by
      rw [norm_eq, norm_eq, length3, length3]
      rw [show (k * a.x) ^ 2 + (k * a.y) ^ 2 + (k * a.z) ^ 2 = k ^ 2 * (a.x ^ 2 + a.y ^ 2 + a.z ^ 2) by ring,
        Real.sqrt_mul (by positivity), Real.sqrt_sq hk.le]
    rw [normalized_of_ne h', normalized_of_ne h, e]
    simp only [mul_div_mul_left _ _ hk.ne']

theorem dot_eq (a b : V3 ℝ) : dot a b = dot3 a b := real_dot a b

theorem norm_sub (a b : V3 ℝ) : norm (sub a b) = dist3 a b := by
  rw [norm_eq, real_sub]; rfl

end V3

/-- Reduction of the vector operations on reals to coordinates. -/
macro "v3" : tactic => `(tactic| simp only [V3.real_add, V3.real_sub, V3.real_neg, V3.real_smul,
  V3.real_sdiv, V3.real_cross, V3.real_dot, M3.mulVec, M3.transpose, M3.mul, M3.id, V3.ex, V3.ey,
  V3.ez, V3.zeros, Affine.apply, real_add, real_sub, real_mul, real_div, real_neg, real_zero,
  real_one])

/-- The matrix of Mathlib with the same entries. -/
def M3.toMatrix (m : M3 ℝ) : Matrix (Fin 3) (Fin 3) ℝ :=
  !![m.c0.x, m.c1.x, m.c2.x; m.c0.y, m.c1.y, m.c2.y; m.c0.z, m.c1.z, m.c2.z]

namespace Spec.IsRotation
variable {m : M3 ℝ} (h : IsRotation m)
include h

theorem toMatrix_mul : m.toMatrix.transpose * m.toMatrix = 1 := by
  ext i j
  fin_cases i <;> fin_cases j <;>
    simp [M3.toMatrix, Matrix.mul_apply, Fin.sum_univ_three] <;>
    first
    | linear_combination h.unit0
    | linear_combination h.unit1
    | linear_combination h.unit2
    | linear_combination h.orth01
    | linear_combination h.orth02
    | linear_combination h.orth12

theorem toMatrix_mul' : m.toMatrix * m.toMatrix.transpose = 1 :=
  mul_eq_one_comm.1 h.toMatrix_mul

/-- The rows are orthonormal as well. -/
theorem rows :
    (m.c0.x ^ 2 + m.c1.x ^ 2 + m.c2.x ^ 2 = 1 ∧ m.c0.y ^ 2 + m.c1.y ^ 2 + m.c2.y ^ 2 = 1 ∧
      m.c0.z ^ 2 + m.c1.z ^ 2 + m.c2.z ^ 2 = 1) ∧
    m.c0.x * m.c0.y + m.c1.x * m.c1.y + m.c2.x * m.c2.y = 0 ∧
    m.c0.x * m.c0.z + m.c1.x * m.c1.z + m.c2.x * m.c2.z = 0 ∧
    m.c0.y * m.c0.z + m.c1.y * m.c1.z + m.c2.y * m.c2.z = 0 := by
  have e := h.toMatrix_mul'
  have e' : ∀ i j, (m.toMatrix * m.toMatrix.transpose) i j = (1 : Matrix (Fin 3) (Fin 3) ℝ) i j :=
    fun i j => by rw [e]
  have a00 := e' 0 0; have a11 := e' 1 1; have a22 := e' 2 2
  have a01 := e' 0 1; have a02 := e' 0 2; have a12 := e' 1 2
  simp [M3.toMatrix, Matrix.mul_apply, Fin.sum_univ_three] at a00 a11 a22 a01 a02 a12
  refine ⟨⟨?_, ?_, ?_⟩, ?_, ?_, ?_⟩ <;> linarith

/-- Rotations preserve scalar products. -/
theorem dot_mulVec (a b : V3 ℝ) : dot3 (M3.mulVec m a) (M3.mulVec m b) = dot3 a b := by
  simp only [dot3, M3.mulVec, real_add, real_mul]
  linear_combination a.x * b.x * h.unit0 + a.y * b.y * h.unit1 + a.z * b.z * h.unit2 +
    (a.x * b.y + a.y * b.x) * h.orth01 + (a.x * b.z + a.z * b.x) * h.orth02 +
    (a.y * b.z + a.z * b.y) * h.orth12

/-- Rotations preserve lengths. -/
theorem length_mulVec (a : V3 ℝ) : length3 (M3.mulVec m a) = length3 a := by
  have := h.dot_mulVec a a
  simp only [dot3] at this
  unfold length3
  congr 1
  linear_combination this

theorem norm_mulVec (a : V3 ℝ) : V3.norm (M3.mulVec m a) = V3.norm a := by
  rw [V3.norm_eq, V3.norm_eq, h.length_mulVec]

/-- The transpose is the inverse (left). -/
theorem transpose_mulVec (a : V3 ℝ) : M3.mulVec (M3.transpose m) (M3.mulVec m a) = a := by
  ext
  · v3; linear_combination a.x * h.unit0 + a.y * h.orth01 + a.z * h.orth02
  · v3; linear_combination a.x * h.orth01 + a.y * h.unit1 + a.z * h.orth12
  · v3; linear_combination a.x * h.orth02 + a.y * h.orth12 + a.z * h.unit2

/-- The transpose is the inverse (right). -/
theorem mulVec_transpose (a : V3 ℝ) : M3.mulVec m (M3.mulVec (M3.transpose m) a) = a := by
  obtain ⟨⟨r0, r1, r2⟩, r01, r02, r12⟩ := h.rows
  ext
  · v3; linear_combination a.x * r0 + a.y * r01 + a.z * r02
  · v3; linear_combination a.x * r01 + a.y * r1 + a.z * r12
  · v3; linear_combination a.x * r02 + a.y * r12 + a.z * r2

/-- The columns of a rotation are the cross products of each other. -/
theorem cross01 : V3.cross m.c0 m.c1 = m.c2 := by
  -- `c2` is determined by its scalar products with the three columns
  obtain ⟨⟨r0, r1, r2⟩, r01, r02, r12⟩ := h.rows
  have o0 : m.c0.x * (m.c0.y * m.c1.z - m.c0.z * m.c1.y) + m.c0.y * (m.c0.z * m.c1.x - m.c0.x * m.c1.z)
    + m.c0.z * (m.c0.x * m.c1.y - m.c0.y * m.c1.x) = 0 := by ring
  have o1 : m.c1.x * (m.c0.y * m.c1.z - m.c0.z * m.c1.y) + m.c1.y * (m.c0.z * m.c1.x - m.c0.x * m.c1.z)
    + m.c1.z * (m.c0.x * m.c1.y - m.c0.y * m.c1.x) = 0 := by ring
  have o2 : m.c2.x * (m.c0.y * m.c1.z - m.c0.z * m.c1.y) + m.c2.y * (m.c0.z * m.c1.x - m.c0.x * m.c1.z)
    + m.c2.z * (m.c0.x * m.c1.y - m.c0.y * m.c1.x) = 1 := by linear_combination h.det
  generalize hX : m.c0.y * m.c1.z - m.c0.z * m.c1.y = X at o0 o1 o2
  generalize hY : m.c0.z * m.c1.x - m.c0.x * m.c1.z = Y at o0 o1 o2
  generalize hZ : m.c0.x * m.c1.y - m.c0.y * m.c1.x = Z at o0 o1 o2
  rw [V3.real_cross]
  ext
  · show m.c0.y * m.c1.z - m.c0.z * m.c1.y = m.c2.x
    rw [hX]
    linear_combination m.c0.x * o0 + m.c1.x * o1 + m.c2.x * o2 - X * r0 - Y * r01 - Z * r02
  · show m.c0.z * m.c1.x - m.c0.x * m.c1.z = m.c2.y
    rw [hY]
    linear_combination m.c0.y * o0 + m.c1.y * o1 + m.c2.y * o2 - X * r01 - Y * r1 - Z * r12
  · show m.c0.x * m.c1.y - m.c0.y * m.c1.x = m.c2.z
    rw [hZ]
    linear_combination m.c0.z * o0 + m.c1.z * o1 + m.c2.z * o2 - X * r02 - Y * r12 - Z * r2

omit h in
/-- Cyclic shift of the columns. -/
theorem cycle (h : IsRotation m) : IsRotation ⟨m.c1, m.c2, m.c0⟩ :=
  ⟨h.unit1, h.unit2, h.unit0, h.orth12, by linear_combination h.orth01, by linear_combination h.orth02,
    by linear_combination h.det⟩

theorem cross12 : V3.cross m.c1 m.c2 = m.c0 := h.cycle.cross01
theorem cross20 : V3.cross m.c2 m.c0 = m.c1 := h.cycle.cycle.cross01

/-- Rotations commute with the cross product. -/
theorem mulVec_cross (a b : V3 ℝ) :
    M3.mulVec m (V3.cross a b) = V3.cross (M3.mulVec m a) (M3.mulVec m b) := by
  have h2 := h.cross01; have h0 := h.cross12; have h1 := h.cross20
  rw [V3.real_cross, V3.ext_iff] at h0 h1 h2
  dsimp only at h0 h1 h2
  obtain ⟨x0, y0, z0⟩ := h0
  obtain ⟨x1, y1, z1⟩ := h1
  obtain ⟨x2, y2, z2⟩ := h2
  ext
  · v3; rw [← x0, ← x1, ← x2]; ring
  · v3; rw [← y0, ← y1, ← y2]; ring
  · v3; rw [← z0, ← z1, ← z2]; ring

/-- The transpose of a rotation is a rotation. -/
theorem transpose : IsRotation (M3.transpose m) := by
  obtain ⟨⟨r0, r1, r2⟩, r01, r02, r12⟩ := h.rows
  exact ⟨r0, r1, r2, r01, r02, r12, by simp only [M3.transpose]; linear_combination h.det⟩

/-- The product of rotations is a rotation. -/
theorem mul {n : M3 ℝ} (hn : IsRotation n) : IsRotation (M3.mul m n) := by
  have hd : ∀ a b, dot3 (M3.mulVec m a) (M3.mulVec m b) = dot3 a b := h.dot_mulVec
  simp only [dot3] at hd
  refine ⟨?_, ?_, ?_, ?_, ?_, ?_, ?_⟩
  · have := hd n.c0 n.c0; simp only [M3.mul]; linear_combination this + hn.unit0
  · have := hd n.c1 n.c1; simp only [M3.mul]; linear_combination this + hn.unit1
  · have := hd n.c2 n.c2; simp only [M3.mul]; linear_combination this + hn.unit2
  · have := hd n.c0 n.c1; simp only [M3.mul]; linear_combination this + hn.orth01
  · have := hd n.c0 n.c2; simp only [M3.mul]; linear_combination this + hn.orth02
  · have := hd n.c1 n.c2; simp only [M3.mul]; linear_combination this + hn.orth12
  · simp only [M3.mul, M3.mulVec, real_add, real_mul]
    linear_combination (n.c0.x * (n.c1.y * n.c2.z - n.c1.z * n.c2.y) -
        n.c0.y * (n.c1.x * n.c2.z - n.c1.z * n.c2.x) +
        n.c0.z * (n.c1.x * n.c2.y - n.c1.y * n.c2.x)) * h.det + hn.det

end Spec.IsRotation

theorem Spec.isRotation_id : IsRotation (M3.id : M3 ℝ) := by
  constructor <;> simp [M3.id, V3.ex, V3.ey, V3.ez]

end Enve
