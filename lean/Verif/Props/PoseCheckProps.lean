import Verif.Props.ShellProps

/-! # C07: what the check of a pose accepts and rejects -/

namespace Enve
open Scalar Spec

/-- The signed volume of the box spanned by the images of the three unit vectors, written out in coordinates. -/
def Spec.signedVolume (p : Affine ℝ) : ℝ :=
  p.linear.c0.x * (p.linear.c1.y * p.linear.c2.z - p.linear.c1.z * p.linear.c2.y) -
  p.linear.c1.x * (p.linear.c0.y * p.linear.c2.z - p.linear.c0.z * p.linear.c2.y) +
  p.linear.c2.x * (p.linear.c0.y * p.linear.c1.z - p.linear.c0.z * p.linear.c1.y)

/-- A mirrored pose: the columns are orthonormal, but left-handed. -/
def Spec.IsMirrored (p : Affine ℝ) : Prop :=
  IsRigid ⟨⟨⟨-p.linear.c0.x, -p.linear.c0.y, -p.linear.c0.z⟩, p.linear.c1, p.linear.c2⟩, p.trans⟩

/-- **C07, what the check does (partial).**  `checkTransformation` accepts a pose exactly if the signed volume of the image of the unit box
is nearer to one than the tolerance: it is no test of rigidity.  With a tolerance that is not positive it rejects every pose; it accepts
every rigid pose otherwise; it rejects the mirrored poses for tolerances up to two; of a rigid pose scaled by `k` it accepts those with
`|k³ - 1|` less than the tolerance; the translation does not matter. -/
theorem C07_check_partial (p : Affine ℝ) (tol : ℝ) :
    (Shell.checkTransformation p tol = true ↔ |signedVolume p - 1| < tol) ∧
    (tol ≤ 0 → Shell.checkTransformation p tol = false) ∧
    (IsRigid p → (Shell.checkTransformation p tol = true ↔ 0 < tol)) ∧
    (IsMirrored p → tol ≤ 2 → Shell.checkTransformation p tol = false) ∧
    (IsRigid p → ∀ k : ℝ, Shell.checkTransformation ⟨⟨⟨k * p.linear.c0.x, k * p.linear.c0.y, k * p.linear.c0.z⟩,
      ⟨k * p.linear.c1.x, k * p.linear.c1.y, k * p.linear.c1.z⟩, ⟨k * p.linear.c2.x, k * p.linear.c2.y, k * p.linear.c2.z⟩⟩, p.trans⟩ tol = true ↔
      |k ^ 3 - 1| < tol) ∧
    ∀ t, Shell.checkTransformation ⟨p.linear, t⟩ tol = Shell.checkTransformation p tol := by
  have key : ∀ q : Affine ℝ, (Shell.checkTransformation q tol = true ↔ |signedVolume q - 1| < tol) := by
    intro q
    have : M3.det q.linear = signedVolume q := by
      rw [M3.det, V3.real_cross, V3.real_dot, signedVolume]; ring
    simp [Shell.checkTransformation, this]
  have vol : ∀ q : Affine ℝ, IsRigid q → signedVolume q = 1 := by
    intro q hq
    rw [signedVolume]; linear_combination hq.det
  have rej : ∀ q : Affine ℝ, tol ≤ |signedVolume q - 1| → Shell.checkTransformation q tol = false := by
    intro q hq
    rw [← Bool.not_eq_true, key]; exact not_lt.2 hq
  refine ⟨key p, fun h => rej p (h.trans (abs_nonneg _)), fun hp => ?_, fun hm ht => rej p ?_, fun hp k => ?_, fun t => rfl⟩
  · rw [key, vol p hp, sub_self, abs_zero]
  · have h := vol _ hm
    have e : signedVolume p = -1 := by
      simp only [signedVolume] at h ⊢
      linarith
    rw [e]; norm_num; exact ht
  · rw [key]
    have e : signedVolume (⟨⟨⟨k * p.linear.c0.x, k * p.linear.c0.y, k * p.linear.c0.z⟩,
      ⟨k * p.linear.c1.x, k * p.linear.c1.y, k * p.linear.c1.z⟩, ⟨k * p.linear.c2.x, k * p.linear.c2.y, k * p.linear.c2.z⟩⟩, p.trans⟩ : Affine ℝ) =
        k ^ 3 * signedVolume p := by
      simp only [signedVolume]; ring
    rw [e, vol p hp, mul_one]

/-- The hypotheses are met: the identity is rigid and the reflection in the plane `x = 0` is mirrored. -/
example : IsRigid (⟨⟨⟨1, 0, 0⟩, ⟨0, 1, 0⟩, ⟨0, 0, 1⟩⟩, ⟨3, 4, 5⟩⟩ : Affine ℝ) ∧
    IsMirrored (⟨⟨⟨-1, 0, 0⟩, ⟨0, 1, 0⟩, ⟨0, 0, 1⟩⟩, ⟨3, 4, 5⟩⟩ : Affine ℝ) :=
  ⟨⟨by norm_num, by norm_num, by norm_num, by norm_num, by norm_num, by norm_num, by norm_num⟩,
    ⟨by norm_num, by norm_num, by norm_num, by norm_num, by norm_num, by norm_num, by norm_num⟩⟩

end Enve
