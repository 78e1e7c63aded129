import Verif.Props.SameSetProps
import Verif.Props.GroundProps

/-! # C127: what `isApprox` of shapes, ribs, ground triangles and flat grounds compares -/

namespace Enve
open Scalar Spec

theorem Scalar.isApprox_iff (a b tol : ℝ) : Scalar.isApprox a b tol = true ↔ |a - b| < tol := by
  simp [Scalar.isApprox]

theorem Scalar.ofInt_real (i : Int) : (Scalar.ofInt i : ℝ) = i := by
  cases i <;> simp [Scalar.ofInt, Int.negSucc_eq]

/-- **C127, tyre profiles**: all five parameters are compared, absolutely. -/
theorem C127_shape (s t : Shape ℝ) (tol : ℝ) : s.isApprox t tol = true ↔
    |s.rx - t.rx| < tol ∧ |s.mx - t.mx| < tol ∧ |s.ry - t.ry| < tol ∧ |s.my - t.my| < tol ∧ |s.ly - t.ly| < tol := by
  simp only [Shape.isApprox, Bool.and_eq_true, Scalar.isApprox_iff, and_assoc]

/-- **C127, ribs**: the disk, the position, the width, the angle, and the number of the rib, which counts as equal when the
tolerance is more than the difference. -/
theorem C127_rib (r s : Rib ℝ) (tol : ℝ) : r.isApprox s tol = true ↔
    (|r.disk.radius - s.disk.radius| < tol ∧ RelClose tol r.disk.center s.disk.center ∧
      RelClose tol r.disk.normal s.disk.normal) ∧
    |(r.id : ℝ) - s.id| < tol ∧ |r.y - s.y| < tol ∧ |r.width - s.width| < tol ∧ |r.angle - s.angle| < tol := by
  simp only [Rib.isApprox, Bool.and_eq_true, (C116_entities tol).2.2.2.2.2.1, Scalar.isApprox_iff, and_assoc,
    Scalar.ofInt_real]

/-- **C127, grounds, partial**: with the tolerance `2⁻²⁶` that is the default, vertices, planes and friction are compared
with it. -/
theorem C127_ground_partial :
    (∀ t u : TriangleGround ℝ, t.isApprox u (2⁻¹ ^ 26) = true ↔
      (RelClose (2⁻¹ ^ 26) t.tri.v0 u.tri.v0 ∧ RelClose (2⁻¹ ^ 26) t.tri.v1 u.tri.v1 ∧ RelClose (2⁻¹ ^ 26) t.tri.v2 u.tri.v2) ∧
      |t.friction - u.friction| < 2⁻¹ ^ 26) ∧
    (∀ f g : Flat ℝ, f.isApprox g (2⁻¹ ^ 26) = true ↔
      (RelClose (2⁻¹ ^ 26) f.plane.origin g.plane.origin ∧ RelClose (2⁻¹ ^ 26) f.plane.normal g.plane.normal) ∧
      |f.friction - g.friction| < 2⁻¹ ^ 26) := by
  have e : (Scalar.eps : ℝ) = 2⁻¹ ^ 26 := by rw [real_eps]
  constructor
  · intro t u
    simp only [TriangleGround.isApprox, Bool.and_eq_true, (C116_entities _).2.2.2.2.1, Scalar.isApprox_iff, e]
  · intro f g
    simp only [Flat.isApprox, Bool.and_eq_true, (C116_entities _).2.2.1, Scalar.isApprox_iff, e]

/-- **C127 is false of grounds**: with any other tolerance, geometry and friction are compared with different tolerances.
However generous the tolerance, two ground triangles, and two flat grounds, that differ by less than it (relatively and
absolutely) can be told apart; and however fine it is, two that differ by more can be called approximately equal. -/
theorem C127_tolerance_refuted {tol : ℝ} (h0 : 0 < tol) :
    (2⁻¹ ^ 26 < tol → (∃ t u : TriangleGround ℝ, RelClose tol t.tri.v0 u.tri.v0 ∧ t.tri.v1 = u.tri.v1 ∧ t.tri.v2 = u.tri.v2 ∧
      dist3 t.tri.v0 u.tri.v0 ≤ tol ∧ t.friction = u.friction ∧ t.isApprox u tol = false) ∧
      (∃ f g : Flat ℝ, RelClose tol f.plane.origin g.plane.origin ∧ dist3 f.plane.origin g.plane.origin ≤ tol ∧
        f.plane.normal = g.plane.normal ∧ f.friction = g.friction ∧ f.isApprox g tol = false)) ∧
    (tol < 2⁻¹ ^ 26 → (∃ t u : TriangleGround ℝ, ¬ RelClose tol t.tri.v0 u.tri.v0 ∧ t.isApprox u tol = true) ∧
      (∃ f g : Flat ℝ, ¬ RelClose tol f.plane.origin g.plane.origin ∧ f.isApprox g tol = true)) := by
  have e : (Scalar.eps : ℝ) = 2⁻¹ ^ 26 := by rw [real_eps]
  have hx (x : ℝ) : √(x ^ 2) = |x| := Real.sqrt_sq_eq_abs x
  have k (x t : ℝ) (hx0 : 0 < x) (ht : 0 < t) : RelClose t ⟨1, 0, 0⟩ ⟨1 + x, 0, 0⟩ ↔ x ≤ t := by
    rw [RelClose]
    simp only [dist3, length3, sub_self, ne_eq, OfNat.ofNat_ne_zero, not_false_eq_true, zero_pow, add_zero, hx]
    rw [show (1 : ℝ) - (1 + x) = -x by ring, abs_neg, abs_of_pos hx0, abs_one, abs_of_pos (show (0 : ℝ) < 1 + x by linarith),
      min_eq_left (by linarith), abs_of_pos ht, mul_one]
  have d (x : ℝ) (hx0 : 0 < x) : dist3 ⟨1, 0, 0⟩ ⟨1 + x, 0, 0⟩ = x := by
    simp only [dist3, sub_self, ne_eq, OfNat.ofNat_ne_zero, not_false_eq_true, zero_pow, add_zero, hx]
    rw [show (1 : ℝ) - (1 + x) = -x by ring, abs_neg, abs_of_pos hx0]
  have he : (0 : ℝ) < 2⁻¹ ^ 26 := by positivity
  have self (t : ℝ) (a : V3 ℝ) (ht : 0 ≤ t) : RelClose t a a := (C116_laws a a ht le_rfl).1
  refine ⟨fun ht => ⟨⟨⟨⟨⟨1, 0, 0⟩, ⟨1, 1, 0⟩, ⟨0, 1, 0⟩⟩, 0, 1, ⟨0, 0, 1⟩, Box.default⟩,
      ⟨⟨⟨1 + tol, 0, 0⟩, ⟨1, 1, 0⟩, ⟨0, 1, 0⟩⟩, 0, 1, ⟨0, 0, 1⟩, Box.default⟩, (k tol tol h0 h0).2 le_rfl, rfl, rfl,
      (d tol h0).le, rfl, ?_⟩, ⟨⟨⟨1, 0, 0⟩, ⟨0, 0, 1⟩⟩, 1⟩, ⟨⟨⟨1 + tol, 0, 0⟩, ⟨0, 0, 1⟩⟩, 1⟩, (k tol tol h0 h0).2 le_rfl,
      (d tol h0).le, rfl, rfl, ?_⟩,
    fun ht => ⟨⟨⟨⟨⟨1, 0, 0⟩, ⟨1, 1, 0⟩, ⟨0, 1, 0⟩⟩, 0, 1, ⟨0, 0, 1⟩, Box.default⟩,
      ⟨⟨⟨1 + 2⁻¹ ^ 26, 0, 0⟩, ⟨1, 1, 0⟩, ⟨0, 1, 0⟩⟩, 0, 1, ⟨0, 0, 1⟩, Box.default⟩, ?_, ?_⟩,
      ⟨⟨⟨1, 0, 0⟩, ⟨0, 0, 1⟩⟩, 1⟩, ⟨⟨⟨1 + 2⁻¹ ^ 26, 0, 0⟩, ⟨0, 0, 1⟩⟩, 1⟩, ?_, ?_⟩⟩
  · rw [← Bool.not_eq_true, TriangleGround.isApprox, Bool.and_eq_true, (C116_entities _).2.2.2.2.1, e]
    rintro ⟨⟨h, -⟩, -⟩
    exact absurd ((k tol _ h0 he).1 h) (not_le.2 ht)
  · rw [← Bool.not_eq_true, Flat.isApprox, Bool.and_eq_true, (C116_entities _).2.2.1, e]
    rintro ⟨⟨h, -⟩, -⟩
    exact absurd ((k tol _ h0 he).1 h) (not_le.2 ht)
  · exact fun h => absurd ((k _ tol he h0).1 h) (not_le.2 ht)
  · rw [TriangleGround.isApprox, Bool.and_eq_true, (C116_entities _).2.2.2.2.1, e, Scalar.isApprox_iff]
    exact ⟨⟨(k _ _ he he).2 le_rfl, self _ _ he.le, self _ _ he.le⟩, by simpa using h0⟩
  · exact fun h => absurd ((k _ tol he h0).1 h) (not_le.2 ht)
  · rw [Flat.isApprox, Bool.and_eq_true, (C116_entities _).2.2.1, e, Scalar.isApprox_iff]
    exact ⟨⟨(k _ _ he he).2 le_rfl, self _ _ he.le⟩, by simpa using h0⟩

/-- **C127 is false of zero tolerance**: no shape, rib or ground is approximately equal to itself. -/
theorem C127_self_refuted (s : Shape ℝ) (r : Rib ℝ) (t : TriangleGround ℝ) (f : Flat ℝ) :
    s.isApprox s 0 = false ∧ r.isApprox r 0 = false ∧ t.isApprox t 0 = false ∧ f.isApprox f 0 = false := by
  have h (a : ℝ) : Scalar.isApprox a a 0 = false := by simp [Scalar.isApprox]
  simp [Shape.isApprox, Rib.isApprox, TriangleGround.isApprox, Flat.isApprox, h]

/-- **C127, the laws it obeys**: reflexive for positive tolerances, and symmetric. -/
theorem C127_laws {tol : ℝ} (h0 : 0 < tol) :
    (∀ s t : Shape ℝ, s.isApprox s tol = true ∧ s.isApprox t tol = t.isApprox s tol) ∧
    (∀ r s : Rib ℝ, r.isApprox r tol = true ∧ r.isApprox s tol = s.isApprox r tol) ∧
    (∀ t u : TriangleGround ℝ, t.isApprox t tol = true ∧ t.isApprox u tol = u.isApprox t tol) ∧
    (∀ f g : Flat ℝ, f.isApprox f tol = true ∧ f.isApprox g tol = g.isApprox f tol) := by
  have ha (a : ℝ) : Scalar.isApprox a a tol = true := by rw [Scalar.isApprox_iff]; simpa using h0
  have hs (a b : ℝ) : Scalar.isApprox a b tol = Scalar.isApprox b a tol := by
    rw [Bool.eq_iff_iff, Scalar.isApprox_iff, Scalar.isApprox_iff, abs_sub_comm]
  have hv (a b : V3 ℝ) (t : ℝ) (ht : 0 ≤ t) : V3.isApprox a b t = V3.isApprox b a t := by
    rw [Bool.eq_iff_iff, C116_vector, C116_vector]
    exact ⟨(C116_laws a b ht le_rfl).2.1, (C116_laws b a ht le_rfl).2.1⟩
  have he : (0 : ℝ) ≤ Scalar.eps := real_eps_pos.le
  refine ⟨fun s t => ⟨?_, ?_⟩, fun r s => ⟨?_, ?_⟩, fun t u => ⟨?_, ?_⟩, fun f g => ⟨?_, ?_⟩⟩
  · simp [Shape.isApprox, ha]
  · simp only [Shape.isApprox, hs s.rx, hs s.mx, hs s.ry, hs s.my, hs s.ly]
  · simp [Rib.isApprox, Disk.isApprox, ha, V3.isApprox_self]
  · simp only [Rib.isApprox, Disk.isApprox, hs r.disk.radius, hs r.y, hs r.width, hs r.angle, hs (Scalar.ofInt r.id),
      hv r.disk.plane.origin _ _ h0.le, hv r.disk.plane.normal _ _ h0.le]
  · simp [TriangleGround.isApprox, Triangle.isApprox, ha, V3.isApprox_self]
  · simp only [TriangleGround.isApprox, Triangle.isApprox, hs t.friction, hv t.tri.v0 _ _ he, hv t.tri.v1 _ _ he,
      hv t.tri.v2 _ _ he]
  · simp [Flat.isApprox, Plane.isApprox, ha, V3.isApprox_self]
  · simp only [Flat.isApprox, Plane.isApprox, hs f.friction, hv f.plane.origin _ _ he, hv f.plane.normal _ _ he]

/-- Two tyres that differ in one exponent. -/
example : (⟨0.3, 2, 0.2, 4, 0.1⟩ : Shape ℝ).isApprox ⟨0.3, 2, 0.2, 4.5, 0.1⟩ 0.25 = false ∧
    (⟨0.3, 2, 0.2, 4, 0.1⟩ : Shape ℝ).isApprox ⟨0.3, 2, 0.2, 4.5, 0.1⟩ 0.75 = true := by
  rw [← Bool.not_eq_true, C127_shape, C127_shape]
  norm_num [abs_of_neg]

end Enve
