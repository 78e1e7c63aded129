import Verif.Lemmas.RealVec
import Verif.Model.Rib
import Verif.Model.Shape

/-! # Ground objects and copies: C25 (construction), C26, C48, C55 -/

namespace Enve
open Scalar Spec
variable {α : Type} [Scalar α]

/-! ## C25: friction is checked at construction -/

/-- C25, construction, in any arithmetic: a ground triangle is constructed exactly when
`friction >= 0` holds (which it does not for NaN), with exactly that friction. -/
theorem C25_triangle_friction (id : Int) (f : α) (p q r : V3 α) :
    ((∃ t, TriangleGround.make id f p q r = .ok t) ↔ (zero <=. f) = true) ∧
    ((∃ e, TriangleGround.make id f p q r = .throw e) ↔ (zero <=. f) = false) ∧
    ∀ t, TriangleGround.make id f p q r = .ok t → t.friction = f ∧ (zero <=. t.friction) = true := by
  unfold TriangleGround.make
  cases h : (zero <=. f)
  · simp
  · simp only [Res.assert_true, Res.bind_ok, Res.pure_eq, Res.ok.injEq]
    refine ⟨by simp, by simp, ?_⟩
    rintro t rfl
    exact ⟨rfl, h⟩

/-- C25, construction, in any arithmetic: a flat ground is constructed exactly when
`friction >= 0` and `normal.z > 0`, with exactly that friction. -/
theorem C25_flat_friction (f : α) (o n : V3 α) :
    ((∃ g, Flat.make f o n = .ok g) ↔ (zero <=. f) = true ∧ (zero <. n.z) = true) ∧
    (¬ ((zero <=. f) = true ∧ (zero <. n.z) = true) → ∃ e, Flat.make f o n = .throw e) ∧
    ∀ g, Flat.make f o n = .ok g → g.friction = f ∧ (zero <=. g.friction) = true := by
  unfold Flat.make
  cases h : (zero <=. f)
  · simp
  · cases h' : (zero <. n.z)
    · simp
    · simp only [Res.assert_true, Res.bind_ok, Res.pure_eq, Res.ok.injEq]
      refine ⟨by simp, by simp, ?_⟩
      rintro g rfl
      exact ⟨rfl, h⟩

/-- C25 says nothing about flat grounds that are modified after construction: assigning through the
reference returned by `flat::friction()` stores any value, which contacts evaluated on that ground
then report. -/
theorem C25_reference_bypasses_check :
    ∃ (g : Flat ℝ) (h : Flat ℝ), Flat.make 1 ⟨0, 0, 0⟩ ⟨0, 0, 1⟩ = .ok g ∧ h = g.setFriction (-1) ∧
      h.friction < 0 := by
  refine ⟨_, _, by simp only [Flat.make]; simp; rfl, rfl, ?_⟩
  norm_num [Flat.setFriction]

/-! ## C26: normals -/

theorem V3.cross_orth_left (a b : V3 ℝ) : dot3 (V3.cross a b) a = 0 := by
  rw [V3.real_cross]; simp only [dot3]; ring
theorem V3.cross_orth_right (a b : V3 ℝ) : dot3 (V3.cross a b) b = 0 := by
  rw [V3.real_cross]; simp only [dot3]; ring

/-- The normalised vector is a positive multiple of the vector. -/
theorem V3.normalized_eq_smul {a : V3 ℝ} (h : a ≠ ⟨0, 0, 0⟩) :
    ∃ k > 0, V3.normalized a = ⟨k * a.x, k * a.y, k * a.z⟩ := by
  refine ⟨(V3.norm a)⁻¹, inv_pos.2 (V3.norm_pos.2 h), ?_⟩
  rw [V3.normalized_of_ne h]
  simp only [div_eq_inv_mul]

/-- C26 for triangles: if the three vertices of a constructed ground triangle are not collinear, its
normal has length one, is orthogonal to all edges and does not point downwards - whatever the order
of the vertices. -/
theorem C26_triangle_normal (id : Int) (f : ℝ) (p q r : V3 ℝ) (t : TriangleGround ℝ)
    (h : TriangleGround.make id f p q r = .ok t)
    (hnd : V3.cross (V3.sub q p) (V3.sub r p) ≠ ⟨0, 0, 0⟩) :
    length3 t.normal = 1 ∧ dot3 t.normal (V3.sub q p) = 0 ∧ dot3 t.normal (V3.sub r q) = 0 ∧
      dot3 t.normal (V3.sub p r) = 0 ∧ 0 ≤ t.normal.z := by
  have ht : t = TriangleGround.updateBBox (TriangleGround.updateNormal
      ⟨⟨p, q, r⟩, id, f, V3.nan, Box.default⟩) := by
    unfold TriangleGround.make at h
    cases hf : (zero <=. f) <;> rw [hf] at h <;> simp at h
    exact h.symm
  obtain ⟨k, hk, e⟩ := V3.normalized_eq_smul hnd
  have hu := V3.sq_normalized hnd
  have h1 := V3.cross_orth_left (V3.sub q p) (V3.sub r p)
  have h2 := V3.cross_orth_right (V3.sub q p) (V3.sub r p)
  have hn : t.normal = (if (V3.normalized (V3.cross (V3.sub q p) (V3.sub r p))).z < 0 then
      V3.smul (-1) (V3.normalized (V3.cross (V3.sub q p) (V3.sub r p)))
      else V3.normalized (V3.cross (V3.sub q p) (V3.sub r p))) := by
    rw [ht]
    simp [TriangleGround.updateBBox, TriangleGround.updateNormal, Triangle.normal]
  rw [hn]
  set c := V3.cross (V3.sub q p) (V3.sub r p) with hc
  clear_value c
  simp only [V3.real_sub, dot3] at h1 h2 ⊢
  unfold length3
  rw [Real.sqrt_eq_one]
  rw [e] at hu ⊢
  dsimp only at hu ⊢
  split_ifs with hz
  · rw [V3.real_smul]
    dsimp only
    refine ⟨?_, ?_, ?_, ?_, ?_⟩
    · linear_combination hu
    · linear_combination -k * h1
    · linear_combination k * h1 - k * h2
    · linear_combination k * h2
    · linarith
  · refine ⟨hu, ?_, ?_, ?_, ?_⟩
    · linear_combination k * h1
    · linear_combination k * h2 - k * h1
    · linear_combination -k * h2
    · linarith

/-- C26 for flat grounds: the normal of a constructed flat ground has length one, positive z, and is
a positive multiple of the given one; the origin is the given one. -/
theorem C26_flat_normal (f : ℝ) (o n : V3 ℝ) (g : Flat ℝ) (h : Flat.make f o n = .ok g) :
    length3 g.normal = 1 ∧ 0 < g.normal.z ∧
      (∃ k > 0, g.normal = ⟨k * n.x, k * n.y, k * n.z⟩) ∧ g.plane.origin = o := by
  obtain ⟨h1, h2⟩ : 0 < n.z ∧ g = ⟨Plane.normalize ⟨o, n⟩, f⟩ := by
    unfold Flat.make at h
    cases hf : (zero <=. f)
    · rw [hf] at h; simp at h
    · rw [hf] at h
      cases hz : (zero <. n.z)
      · rw [hz] at h; simp at h
      · rw [hz] at h
        simp only [Res.assert_true, Res.bind_ok, Res.pure_eq, Res.ok.injEq] at h
        exact ⟨by simpa using hz, h.symm⟩
  have hne : n ≠ ⟨0, 0, 0⟩ := by rintro rfl; simp at h1
  obtain ⟨k, hk, e⟩ := V3.normalized_eq_smul hne
  have hg : g.normal = V3.normalized n := by rw [h2]; rfl
  refine ⟨?_, ?_, ⟨k, hk, by rw [hg, e]⟩, by rw [h2]; rfl⟩
  · rw [hg, length3, Real.sqrt_eq_one]; exact V3.sq_normalized hne
  · rw [hg, e]; exact mul_pos hk h1

/-- The hypotheses of `C26_triangle_normal` and `C26_flat_normal` are met. -/
example : (∃ t, TriangleGround.make 0 (1 : ℝ) ⟨0, 0, 0⟩ ⟨0, 1, 0⟩ ⟨1, 0, 0⟩ = .ok t) ∧
    V3.cross (V3.sub ⟨0, 1, 0⟩ ⟨0, 0, 0⟩) (V3.sub ⟨1, 0, 0⟩ ⟨0, 0, 0⟩) ≠ (⟨0, 0, 0⟩ : V3 ℝ) ∧
    (∃ g, Flat.make (1 : ℝ) ⟨0, 0, 3⟩ ⟨1, 2, 5⟩ = .ok g) := by
  refine ⟨(C25_triangle_friction 0 1 _ _ _).1.2 (by simp), ?_, (C25_flat_friction 1 _ _).1.2 (by simp)⟩
  simp [V3.real_sub, V3.real_cross]

/-! ## C48: copies -/

omit [Scalar α] in
/-- C48 for shapes, in any arithmetic: a copy has exactly the members of the original. -/
theorem C48_shape_copy (a b : Shape α) : a.copy b = b := rfl

/-- C48 for shapes: `isApprox` accepts the copy for every positive tolerance. -/
theorem C48_shape_copy_approx (a b : Shape ℝ) (tol : ℝ) (h : 0 < tol) :
    (a.copy b).isApprox b tol = true := by
  simp [Shape.copy, Shape.isApprox, Scalar.isApprox, h]

theorem V3.isApprox_self (a : V3 ℝ) (tol : ℝ) : V3.isApprox a a tol = true := by
  have h := V3.sqNorm_nonneg a
  simp only [V3.isApprox, real_le, real_mul, real_min, min_self, decide_eq_true_eq]
  have : V3.sqNorm (V3.sub a a) = 0 := by simp [V3.real_sub, V3.real_sqNorm]
  rw [this]
  exact mul_nonneg (mul_self_nonneg tol) h

/-- C48 for ribs is false: `rib::copy` does not copy the lateral coordinate `y`; the copy keeps its
own and is not approximately equal to the original unless the two were as close as the tolerance. -/
theorem C48_rib_copy_refuted (a b : Rib ℝ) (tol : ℝ) (h : tol ≤ |a.y - b.y|) :
    (a.copy b).y = a.y ∧ (a.copy b).isApprox b tol = false := by
  refine ⟨rfl, ?_⟩
  have : Scalar.isApprox (a.copy b).y b.y tol = false := by
    simpa [Scalar.isApprox, Rib.copy] using h
  simp [Rib.isApprox, this]

/-- What holds of rib copies: everything else agrees, and so does the comparison when the lateral
coordinates agree. -/
theorem C48_rib_copy_partial (a b : Rib ℝ) (tol : ℝ) (h : 0 < tol) :
    (a.copy b).disk = b.disk ∧ (a.copy b).id = b.id ∧ (a.copy b).width = b.width ∧
      (a.copy b).angle = b.angle ∧ (a.y = b.y → (a.copy b).isApprox b tol = true) := by
  refine ⟨rfl, rfl, rfl, rfl, fun hy => ?_⟩
  simp [Rib.isApprox, Rib.copy, Disk.isApprox, Scalar.isApprox, V3.isApprox_self, h, hy]

omit [Scalar α] in
/-- C48 for ground triangles is false of the id: the copy keeps its own. -/
theorem C48_triangle_copy_id_refuted (a b : TriangleGround α) (h : a.id ≠ b.id) :
    (a.copy b).id ≠ b.id ∧ (a.copy b).id = a.id := ⟨h, rfl⟩

/-- What holds of triangle copies: vertices, friction, normal and box (including the box's id!) are
those of the original, and `isApprox`, which ignores the id, accepts the copy. -/
theorem C48_triangle_copy_partial (a b : TriangleGround ℝ) (tol : ℝ) (h : 0 < tol) :
    (a.copy b).tri = b.tri ∧ (a.copy b).friction = b.friction ∧ (a.copy b).normal = b.normal ∧
      (a.copy b).bbox = b.bbox ∧ (a.copy b).isApprox b tol = true := by
  refine ⟨rfl, rfl, rfl, rfl, ?_⟩
  simp [TriangleGround.isApprox, TriangleGround.copy, Triangle.isApprox, Scalar.isApprox,
    V3.isApprox_self, h]

/-- C48 for flat grounds: a copy of a constructed flat ground is identical to it, and `isApprox`
accepts it. -/
theorem C48_flat_copy (a b : Flat ℝ) (f : ℝ) (o n : V3 ℝ) (hb : Flat.make f o n = .ok b) (tol : ℝ)
    (h : 0 < tol) : a.copy b = b ∧ (a.copy b).isApprox b tol = true := by
  have hu := (C26_flat_normal f o n b hb).1
  rw [length3, Real.sqrt_eq_one] at hu
  have e : a.copy b = b := by
    simp only [Flat.copy, Plane.normalize]
    rw [V3.normalized_unit (a := b.plane.normal) hu]
  refine ⟨e, ?_⟩
  rw [e]
  simp [Flat.isApprox, Plane.isApprox, Scalar.isApprox, V3.isApprox_self, h]

/-! ## C55: disk area and perimeter -/

/-- C55 is false: the two formulas are exchanged.  `area()` is the circumference and `perimeter()`
the area, so both are wrong for every radius other than 0 and 2. -/
theorem C55_disk_formulas_refuted (d : Disk ℝ) :
    d.area = 2 * Real.pi * d.radius ∧ d.perimeter = Real.pi * d.radius ^ 2 ∧
    (d.radius ≠ 0 → d.radius ≠ 2 →
      d.area ≠ Real.pi * d.radius ^ 2 ∧ d.perimeter ≠ 2 * Real.pi * d.radius) := by
  have e1 : d.area = 2 * Real.pi * d.radius := by simp [Disk.area]
  have e2 : d.perimeter = Real.pi * d.radius ^ 2 := by simp [Disk.perimeter]; ring
  refine ⟨e1, e2, fun h0 h2 => ?_⟩
  have key : 2 * Real.pi * d.radius ≠ Real.pi * d.radius ^ 2 := by
    intro h
    have : Real.pi * d.radius * (d.radius - 2) = 0 := by linear_combination -h
    rcases mul_eq_zero.1 this with h' | h'
    · rcases mul_eq_zero.1 h' with h' | h'
      · exact Real.pi_ne_zero h'
      · exact h0 h'
    · exact h2 (by linarith)
  rw [e1, e2]
  exact ⟨key, key.symm⟩

/-- What holds of C55: the two formulas agree with the circle's exactly for the radii 0 and 2. -/
theorem C55_disk_formulas_partial (d : Disk ℝ) (h : d.radius = 0 ∨ d.radius = 2) :
    d.area = Real.pi * d.radius ^ 2 ∧ d.perimeter = 2 * Real.pi * d.radius := by
  have e1 : d.area = 2 * Real.pi * d.radius := by simp [Disk.area]
  have e2 : d.perimeter = Real.pi * d.radius ^ 2 := by simp [Disk.perimeter]; ring
  rw [e1, e2]
  rcases h with h | h <;> rw [h] <;> exact ⟨by ring, by ring⟩

end Enve
