import Verif.Model.Predicates
import Verif.Spec.Entity
import Verif.Props.IntersectProps

/-! # Parallel, orthogonal, collinear and coplanar entities -/

namespace Enve
open Scalar Spec

/-! ## Vectors -/

theorem V3.cross_eq3 (a b : V3 ℝ) : V3.cross a b = cross3 a b := by rw [V3.real_cross]; rfl
theorem V3.sub_eq3 (a b : V3 ℝ) : V3.sub a b = minus a b := by rw [V3.real_sub]; rfl
theorem V3.normalized_eq3 (a : V3 ℝ) : V3.normalized a = unit3 a := by
  by_cases h : a = ⟨0, 0, 0⟩
  · rw [V3.normalized_zero h, h]; simp [unit3]
  · rw [V3.normalized_of_ne h, V3.norm_eq]; rfl
theorem Spec.unit3_unit {a : V3 ℝ} (h : a ≠ ⟨0, 0, 0⟩) : Unit3 (unit3 a) := by
  rw [← V3.normalized_eq3]; exact V3.sq_normalized h
theorem Spec.minus_ne {a b : V3 ℝ} (h : a ≠ b) : minus b a ≠ ⟨0, 0, 0⟩ := by
  intro h0
  apply h
  simp only [minus, V3.mk.injEq] at h0
  obtain ⟨h1, h2, h3⟩ := h0
  ext <;> linarith
theorem Spec.dot3_comm (a b : V3 ℝ) : dot3 a b = dot3 b a := by unfold dot3; ring
theorem Spec.angle3_comm (a b : V3 ℝ) : angle3 a b = angle3 b a := by unfold angle3; rw [dot3_comm]

theorem V3.norm_cross_sq (a b : V3 ℝ) :
    V3.norm (V3.cross a b) ^ 2 = dot3 a a * dot3 b b - dot3 a b ^ 2 := by
  rw [V3.norm_sq, ← V3.cross_sq]; unfold dot3; ring

theorem V3.norm_cross_comm (a b : V3 ℝ) : V3.norm (V3.cross a b) = V3.norm (V3.cross b a) := by
  simp only [V3.norm, V3.sqNorm, V3.real_cross, V3.dot, real_mul]
  congr 1; ring

theorem Spec.dot3_abs_le {a b : V3 ℝ} (ha : Unit3 a) (hb : Unit3 b) : dot3 a b ^ 2 ≤ 1 := by
  have h := V3.norm_cross_sq a b
  rw [ha.dot, hb.dot] at h
  nlinarith [sq_nonneg (V3.norm (V3.cross a b))]

theorem Spec.sin_angle3 {a b : V3 ℝ} (ha : Unit3 a) (hb : Unit3 b) :
    Real.sin (angle3 a b) = V3.norm (V3.cross a b) := by
  unfold angle3
  rw [Real.sin_arccos]
  have h := V3.norm_cross_sq a b
  rw [ha.dot, hb.dot, mul_one] at h
  rw [← h, Real.sqrt_sq (V3.norm_nonneg _)]

theorem Spec.cos_angle3 {a b : V3 ℝ} (ha : Unit3 a) (hb : Unit3 b) :
    Real.cos (angle3 a b) = dot3 a b := by
  unfold angle3
  have h := dot3_abs_le ha hb
  exact Real.cos_arccos (by nlinarith) (by nlinarith)

/-- The test on two unit vectors compares the sine of their angle with the tolerance. -/
theorem Rel.parV_iff {a b : V3 ℝ} (ha : Unit3 a) (hb : Unit3 b) (tol : ℝ) :
    Rel.parV a b tol = true ↔ Real.sin (angle3 a b) < tol := by
  rw [sin_angle3 ha hb]
  unfold Rel.parV Inter.isParallel Scalar.isApprox
  simp only [real_lt, real_abs, real_sub, real_zero, sub_zero, decide_eq_true_eq,
    abs_of_nonneg (V3.norm_nonneg _)]

/-- The test on two unit vectors compares the cosine of their angle with the tolerance. -/
theorem Rel.ortV_iff {a b : V3 ℝ} (ha : Unit3 a) (hb : Unit3 b) (tol : ℝ) :
    Rel.ortV a b tol = true ↔ |Real.cos (angle3 a b)| < tol := by
  rw [cos_angle3 ha hb]
  unfold Rel.ortV Scalar.isApprox
  simp only [real_lt, real_abs, real_sub, real_zero, sub_zero, decide_eq_true_eq, V3.dot_eq]

theorem Spec.Proper.seg {s : Segment ℝ} (h : Proper (.segment s)) : Unit3 (unit3 (minus s.v1 s.v0)) :=
  unit3_unit (minus_ne h)
theorem Spec.Proper.tri {t : Triangle ℝ} (h : Proper (.triangle t)) :
    Unit3 (unit3 (cross3 (minus t.v1 t.v0) (minus t.v2 t.v0))) := unit3_unit h
theorem Segment.unit_eq (s : Segment ℝ) : s.toUnitVector = unit3 (minus s.v1 s.v0) := by
  rw [Segment.toUnitVector, V3.normalized_eq3, V3.sub_eq3]
theorem Triangle.normal_eq (t : Triangle ℝ) :
    t.normal = unit3 (cross3 (minus t.v1 t.v0) (minus t.v2 t.v0)) := by
  rw [Triangle.normal, V3.normalized_eq3, V3.cross_eq3, V3.sub_eq3, V3.sub_eq3]

/-- The vector of an attitude. -/
def Spec.Attitude.vec : Attitude → V3 ℝ
  | .along u => u
  | .across n => n

theorem Spec.Proper.unit {e : Entity ℝ} (h : Proper e) {x : Attitude} (hx : attitude e = some x) :
    Unit3 x.vec := by
  cases e <;> simp only [attitude, reduceCtorEq, Option.some.injEq] at hx <;> subst hx
  · exact h
  · exact h
  · exact h
  · exact h.seg
  · exact h.tri
  · exact h.1

theorem Rel.parV_comm (u v : V3 ℝ) (tol : ℝ) : Rel.parV u v tol = Rel.parV v u tol := by
  unfold Rel.parV Inter.isParallel; rw [V3.norm_cross_comm]
theorem Rel.ortV_comm (u v : V3 ℝ) (tol : ℝ) : Rel.ortV u v tol = Rel.ortV v u tol := by
  unfold Rel.ortV; rw [V3.dot_eq, V3.dot_eq, dot3_comm]

/-- `IsParallel` in terms of attitudes. -/
theorem Rel.parallel_att (a b : Entity ℝ) (tol : ℝ) : Rel.parallel a b tol =
    match attitude a, attitude b with
    | some (.along u), some (.along v) => Rel.parV u v tol
    | some (.across u), some (.across v) => Rel.parV u v tol
    | some (.along u), some (.across v) => Rel.ortV u v tol
    | some (.across v), some (.along u) => Rel.ortV u v tol
    | _, _ => false := by
  cases a <;> cases b <;>
    simp only [Rel.parallel, attitude, ← Segment.unit_eq, ← Triangle.normal_eq] <;>
    first | rfl | exact Rel.parV_comm _ _ _

/-- `IsOrthogonal` in terms of attitudes, except for a line and a plane. -/
theorem Rel.orthogonal_att (a b : Entity ℝ) (tol : ℝ)
    (h1 : ¬ (a.isLine = true ∧ b.isPlane = true)) (h2 : ¬ (a.isPlane = true ∧ b.isLine = true)) :
    Rel.orthogonal a b tol =
    match attitude a, attitude b with
    | some (.along u), some (.along v) => Rel.ortV u v tol
    | some (.across u), some (.across v) => Rel.ortV u v tol
    | some (.along u), some (.across v) => Rel.parV u v tol
    | some (.across v), some (.along u) => Rel.parV u v tol
    | _, _ => false := by
  cases a <;> cases b <;>
    simp only [Rel.orthogonal, attitude, ← Segment.unit_eq, ← Triangle.normal_eq] <;>
    first | rfl | exact Rel.ortV_comm _ _ _ | exact absurd ⟨rfl, rfl⟩ h1 | exact absurd ⟨rfl, rfl⟩ h2

/-! ## C66: parallel entities -/

/-- **C66.** `IsParallel` on two entities holds exactly when both have a direction or a normal and
these differ by an angle whose sine is below the tolerance (whose cosine is, if one is a direction and
the other a normal). -/
theorem C66_parallel (a b : Entity ℝ) (ha : Proper a) (hb : Proper b) (tol : ℝ) :
    Rel.parallel a b tol = true ↔ ParallelWithin tol a b := by
  have ua := @Spec.Proper.unit _ ha
  have ub := @Spec.Proper.unit _ hb
  rw [Rel.parallel_att]
  unfold ParallelWithin
  rcases xa : attitude a with _ | ⟨u | n⟩ <;> rcases xb : attitude b with _ | ⟨v | m⟩ <;> dsimp only
  all_goals try (simp only [Bool.false_eq_true, iff_self])
  · exact Rel.parV_iff (ua xa) (ub xb) tol
  · exact Rel.ortV_iff (ua xa) (ub xb) tol
  · exact Rel.ortV_iff (ub xb) (ua xa) tol
  · exact Rel.parV_iff (ua xa) (ub xb) tol

/-- **C66.** The order of the arguments of `IsParallel` does not matter, whatever the lengths of the
directions and normals. -/
theorem C66_symmetric (a b : Entity ℝ) (tol : ℝ) :
    Rel.parallel a b tol = Rel.parallel b a tol := by
  cases a <;> cases b <;> first | rfl | exact Rel.parV_comm _ _ _

/-- **C66.** The unit length is needed: a pair of perpendicular lines with short directions is reported
as parallel. -/
theorem C66_short_directions (tol : ℝ) (ht : 0 < tol) :
    ∃ a b : Line ℝ, a.direction ≠ ⟨0, 0, 0⟩ ∧ b.direction ≠ ⟨0, 0, 0⟩ ∧
      dot3 a.direction b.direction = 0 ∧ Rel.parallel (.line a) (.line b) tol = true := by
  refine ⟨⟨⟨0, 0, 0⟩, ⟨tol / 2, 0, 0⟩⟩, ⟨⟨0, 0, 0⟩, ⟨0, 1, 0⟩⟩, ?_, by simp, by simp [dot3], ?_⟩
  · simp; exact ht.ne'
  · simp only [Rel.parallel, Rel.parLineLine, Rel.parV, Inter.isParallel, Scalar.isApprox, real_lt,
      real_abs, real_sub, real_zero, sub_zero, V3.real_cross, V3.norm_eq, length3, decide_eq_true_eq]
    have : Real.sqrt ((0 * 0 - 0 * 1) ^ 2 + (0 * 0 - tol / 2 * 0) ^ 2 + (tol / 2 * 1 - 0 * 0) ^ 2) =
        tol / 2 := by
      rw [show (0 * 0 - 0 * 1) ^ 2 + (0 * 0 - tol / 2 * 0) ^ 2 + (tol / 2 * 1 - 0 * 0) ^ 2 =
        (tol / 2) ^ 2 by ring, Real.sqrt_sq (by linarith)]
    rw [this, abs_of_pos (by linarith)]
    linarith

/-! ## C67: orthogonal entities -/

/-- **C67 (partial).** `IsOrthogonal` on two entities holds exactly when both have a direction or a
normal and these are orthogonal (or parallel, for a direction and a normal) up to the tolerance.
Missing: the pair of a line and a plane, see `C67_line_plane_refuted`. -/
theorem C67_orthogonal_partial (a b : Entity ℝ) (ha : Proper a) (hb : Proper b) (tol : ℝ)
    (h1 : ¬ (a.isLine = true ∧ b.isPlane = true)) (h2 : ¬ (a.isPlane = true ∧ b.isLine = true)) :
    Rel.orthogonal a b tol = true ↔ OrthogonalWithin tol a b := by
  have ua := @Spec.Proper.unit _ ha
  have ub := @Spec.Proper.unit _ hb
  rw [Rel.orthogonal_att a b tol h1 h2]
  unfold OrthogonalWithin
  rcases xa : attitude a with _ | ⟨u | n⟩ <;> rcases xb : attitude b with _ | ⟨v | m⟩ <;> dsimp only
  all_goals try (simp only [Bool.false_eq_true, iff_self])
  · exact Rel.ortV_iff (ua xa) (ub xb) tol
  · exact Rel.parV_iff (ua xa) (ub xb) tol
  · exact Rel.parV_iff (ub xb) (ua xa) tol
  · exact Rel.ortV_iff (ua xa) (ub xb) tol

/-- **C67 (refuted for a line and a plane).** A line in the direction of the normal of a plane is not
reported as orthogonal to it, while a line lying in the plane is. -/
theorem C67_line_plane_refuted (tol : ℝ) (h0 : 0 < tol) (h1 : tol ≤ 1) :
    let P : Entity ℝ := .plane ⟨⟨0, 0, 0⟩, ⟨0, 0, 1⟩⟩
    let up : Entity ℝ := .line ⟨⟨0, 0, 0⟩, ⟨0, 0, 1⟩⟩
    let flat : Entity ℝ := .line ⟨⟨0, 0, 0⟩, ⟨1, 0, 0⟩⟩
    (Proper P ∧ Proper up ∧ Proper flat) ∧
    (OrthogonalWithin tol up P ∧ Rel.orthogonal up P tol = false) ∧
    (¬ OrthogonalWithin tol flat P ∧ Rel.orthogonal flat P tol = true) ∧
    (∀ q, Has flat q → Has P q) := by
  have u1 : Unit3 (⟨0, 0, 1⟩ : V3 ℝ) := by simp [Unit3]
  have u2 : Unit3 (⟨1, 0, 0⟩ : V3 ℝ) := by simp [Unit3]
  refine ⟨⟨u1, u1, u2⟩, ⟨?_, ?_⟩, ⟨?_, ?_⟩, ?_⟩
  · simp only [OrthogonalWithin, attitude, angle3, dot3]; norm_num; exact h0
  · simp only [Rel.orthogonal, Rel.ortLinePlane, Rel.ortV, Scalar.isApprox, V3.dot_eq, dot3, real_lt,
      real_abs, real_sub, real_zero]
    norm_num; exact h1
  · simp only [OrthogonalWithin, attitude, angle3, dot3]; norm_num; exact h1
  · simp only [Rel.orthogonal, Rel.ortLinePlane, Rel.ortV, Scalar.isApprox, V3.dot_eq, dot3, real_lt,
      real_abs, real_sub, real_zero]
    norm_num; exact h0
  · rintro q ⟨t, rfl⟩
    simp [Has, OnPlane, along, minus, dot3]

/-- **C67.** The order of the arguments of `IsOrthogonal` does not matter. -/
theorem C67_symmetric (a b : Entity ℝ) (tol : ℝ) :
    Rel.orthogonal a b tol = Rel.orthogonal b a tol := by
  cases a <;> cases b <;> first | rfl | exact Rel.ortV_comm _ _ _

/-- **C66 for a vector and an entity.**  A unit vector is reported as parallel to an entity exactly when a line along
the vector is. -/
theorem C66_vector {v : V3 ℝ} (hv : Unit3 v) (o : V3 ℝ) (tol : ℝ) :
    (∀ b, Proper (.line b) → (Rel.parVecLine v b tol = true ↔ ParallelWithin tol (.line ⟨o, v⟩) (.line b))) ∧
    (∀ b, Proper (.ray b) → (Rel.parVecRay v b tol = true ↔ ParallelWithin tol (.line ⟨o, v⟩) (.ray b))) ∧
    (∀ b, Proper (.plane b) → (Rel.parVecPlane v b tol = true ↔ ParallelWithin tol (.line ⟨o, v⟩) (.plane b))) ∧
    (∀ b, Proper (.segment b) → (Rel.parVecSeg v b tol = true ↔ ParallelWithin tol (.line ⟨o, v⟩) (.segment b))) ∧
    (∀ b, Proper (.triangle b) → (Rel.parVecTri v b tol = true ↔ ParallelWithin tol (.line ⟨o, v⟩) (.triangle b))) ∧
    (∀ b, Proper (.disk b) → (Rel.parVecDisk v b tol = true ↔ ParallelWithin tol (.line ⟨o, v⟩) (.disk b))) := by
  have ha : Proper (.line ⟨o, v⟩) := hv
  exact ⟨fun b hb => C66_parallel _ _ ha hb tol, fun b hb => C66_parallel _ _ ha hb tol,
    fun b hb => C66_parallel _ _ ha hb tol, fun b hb => C66_parallel _ _ ha hb tol,
    fun b hb => C66_parallel _ _ ha hb tol, fun b hb => C66_parallel _ _ ha hb tol⟩

/-- **C67 for a vector and an entity.**  A unit vector is reported as orthogonal to an entity exactly when a line along
the vector is; for a plane too, where the function on a line and a plane fails (`C67_line_plane_refuted`). -/
theorem C67_vector {v : V3 ℝ} (hv : Unit3 v) (o : V3 ℝ) (tol : ℝ) :
    (∀ b, Proper (.line b) → (Rel.ortVecLine v b tol = true ↔ OrthogonalWithin tol (.line ⟨o, v⟩) (.line b))) ∧
    (∀ b, Proper (.ray b) → (Rel.ortVecRay v b tol = true ↔ OrthogonalWithin tol (.line ⟨o, v⟩) (.ray b))) ∧
    (∀ b, Proper (.plane b) → (Rel.ortVecPlane v b tol = true ↔ OrthogonalWithin tol (.line ⟨o, v⟩) (.plane b))) ∧
    (∀ b, Proper (.segment b) → (Rel.ortVecSeg v b tol = true ↔ OrthogonalWithin tol (.line ⟨o, v⟩) (.segment b))) ∧
    (∀ b, Proper (.triangle b) → (Rel.ortVecTri v b tol = true ↔ OrthogonalWithin tol (.line ⟨o, v⟩) (.triangle b))) ∧
    (∀ b, Proper (.disk b) → (Rel.ortVecDisk v b tol = true ↔ OrthogonalWithin tol (.line ⟨o, v⟩) (.disk b))) := by
  have ha : Proper (.line ⟨o, v⟩) := hv
  have hn : ∀ {a b : Entity ℝ}, b.isPlane = false → ¬ (a.isLine = true ∧ b.isPlane = true) := by
    rintro a b h ⟨-, h'⟩; rw [h] at h'; cases h'
  have hm : ∀ {a b : Entity ℝ}, a.isPlane = false → ¬ (a.isPlane = true ∧ b.isLine = true) := by
    rintro a b h ⟨h', -⟩; rw [h] at h'; cases h'
  exact ⟨fun b hb => C67_orthogonal_partial _ _ ha hb tol (hn rfl) (hm rfl),
    fun b hb => C67_orthogonal_partial _ _ ha hb tol (hn rfl) (hm rfl),
    fun b hb => Rel.parV_iff hv (@Spec.Proper.unit _ hb _ rfl) tol,
    fun b hb => C67_orthogonal_partial _ _ ha hb tol (hn rfl) (hm rfl),
    fun b hb => C67_orthogonal_partial _ _ ha hb tol (hn rfl) (hm rfl),
    fun b hb => C67_orthogonal_partial _ _ ha hb tol (hn rfl) (hm rfl)⟩

/-! ## C68: collinear entities -/

/-- For a unit vector `u`, the point `b` is less than `tol` away from the line through `a` along `u`
exactly when the length of `u × (a - b)` is less than `tol`. -/
theorem Rel.parV_offset {u : V3 ℝ} (hu : Unit3 u) (a b : V3 ℝ) (tol : ℝ) :
    Rel.parV u (V3.sub a b) tol = true ↔ ∃ t, dist3 (along a t u) b < tol := by
  have key (t : ℝ) : dist3 (along a t u) b ^ 2 =
      V3.norm (V3.cross u (minus a b)) ^ 2 + (t + dot3 u (minus a b)) ^ 2 := by
    rw [V3.norm_cross_sq, hu.dot, dist3_sq]
    unfold Unit3 at hu
    simp only [along, dot3, minus]
    linear_combination t ^ 2 * hu
  have hp : Rel.parV u (V3.sub a b) tol = true ↔ V3.norm (V3.cross u (minus a b)) < tol := by
    unfold Rel.parV Inter.isParallel Scalar.isApprox
    simp only [real_lt, real_abs, real_sub, real_zero, sub_zero, decide_eq_true_eq,
      abs_of_nonneg (V3.norm_nonneg _), V3.sub_eq3]
  rw [hp]
  constructor
  · intro h
    refine ⟨-dot3 u (minus a b), ?_⟩
    have := key (-dot3 u (minus a b))
    rw [neg_add_cancel, zero_pow two_ne_zero, add_zero] at this
    have h2 := (sq_eq_sq₀ (dist3_nonneg _ _) (V3.norm_nonneg _)).1 this
    rwa [h2]
  · rintro ⟨t, h⟩
    refine lt_of_le_of_lt ?_ h
    refine (sq_le_sq₀ (V3.norm_nonneg _) (dist3_nonneg _ _)).1 ?_
    rw [key t]
    linarith [sq_nonneg (t + dot3 u (minus a b))]

/-- **C68 (partial).** For two entities listed in the order line, ray, segment, `IsCollinear` holds
exactly when the second one starts less than the tolerance away from the line carrying the first one
and the sine of the angle of their directions is below the tolerance.  Missing: two rays, see
`C68_ray_ray_refuted`. -/
theorem C68_collinear_partial (a b : Entity ℝ) (ha : Proper a) (hb : Proper b) (tol : ℝ)
    (hl : a.level ≤ b.level) (hr : ¬ (a.isRay = true ∧ b.isRay = true)) :
    Rel.collinear a b tol = true ↔ CollinearWithin tol a b := by
  have key {o u p v : V3 ℝ} (hu : Unit3 u) (hv : Unit3 v) :
      (Rel.parV u (V3.sub o p) tol && Rel.parV u v tol) = true ↔
        (∃ t, dist3 (along o t u) p < tol) ∧ Real.sin (angle3 u v) < tol := by
    rw [Bool.and_eq_true]
    exact and_congr (Rel.parV_offset hu o p tol) (Rel.parV_iff hu hv tol)
  have ua := @Spec.Proper.unit _ ha
  have ub := @Spec.Proper.unit _ hb
  cases a <;> cases b <;> simp only [Rel.collinear, CollinearWithin, carrier, ← Segment.unit_eq,
    Bool.false_eq_true]
  all_goals try exact absurd ⟨rfl, rfl⟩ hr
  all_goals try (simp only [Entity.level] at hl; norm_num at hl; done)
  all_goals simp only [attitude, ← Segment.unit_eq] at ua ub
  all_goals exact key (ua rfl) (ub rfl)

/-- **C68.** For entities of different kinds the order of the arguments does not matter. -/
theorem C68_swap {α : Type} [Scalar α] (a b : Entity α) (tol : α) (h : a.level ≠ b.level) :
    Rel.collinear a b tol = Rel.collinear b a tol := by
  cases a <;> cases b <;> first | rfl | exact absurd rfl h

/-- **C68 (refuted for two rays).** Two perpendicular rays with a common origin are reported as
collinear. -/
theorem C68_ray_ray_refuted (tol : ℝ) (h0 : 0 < tol) (h1 : tol ≤ 1) :
    let a : Entity ℝ := .ray ⟨⟨0, 0, 0⟩, ⟨1, 0, 0⟩⟩
    let b : Entity ℝ := .ray ⟨⟨0, 0, 0⟩, ⟨0, 1, 0⟩⟩
    Proper a ∧ Proper b ∧ ¬ CollinearWithin tol a b ∧ ¬ SameLine a b ∧
      Rel.collinear a b tol = true := by
  refine ⟨by simp [Proper, Unit3], by simp [Proper, Unit3], ?_, ?_, ?_⟩
  · rintro ⟨-, h⟩
    simp only [angle3, dot3] at h
    norm_num at h
    linarith
  · rintro ⟨l, h⟩
    obtain ⟨t0, e0⟩ := h ⟨0, 0, 0⟩ (.inl ⟨0, le_rfl, by simp [along]⟩)
    obtain ⟨t1, e1⟩ := h ⟨1, 0, 0⟩ (.inl ⟨1, zero_le_one, by simp [along]⟩)
    obtain ⟨t2, e2⟩ := h ⟨0, 1, 0⟩ (.inr ⟨1, zero_le_one, by simp [along]⟩)
    simp only [along, V3.mk.injEq] at e0 e1 e2
    obtain ⟨x0, y0, -⟩ := e0
    obtain ⟨x1, y1, -⟩ := e1
    obtain ⟨x2, y2, -⟩ := e2
    have a1 : (t1 - t0) * l.direction.x = 1 := by linarith
    have a2 : (t1 - t0) * l.direction.y = 0 := by linarith
    have b1 : (t2 - t0) * l.direction.x = 0 := by linarith
    have b2 : (t2 - t0) * l.direction.y = 1 := by linarith
    have : ((t1 - t0) * l.direction.x) * ((t2 - t0) * l.direction.y) =
      ((t1 - t0) * l.direction.y) * ((t2 - t0) * l.direction.x) := by ring
    rw [a1, a2, b1, b2] at this
    norm_num at this
  · simp only [Rel.collinear, Rel.colRayRay, Rel.parV, Inter.isParallel, Scalar.isApprox, real_lt,
      real_abs, real_sub, real_zero, V3.real_cross, V3.norm_eq, length3, V3.real_sub]
    norm_num; exact h0

end Enve
