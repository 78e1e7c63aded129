import Mathlib.Geometry.Euclidean.Angle.Unoriented.TriangleInequality
import Mathlib.Analysis.InnerProductSpace.PiL2
import Mathlib.Analysis.Real.Pi.Bounds
import Verif.Base.Binary64
import Verif.Model.Access
import Verif.Props.EditProps
import Verif.Props.RelationProps

/-! # The angle between two vectors, and degenerated entities -/

namespace Enve
open Scalar Spec

/-- A vector as an element of Mathlib's three-dimensional Euclidean space. -/
noncomputable def Spec.euclid (a : V3 ℝ) : EuclideanSpace ℝ (Fin 3) := WithLp.toLp 2 ![a.x, a.y, a.z]

theorem Spec.euclid_inner (a b : V3 ℝ) : inner ℝ (euclid a) (euclid b) = dot3 a b := by
  simp [euclid, PiLp.inner_apply, Fin.sum_univ_three, dot3]; ring
theorem Spec.euclid_norm (a : V3 ℝ) : ‖euclid a‖ = length3 a := by
  rw [EuclideanSpace.norm_eq]; simp [euclid, Fin.sum_univ_three, length3]
theorem Spec.euclid_smul (k : ℝ) (a : V3 ℝ) : euclid ⟨k * a.x, k * a.y, k * a.z⟩ = k • euclid a := by
  ext i; fin_cases i <;> simp [euclid]
theorem Spec.euclid_inj {a b : V3 ℝ} : euclid a = euclid b ↔ a = b := by
  refine ⟨fun h => ?_, fun h => h ▸ rfl⟩
  have h0 := congrArg (fun v => v 0) h
  have h1 := congrArg (fun v => v 1) h
  have h2 := congrArg (fun v => v 2) h
  simp [euclid] at h0 h1 h2
  ext <;> assumption
theorem Spec.euclid_ne {a : V3 ℝ} : euclid a ≠ 0 ↔ a ≠ ⟨0, 0, 0⟩ := by
  rw [← _root_.norm_ne_zero_iff, euclid_norm, ← V3.norm_eq, Ne, V3.norm_eq_zero]

/-- **C93**: `Angle` is the angle of Euclidean geometry. -/
theorem C93_angle_partial (a b : V3 ℝ) :
    V3.angle a b = InnerProductGeometry.angle (euclid a) (euclid b) := by
  unfold V3.angle InnerProductGeometry.angle
  rw [euclid_inner, euclid_norm, euclid_norm, ← V3.dot_eq, ← V3.norm_eq, ← V3.norm_eq]
  simp

/-- **C93**: of the numbers from `0` to `π`, it is the one whose cosine is the scalar product divided by the
lengths. -/
theorem C93_unique_partial {a b : V3 ℝ} (ha : a ≠ ⟨0, 0, 0⟩) (hb : b ≠ ⟨0, 0, 0⟩) (θ : ℝ) :
    θ = V3.angle a b ↔ 0 ≤ θ ∧ θ ≤ Real.pi ∧ length3 a * length3 b * Real.cos θ = dot3 a b := by
  rw [C93_angle_partial]
  have hpos : 0 < length3 a * length3 b := by
    rw [← V3.norm_eq, ← V3.norm_eq]; exact mul_pos (V3.norm_pos.2 ha) (V3.norm_pos.2 hb)
  have hc := InnerProductGeometry.cos_angle_mul_norm_mul_norm (euclid a) (euclid b)
  rw [euclid_norm, euclid_norm, euclid_inner] at hc
  constructor
  · rintro rfl
    exact ⟨InnerProductGeometry.angle_nonneg _ _, InnerProductGeometry.angle_le_pi _ _, by linarith⟩
  · rintro ⟨h0, h1, h2⟩
    apply Real.injOn_cos ⟨h0, h1⟩ ⟨InnerProductGeometry.angle_nonneg _ _, InnerProductGeometry.angle_le_pi _ _⟩
    have : length3 a * length3 b * (Real.cos θ - Real.cos (InnerProductGeometry.angle (euclid a) (euclid b))) = 0 := by
      linarith
    rcases mul_eq_zero.1 this with h | h
    · exact absurd h hpos.ne'
    · linarith

/-- **C93**: it does not depend on the order of the vectors, on their lengths or on a rotation of both, and
becomes the supplement when one vector is reversed. -/
theorem C93_invariant_partial (a b : V3 ℝ) :
    V3.angle a b = V3.angle b a ∧
    (∀ k l : ℝ, 0 < k → 0 < l → V3.angle (V3.smul k a) (V3.smul l b) = V3.angle a b) ∧
    V3.angle a (V3.neg b) = Real.pi - V3.angle a b ∧
    (∀ m, IsRotation m → V3.angle (M3.mulVec m a) (M3.mulVec m b) = V3.angle a b) := by
  refine ⟨?_, ?_, ?_, ?_⟩
  · rw [C93_angle_partial, C93_angle_partial, InnerProductGeometry.angle_comm]
  · intro k l hk hl
    rw [C93_angle_partial, C93_angle_partial, V3.real_smul, V3.real_smul, euclid_smul, euclid_smul,
      InnerProductGeometry.angle_smul_left_of_pos _ _ hk, InnerProductGeometry.angle_smul_right_of_pos _ _ hl]
  · rw [C93_angle_partial, C93_angle_partial, V3.real_neg,
      show euclid ⟨-b.x, -b.y, -b.z⟩ = -euclid b by
        rw [← neg_one_smul ℝ (euclid b), ← euclid_smul]; simp,
      InnerProductGeometry.angle_neg_right]
  · intro m hm
    rw [V3.angle, V3.angle, V3.dot_eq, V3.dot_eq, hm.dot_mulVec, hm.norm_mulVec, hm.norm_mulVec]

/-- **C93**: it is `0` for vectors of the same direction only, `π` for opposite ones, and a right angle exactly
when the scalar product is zero. -/
theorem C93_special_partial {a b : V3 ℝ} (ha : a ≠ ⟨0, 0, 0⟩) :
    (V3.angle a b = 0 ↔ ∃ k : ℝ, 0 < k ∧ b = ⟨k * a.x, k * a.y, k * a.z⟩) ∧
    (V3.angle a b = Real.pi ↔ ∃ k : ℝ, k < 0 ∧ b = ⟨k * a.x, k * a.y, k * a.z⟩) ∧
    (V3.angle a b = Real.pi / 2 ↔ dot3 a b = 0) := by
  rw [C93_angle_partial]
  refine ⟨?_, ?_, ?_⟩
  · rw [InnerProductGeometry.angle_eq_zero_iff]
    simp only [← euclid_smul, euclid_inj, euclid_ne, ne_eq, ha, not_false_eq_true, true_and]
  · rw [InnerProductGeometry.angle_eq_pi_iff]
    simp only [← euclid_smul, euclid_inj, euclid_ne, ne_eq, ha, not_false_eq_true, true_and]
  · rw [← InnerProductGeometry.inner_eq_zero_iff_angle_eq_pi_div_two, euclid_inner]

/-- **C93**: angles satisfy the triangle inequality. -/
theorem C93_triangle_partial (a b c : V3 ℝ) : V3.angle a c ≤ V3.angle a b + V3.angle b c := by
  simp only [C93_angle_partial]
  exact InnerProductGeometry.angle_le_angle_add_angle _ _ _

/-- The hypotheses hold for unequal vectors that are not parallel. -/
example : V3.angle (⟨1, 0, 0⟩ : V3 ℝ) ⟨1, 1, 0⟩ = Real.pi / 4 := by
  symm
  rw [C93_unique_partial (by simp) (by simp)]
  refine ⟨by positivity, by linarith [Real.pi_pos], ?_⟩
  rw [Real.cos_pi_div_four]
  have h : Real.sqrt 2 * Real.sqrt 2 = 2 := Real.mul_self_sqrt (by norm_num)
  norm_num [length3, dot3]; linarith

/-- **C93**, what fails: with a zero vector the result is NaN, on exact numbers with the special values. -/
theorem C93_zero_refuted (x y z : ℝ) :
    V3.angle (⟨.fin x, .fin y, .fin z⟩ : V3 XR) ⟨.fin 0, .fin 0, .fin 0⟩ = .nan := by
  have h1 : 0 ≤ x * x + y * y + z * z := by nlinarith [mul_self_nonneg x, mul_self_nonneg y, mul_self_nonneg z]
  simp only [V3.angle, V3.dot, V3.norm, V3.sqNorm, XR.mul_fin, XR.add_fin, mul_zero, add_zero, XR.sqrt_fin _ h1,
    XR.sqrt_fin _ le_rfl, Real.sqrt_zero, XR.zero_div_zero]
  rfl

/-- **C93**, what fails: in the arithmetic of `double`, rounding makes the quotient larger than one, and the angle
of a vector and itself is NaN. -/
theorem C93_rounding_refuted :
    V3.angle (⟨.fin 1, .fin 1, .fin 1⟩ : V3 B64) ⟨.fin 1, .fin 1, .fin 1⟩ = ⟨.nan⟩ := by
  have big : ∀ x : ℝ, |x| < 4 → |x| < (2 : ℝ) ^ (1024 : ℤ) := fun x h => h.trans (by
    rw [show (4 : ℝ) = 2 ^ (2 : ℤ) by norm_num]; exact zpow_lt_zpow_right₀ (by norm_num) (by norm_num))
  have h1 : B64.round (.fin 1) = .fin 1 := B64.round_fin_of (by
    have := B64.near_int (n := 1) (e := 0) (by norm_num) (by norm_num) (by norm_num)
    simpa using this) (big _ (by norm_num))
  have h2 : B64.round (.fin 2) = .fin 2 := B64.round_fin_of (by
    have := B64.near_int (n := 2) (e := 1) (by norm_num) (by norm_num) (by norm_num)
    simpa using this) (big _ (by norm_num))
  have h3 : B64.round (.fin 3) = .fin 3 := B64.round_fin_of (by
    have := B64.near_int (n := 3) (e := 1) (by norm_num) (by norm_num) (by norm_num)
    simpa using this) (big _ (by norm_num))
  have hs : B64.round (.fin (Real.sqrt 3)) = .fin (7800463371553962 / 4503599627370496) := by
    have lo : 7800463371553962 / 4503599627370496 < Real.sqrt 3 := by
      apply Real.lt_sqrt_of_sq_lt; norm_num
    have hi : Real.sqrt 3 < 7800463371553962 / 4503599627370496 + 1 / 9007199254740992 := by
      rw [Real.sqrt_lt' (by norm_num)]; norm_num
    refine B64.round_fin_of ?_ (big _ (by rw [abs_of_pos (by norm_num)]; norm_num))
    rw [B64.near_eq (e := 0) (n := 7800463371553962) (by norm_num)]
    · norm_num
    · rw [abs_of_pos (by linarith)]; norm_num
    · rw [abs_of_pos (by linarith)]; norm_num; linarith
    · rw [abs_lt]; constructor <;> norm_num <;> linarith
  have hp : B64.round (.fin (7800463371553962 / 4503599627370496 * (7800463371553962 / 4503599627370496))) =
      .fin (6755399441055743 / 2251799813685248) := by
    refine B64.round_fin_of ?_ (big _ (by rw [abs_of_pos (by norm_num)]; norm_num))
    rw [B64.near_eq (e := 1) (n := 6755399441055743) (by norm_num)]
    · norm_num
    · rw [abs_of_pos (by norm_num)]; norm_num
    · rw [abs_of_pos (by norm_num)]; norm_num
    · rw [abs_lt]; constructor <;> norm_num
  have hq : B64.round (.fin (3 / (6755399441055743 / 2251799813685248))) =
      .fin (4503599627370497 / 4503599627370496) := by
    refine B64.round_fin_of ?_ (big _ (by rw [abs_of_pos (by norm_num)]; norm_num))
    rw [B64.near_eq (e := 0) (n := 4503599627370497) (by norm_num)]
    · norm_num
    · rw [abs_of_pos (by norm_num)]; norm_num
    · rw [abs_of_pos (by norm_num)]; norm_num
    · rw [abs_lt]; constructor <;> norm_num
  have hdot : V3.dot (⟨.fin 1, .fin 1, .fin 1⟩ : V3 B64) ⟨.fin 1, .fin 1, .fin 1⟩ = .fin 3 := by
    simp only [V3.dot, B64.mul_fin, mul_one, h1, B64.add_fin]
    rw [show (1 : ℝ) + 1 = 2 by norm_num, h2, B64.add_fin, show (2 : ℝ) + 1 = 3 by norm_num, h3]
  have hn : V3.norm (⟨.fin 1, .fin 1, .fin 1⟩ : V3 B64) = .fin (7800463371553962 / 4503599627370496) := by
    have : V3.sqNorm (⟨.fin 1, .fin 1, .fin 1⟩ : V3 B64) = .fin 3 := hdot
    rw [V3.norm, this, B64.sqrt_fin (by norm_num), hs]
  rw [V3.angle, hdot, hn, B64.mul_fin, hp, B64.div_fin _ (by norm_num), hq]
  show B64.round (Scalar.acos (XR.fin _)) = _
  have : Scalar.acos (XR.fin (4503599627370497 / 4503599627370496)) = XR.nan := by
    show (if _ then _ else _) = _
    rw [if_neg]; norm_num
  rw [this, B64.round_nan]

/-! ## Degenerated entities -/

/-- What is measured to decide whether an entity is degenerated: the length of a direction, of a segment or of a
normal, the lengths of the sides of a triangle, the radius of a ball or disk.  The empty entity is always
degenerated, a point never. -/
noncomputable def Spec.sizes : Entity ℝ → Option (List ℝ)
  | .none => none
  | .point _ => some []
  | .line l => some [length3 l.direction]
  | .ray r => some [length3 r.direction]
  | .plane p => some [length3 p.normal]
  | .segment s => some [dist3 s.v0 s.v1]
  | .triangle t => some [dist3 t.v0 t.v1, dist3 t.v1 t.v2, dist3 t.v2 t.v0]
  | .disk d => some [|d.radius|, length3 d.plane.normal]
  | .ball b => some [|b.radius|]

/-- **C94**: an entity is degenerated exactly when one of its sizes is less than the tolerance. -/
theorem C94_sizes_partial (e : Entity ℝ) (tol : ℝ) :
    e.isDegenerated tol = true ↔ ∀ l, sizes e = some l → ∃ x ∈ l, x < tol := by
  have key : ∀ a : V3 ℝ, Scalar.isApprox (V3.norm a) Scalar.zero tol = decide (length3 a < tol) := by
    intro a
    simp only [Scalar.isApprox, real_lt, real_sub, real_zero, sub_zero, real_abs, ← V3.norm_eq,
      abs_of_nonneg (V3.norm_nonneg a)]
  have key2 : ∀ a b : V3 ℝ, length3 (V3.sub a b) = dist3 a b := by
    intro a b
    rw [← V3.norm_sub, ← V3.norm_eq]
  have key3 : ∀ r : ℝ, Scalar.isApprox r Scalar.zero tol = decide (|r| < tol) := by
    intro r
    simp only [Scalar.isApprox, real_lt, real_sub, real_zero, sub_zero, real_abs]
  rw [show (Scalar.zero : ℝ) = 0 from real_zero] at key key3
  cases e <;>
    simp [Entity.isDegenerated, sizes, Line.isDegenerated, Ray.isDegenerated, Plane.isDegenerated,
      Segment.isDegenerated, Triangle.isDegenerated, Disk.isDegenerated, Ball.isDegenerated, key, key2, key3, or_assoc]

/-- **C94**: a larger tolerance finds the same entities and more. -/
theorem C94_monotone_partial {e : Entity ℝ} {tol tol' : ℝ} (h : tol ≤ tol') (he : e.isDegenerated tol = true) :
    e.isDegenerated tol' = true := by
  rw [C94_sizes_partial] at he ⊢
  intro l hl
  obtain ⟨x, hx, hlt⟩ := he l hl
  exact ⟨x, hx, hlt.trans_le h⟩

/-- **C94**: moving an entity rigidly does not change the answer. -/
theorem C94_moved_partial {F : Affine ℝ} (hF : IsRotation F.linear) (e : Entity ℝ) (tol : ℝ) :
    (e.transform F).isDegenerated tol = e.isDegenerated tol := by
  have hd : ∀ a : V3 ℝ, length3 (M3.mulVec F.linear a) = length3 a := hF.length_mulVec
  have hs : sizes (e.transform F) = sizes e := by
    cases e <;> simp only [Entity.transform, sizes, Line.transform, Ray.transform, Plane.transform, V3.transform,
      Segment.transform, Triangle.transform, Disk.transform, Ball.transform, hd, Affine.dist_apply hF]
  rw [Bool.eq_iff_iff, C94_sizes_partial, C94_sizes_partial, hs]

/-- **C94**, what fails: three different points on one line make a triangle without area or normal, which is not
degenerated for any tolerance up to its shortest side. -/
theorem C94_collinear_refuted :
    ∃ t : Triangle ℝ, t.area = 0 ∧ t.normal = ⟨0, 0, 0⟩ ∧ ¬ NotCollinear t.v0 t.v1 t.v2 ∧
      ∀ tol, tol ≤ 1 → (Entity.triangle t).isDegenerated tol = false := by
  refine ⟨⟨⟨0, 0, 0⟩, ⟨1, 0, 0⟩, ⟨2, 0, 0⟩⟩, ?_, ?_, ?_, ?_⟩
  · simp [Triangle.area, V3.real_cross, V3.real_sub, V3.norm, V3.sqNorm, V3.dot]
  · simp [Triangle.normal, V3.real_cross, V3.real_sub, V3.normalized_zero]
  · rw [NotCollinear, not_not]
    exact ⟨⟨0, 0, 0⟩, ⟨1, 0, 0⟩, 0, 1, 2, by simp [along], by simp [along], by simp [along]⟩
  · intro tol ht
    rw [← Bool.not_eq_true, C94_sizes_partial]
    intro h
    obtain ⟨x, hx, hlt⟩ := h _ rfl
    simp only [dist3, List.mem_cons, List.not_mem_nil, or_false] at hx
    have h2 : (1 : ℝ) ≤ Real.sqrt 4 := Real.le_sqrt_of_sq_le (by norm_num)
    norm_num at hx
    rcases hx with rfl | rfl <;> linarith

/-- **C94**, what fails: a ball of negative radius contains no point, yet is not degenerated. -/
theorem C94_negative_refuted :
    ∃ b : Ball ℝ, (∀ p, ¬ dist3 b.center p ≤ b.radius) ∧
      ∀ tol, tol ≤ 1 → (Entity.ball b).isDegenerated tol = false := by
  refine ⟨⟨-1, ⟨0, 0, 0⟩⟩, fun p h => ?_, fun tol ht => ?_⟩
  · have : 0 ≤ dist3 (⟨0, 0, 0⟩ : V3 ℝ) p := Real.sqrt_nonneg _
    simp only at h; linarith
  · rw [← Bool.not_eq_true, C94_sizes_partial]
    intro h
    obtain ⟨x, hx, hlt⟩ := h _ rfl
    simp only [List.mem_cons, List.not_mem_nil, or_false, abs_neg, abs_one] at hx
    linarith

/-- **C94**: what the test of boxes computes: the corners are in order and the diagonal is at most the tolerance
times the smaller of the distances of the corners from the origin. -/
theorem C94_box_partial (b : Box ℝ) {tol : ℝ} (htol : 0 ≤ tol) :
    b.isDegenerated tol = true ↔
      (b.min.x ≤ b.max.x ∧ b.min.y ≤ b.max.y ∧ b.min.z ≤ b.max.z) ∧
      dist3 b.min b.max ≤ tol * Min.min (length3 b.min) (length3 b.max) := by
  have hsq : ∀ a : V3 ℝ, V3.sqNorm a = length3 a ^ 2 := by
    intro a; rw [← V3.norm_eq, pow_two, V3.norm_mul_self]
  have h0 : ∀ a : V3 ℝ, 0 ≤ length3 a := fun a => Real.sqrt_nonneg _
  have hm : Scalar.min (length3 b.min ^ 2) (length3 b.max ^ 2) = (Min.min (length3 b.min) (length3 b.max)) ^ 2 := by
    simp only [Scalar.min, real_lt]
    rcases le_total (length3 b.min) (length3 b.max) with h | h
    · rw [min_eq_left h]
      split_ifs with h'
      · exact absurd (of_decide_eq_true h') (not_lt.2 (pow_le_pow_left₀ (h0 _) h 2))
      · rfl
    · rw [min_eq_right h]
      split_ifs with h'
      · rfl
      · have h' := not_lt.1 (fun h'' => h' (decide_eq_true h''))
        have := pow_le_pow_left₀ (h0 _) h 2
        linarith
  have hd : V3.sqNorm (V3.sub b.min b.max) = dist3 b.min b.max ^ 2 := by
    rw [hsq, ← V3.norm_eq, V3.norm_sub]
  simp only [Box.isDegenerated, Box.checkMaxMin, V3.isApprox, Bool.and_eq_true, real_le, decide_eq_true_eq, real_mul,
    hd, hsq, hm, and_assoc]
  rw [show tol * tol * (Min.min (length3 b.min) (length3 b.max)) ^ 2 =
    (tol * Min.min (length3 b.min) (length3 b.max)) ^ 2 by ring,
    pow_le_pow_iff_left₀ (show (0 : ℝ) ≤ dist3 b.min b.max from Real.sqrt_nonneg _)
      (mul_nonneg htol (le_min (h0 _) (h0 _))) (by norm_num)]
  tauto

/-- **C94**, what fails: the answer depends on the place of the box.  A cube of side one far from the origin counts
as degenerated, for every positive tolerance; a cube with a corner in the origin never does, however small. -/
theorem C94_box_refuted {tol : ℝ} (htol : 0 < tol) :
    (∃ b : Box ℝ, b.max.x - b.min.x = 1 ∧ b.max.y - b.min.y = 1 ∧ b.max.z - b.min.z = 1 ∧
      b.isDegenerated tol = true) ∧
    ∀ s : ℝ, 0 < s → ∀ b : Box ℝ, b.min = ⟨0, 0, 0⟩ → b.max = ⟨s, s, s⟩ → b.isDegenerated tol = false := by
  constructor
  · have hp : 0 < 2 / tol := by positivity
    refine ⟨⟨⟨2 / tol, 2 / tol, 2 / tol⟩, ⟨2 / tol + 1, 2 / tol + 1, 2 / tol + 1⟩, 0, 0⟩, by simp, by simp, by simp, ?_⟩
    rw [C94_box_partial _ htol.le]
    refine ⟨⟨by simp, by simp, by simp⟩, ?_⟩
    have h1 : dist3 (⟨2 / tol, 2 / tol, 2 / tol⟩ : V3 ℝ) ⟨2 / tol + 1, 2 / tol + 1, 2 / tol + 1⟩ ≤ 2 := by
      unfold dist3
      rw [Real.sqrt_le_left (by norm_num)]
      norm_num
    have h2 : 2 / tol ≤ length3 (⟨2 / tol, 2 / tol, 2 / tol⟩ : V3 ℝ) :=
      Real.le_sqrt_of_sq_le (by nlinarith)
    have h3 : 2 / tol ≤ length3 (⟨2 / tol + 1, 2 / tol + 1, 2 / tol + 1⟩ : V3 ℝ) :=
      Real.le_sqrt_of_sq_le (by simp only; nlinarith)
    calc _ ≤ 2 := h1
      _ = tol * (2 / tol) := by field_simp
      _ ≤ _ := mul_le_mul_of_nonneg_left (le_min h2 h3) htol.le
  · intro s hs b h1 h2
    rw [← Bool.not_eq_true, C94_box_partial _ htol.le, h1, h2]
    rintro ⟨-, h⟩
    have hz : length3 (⟨0, 0, 0⟩ : V3 ℝ) = 0 := by simp [length3]
    rw [hz, min_eq_left (show 0 ≤ length3 _ from Real.sqrt_nonneg _), mul_zero] at h
    have : 0 < dist3 (⟨0, 0, 0⟩ : V3 ℝ) ⟨s, s, s⟩ := Real.sqrt_pos.2 (by simp only; nlinarith)
    linarith

/-- A short segment is degenerated, a long one is not. -/
example : (Entity.segment ⟨⟨0, 0, 0⟩, ⟨1, 0, 0⟩⟩ : Entity ℝ).isDegenerated 2 = true ∧
    (Entity.segment ⟨⟨0, 0, 0⟩, ⟨1, 0, 0⟩⟩ : Entity ℝ).isDegenerated 1 = false := by
  have h : dist3 (⟨0, 0, 0⟩ : V3 ℝ) ⟨1, 0, 0⟩ = 1 := by simp [dist3]
  rw [← Bool.not_eq_true, C94_sizes_partial, C94_sizes_partial]
  simp [sizes, h]

end Enve
