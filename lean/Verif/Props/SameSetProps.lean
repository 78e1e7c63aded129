import Verif.Model.Access
import Verif.Model.Aabb
import Verif.Spec.Entity
import Verif.Lemmas.RealVec
import Verif.Props.EditProps

/-! # C115 (turning an entity round keeps its points) and C116 (what `isApprox` compares) -/

namespace Enve
open Scalar Spec

/-- `normalize`, `reverse` and `swap`: the operations that change the direction, the normal or the order of
the vertices of an entity and nothing else. -/
inductive Spec.Turned : Entity ℝ → Entity ℝ → Prop
  | lineNormalize (l : Line ℝ) : Turned (.line l) (.line l.normalize)
  | lineReverse (l : Line ℝ) : Turned (.line l) (.line l.reverse)
  | rayNormalize (l : Ray ℝ) : Turned (.ray l) (.ray l.normalize)
  | planeNormalize (p : Plane ℝ) : Turned (.plane p) (.plane p.normalize)
  | planeReverse (p : Plane ℝ) : Turned (.plane p) (.plane p.reverse)
  | diskNormalize (d : Disk ℝ) : Turned (.disk d) (.disk d.normalize)
  | diskReverse (d : Disk ℝ) : Turned (.disk d) (.disk d.reverse)
  | segmentSwap (s : Segment ℝ) : Turned (.segment s) (.segment s.swap)
  | triangleSwap (t t' : Triangle ℝ) (i j : Int) (h : t.swap i j = .ok t') : Turned (.triangle t) (.triangle t')

theorem Spec.normalized_scale (a : V3 ℝ) : ∃ k : ℝ, 0 < k ∧
    V3.normalized a = ⟨k * a.x, k * a.y, k * a.z⟩ := by
  by_cases h : a = ⟨0, 0, 0⟩
  · exact ⟨1, one_pos, by rw [V3.normalized_zero h]; simp⟩
  · refine ⟨1 / V3.norm a, one_div_pos.2 (V3.norm_pos.2 h), ?_⟩
    rw [V3.normalized_of_ne h]
    ext <;> simp only <;> ring

theorem Spec.onPlane_scale {o n : V3 ℝ} {k : ℝ} (hk : k ≠ 0) (p : V3 ℝ) :
    OnPlane ⟨o, ⟨k * n.x, k * n.y, k * n.z⟩⟩ p ↔ OnPlane ⟨o, n⟩ p := by
  have e : dot3 (minus p o) ⟨k * n.x, k * n.y, k * n.z⟩ = k * dot3 (minus p o) n := by simp only [dot3]; ring
  rw [OnPlane, OnPlane, e, mul_eq_zero, or_iff_right hk]

theorem Spec.inTriangle_swap01 {a b c p : V3 ℝ} (h : InTriangle a b c p) : InTriangle b a c p := by
  obtain ⟨x, y, z, h0, h1, h2, h3, rfl⟩ := h
  exact ⟨y, x, z, h1, h0, h2, by linarith, by ext <;> simp only <;> ring⟩

theorem Spec.inTriangle_swap02 {a b c p : V3 ℝ} (h : InTriangle a b c p) : InTriangle c b a p := by
  obtain ⟨x, y, z, h0, h1, h2, h3, rfl⟩ := h
  exact ⟨z, y, x, h2, h1, h0, by linarith, by ext <;> simp only <;> ring⟩

theorem Spec.inTriangle_swap12 {a b c p : V3 ℝ} (h : InTriangle a b c p) : InTriangle a c b p := by
  obtain ⟨x, y, z, h0, h1, h2, h3, rfl⟩ := h
  exact ⟨x, z, y, h0, h2, h1, by linarith, by ext <;> simp only <;> ring⟩

/-- The results `triangle::swap` can have: the indices are in range, and the two vertices are exchanged. -/
theorem Triangle.swap_cases {α : Type} {t t' : Triangle α} {i j : Int} (h : t.swap i j = .ok t') :
    (i = j ∧ t' = t) ∨ (i ≠ j ∧ (t' = ⟨t.v1, t.v0, t.v2⟩ ∨ t' = ⟨t.v2, t.v1, t.v0⟩ ∨ t' = ⟨t.v0, t.v2, t.v1⟩)) := by
  have hr (k : Int) : t.raw k = .ok t.v0 ∧ k = 0 ∨ t.raw k = .ok t.v1 ∧ k = 1 ∨ t.raw k = .ok t.v2 ∧ k = 2 ∨
      ∃ m, t.raw k = .ub m := by
    unfold Triangle.raw; split_ifs <;> simp_all
  rcases hr i with ⟨ei, hi⟩ | ⟨ei, hi⟩ | ⟨ei, hi⟩ | ⟨m, ei⟩
  case inr.inr.inr => rw [Triangle.swap, ei] at h; cases h
  all_goals
    rcases hr j with ⟨ej, hj⟩ | ⟨ej, hj⟩ | ⟨ej, hj⟩ | ⟨m, ej⟩
    case inr.inr.inr => rw [Triangle.swap, ei, ej] at h; cases h
    all_goals
      subst hi hj
      cases h
      simp

/-- **C115.**  None of these operations changes which points an entity consists of, however often they are
applied. -/
theorem C115_points {a b : Entity ℝ} (h : Relation.ReflTransGen Turned a b) (p : V3 ℝ) : Has a p ↔ Has b p := by
  induction h with
  | refl => rfl
  | tail _ h ih =>
    rw [ih]
    clear ih
    cases h with
    | lineNormalize l =>
      obtain ⟨k, hk, e⟩ := normalized_scale l.direction
      simp only [Has, OnLine, Line.normalize, e, along]
      constructor
      · rintro ⟨t, rfl⟩; exact ⟨t / k, by ext <;> simp only <;> field_simp⟩
      · rintro ⟨t, rfl⟩; exact ⟨t * k, by ext <;> simp only <;> ring⟩
    | lineReverse l =>
      simp only [Has, OnLine, Line.reverse, V3.real_neg, along]
      constructor <;> (rintro ⟨t, rfl⟩; exact ⟨-t, by ext <;> simp only <;> ring⟩)
    | rayNormalize l =>
      obtain ⟨k, hk, e⟩ := normalized_scale l.direction
      simp only [Has, OnRay, Ray.normalize, e, along]
      constructor
      · rintro ⟨t, ht, rfl⟩; exact ⟨t / k, by positivity, by ext <;> simp only <;> field_simp⟩
      · rintro ⟨t, ht, rfl⟩; exact ⟨t * k, by positivity, by ext <;> simp only <;> ring⟩
    | planeNormalize q =>
      obtain ⟨k, hk, e⟩ := normalized_scale q.normal
      simp only [Has, Plane.normalize, e, onPlane_scale hk.ne']
    | planeReverse q =>
      have e : V3.neg q.normal = ⟨-1 * q.normal.x, -1 * q.normal.y, -1 * q.normal.z⟩ := by
        simp only [V3.real_neg]; ext <;> simp
      simp only [Has, Plane.reverse, e, onPlane_scale (show (-1 : ℝ) ≠ 0 by norm_num)]
    | diskNormalize d =>
      obtain ⟨k, hk, e⟩ := normalized_scale d.plane.normal
      simp only [Has, InDisk, Disk.normalize, Plane.normalize, e, onPlane_scale hk.ne']
    | diskReverse d =>
      have e : V3.neg d.plane.normal = ⟨-1 * d.plane.normal.x, -1 * d.plane.normal.y, -1 * d.plane.normal.z⟩ := by
        simp only [V3.real_neg]; ext <;> simp
      simp only [Has, InDisk, Disk.reverse, Plane.reverse, e, onPlane_scale (show (-1 : ℝ) ≠ 0 by norm_num)]
    | segmentSwap s =>
      simp only [Has, OnSegment, Segment.swap, along, minus]
      constructor <;>
        (rintro ⟨t, h0, h1, rfl⟩; exact ⟨1 - t, by linarith, by linarith, by ext <;> simp only <;> ring⟩)
    | triangleSwap t t' i j h =>
      rcases Triangle.swap_cases h with ⟨_, rfl⟩ | ⟨_, rfl | rfl | rfl⟩
      · rfl
      · exact ⟨inTriangle_swap01, inTriangle_swap01⟩
      · exact ⟨inTriangle_swap02, inTriangle_swap02⟩
      · exact ⟨inTriangle_swap12, inTriangle_swap12⟩

/-- The ray is the exception: reversing it keeps its origin only. -/
theorem C115_ray_reverse (r : Ray ℝ) (hr : r.direction ≠ ⟨0, 0, 0⟩) (p : V3 ℝ) :
    OnRay r p ∧ OnRay r.reverse p ↔ p = r.origin := by
  constructor
  · rintro ⟨⟨t, ht, rfl⟩, s, hs, e⟩
    simp only [along, Ray.reverse, V3.real_neg, V3.mk.injEq] at e
    have hz : t + s = 0 := by
      by_contra h
      apply hr
      ext <;> simp only <;> apply (mul_eq_zero.1 _).resolve_left h <;> linarith [e.1, e.2.1, e.2.2]
    have : t = 0 := by linarith
    subst this
    simp [along]
  · rintro rfl
    exact ⟨⟨0, le_rfl, by simp [along]⟩, 0, le_rfl, by simp [along, Ray.reverse]⟩

/-- **C115, what does change.**  `reverse` turns directions, normals, signed distances and unit vectors into
their opposites, and so does exchanging two vertices with the unit vector of a segment and the normal of a
triangle; after `normalize` a nonzero direction or normal is a unit vector. -/
theorem C115_sense (l : Line ℝ) (r : Ray ℝ) (q : Plane ℝ) (s : Segment ℝ) (t t' : Triangle ℝ) (i j : Int) (p : V3 ℝ) :
    (l.reverse.direction = V3.neg l.direction ∧ l.reverse.toUnitVector = V3.neg l.toUnitVector ∧ l.reverse.reverse = l) ∧
    (r.reverse.direction = V3.neg r.direction ∧ r.reverse.toUnitVector = V3.neg r.toUnitVector ∧ r.reverse.reverse = r) ∧
    (q.reverse.signedDistance p = -q.signedDistance p ∧ q.reverse.distance p = q.distance p ∧ q.reverse.d = -q.d ∧
      q.reverse.unitNormal = V3.neg q.unitNormal ∧ q.reverse.reverse = q) ∧
    (s.swap.toUnitVector = V3.neg s.toUnitVector ∧ s.swap.length = s.length ∧ s.swap.centroid = s.centroid) ∧
    (i ≠ j → t.swap i j = .ok t' → t'.normal = V3.neg t.normal ∧ t'.area = t.area) ∧
    (l.direction ≠ ⟨0, 0, 0⟩ → Unit3 l.normalize.direction) ∧ (r.direction ≠ ⟨0, 0, 0⟩ → Unit3 r.normalize.direction) ∧
    (q.normal ≠ ⟨0, 0, 0⟩ → Unit3 q.normalize.normal) := by
  have nn (a : V3 ℝ) : V3.normalized (V3.neg a) = V3.neg (V3.normalized a) := V3.normalized_neg a
  have nng (a : V3 ℝ) : V3.neg (V3.neg a) = a := by simp only [V3.real_neg]; ext <;> simp
  have ns (a b : V3 ℝ) : V3.sub a b = V3.neg (V3.sub b a) := by simp only [V3.real_neg, V3.real_sub]; ext <;> simp
  have nm (a : V3 ℝ) : V3.norm (V3.neg a) = V3.norm a := by simp only [V3.real_norm, V3.real_neg]; congr 1; ring
  refine ⟨⟨rfl, nn _, ?_⟩, ⟨rfl, nn _, ?_⟩, ⟨?_, ?_, ?_, nn _, ?_⟩, ⟨?_, ?_, ?_⟩, ?_, V3.sq_normalized, V3.sq_normalized,
    V3.sq_normalized⟩
  · simp only [Line.reverse, nng]
  · simp only [Ray.reverse, nng]
  · simp only [Plane.signedDistance, Plane.reverse, V3.real_dot, V3.real_neg]; ring
  · have : q.reverse.signedDistance p = -q.signedDistance p := by
      simp only [Plane.signedDistance, Plane.reverse, V3.real_dot, V3.real_neg]; ring
    simp only [Plane.distance, this, real_abs, abs_neg]
  · simp only [Plane.d, Plane.reverse, V3.real_dot, V3.real_neg, real_neg]; ring
  · simp only [Plane.reverse, nng]
  · rw [Segment.toUnitVector, Segment.toUnitVector, ← nn, ← ns]; rfl
  · rw [Segment.length, Segment.length, ns s.v0 s.v1, nm]; rfl
  · ext <;> simp [Segment.centroid, Segment.swap, V3.sdiv, V3.add] <;> ring
  · intro hij h
    rcases Triangle.swap_cases h with ⟨e, _⟩ | ⟨_, h⟩
    · exact absurd e hij
    · have ec : V3.cross (V3.sub t'.v1 t'.v0) (V3.sub t'.v2 t'.v0) =
          V3.neg (V3.cross (V3.sub t.v1 t.v0) (V3.sub t.v2 t.v0)) := by
        rcases h with rfl | rfl | rfl <;>
          (simp only [V3.real_neg, V3.real_sub, V3.real_cross]; ext <;> simp only <;> ring)
      rw [Triangle.normal, Triangle.area, ec, nn, nm]
      exact ⟨rfl, rfl⟩

/-- **C115, disks.**  `reverse` turns the normal of a disk (and of its plane) into its opposite and keeps centre and radius; twice is
nothing.  After `normalize` a nonzero normal is a unit vector. -/
theorem C115_disk_sense (d : Disk ℝ) (p : V3 ℝ) :
    d.reverse.normal = V3.neg d.normal ∧ d.reverse.center = d.center ∧ d.reverse.radius = d.radius ∧ d.reverse.reverse = d ∧
    d.reverse.plane.signedDistance p = -d.plane.signedDistance p ∧
    d.normalize.center = d.center ∧ d.normalize.radius = d.radius ∧
    (d.normal ≠ ⟨0, 0, 0⟩ → Unit3 d.normalize.normal) := by
  refine ⟨rfl, rfl, rfl, ?_, ?_, rfl, rfl, V3.sq_normalized⟩
  · simp only [Disk.reverse, Plane.reverse, V3.real_neg, neg_neg]
  · simp only [Plane.signedDistance, Disk.reverse, Plane.reverse, V3.real_dot, V3.real_neg]; ring

/-! ## C116: `isApprox` -/

/-- **C116, vectors.**  `isApprox` compares the distance of two points with the tolerance times the smaller of
their distances from the origin of the coordinates. -/
theorem C116_vector (a b : V3 ℝ) (tol : ℝ) :
    V3.isApprox a b tol = true ↔ dist3 a b ≤ |tol| * Min.min (length3 a) (length3 b) := by
  have e : V3.isApprox a b tol = true ↔
      dist3 a b ^ 2 ≤ tol * tol * Min.min (V3.sqNorm a) (V3.sqNorm b) := by
    unfold V3.isApprox
    rw [← V3.norm_mul_self (V3.sub a b), V3.norm_sub]
    simp only [real_le, real_mul, real_min, decide_eq_true_eq, sq]
  have la : 0 ≤ length3 a := Real.sqrt_nonneg _
  have lb : 0 ≤ length3 b := Real.sqrt_nonneg _
  have hm : Min.min (V3.sqNorm a) (V3.sqNorm b) = Min.min (length3 a) (length3 b) ^ 2 := by
    rw [← V3.norm_mul_self a, ← V3.norm_mul_self b, V3.norm_eq, V3.norm_eq, ← sq, ← sq]
    rcases le_total (length3 a) (length3 b) with h | h
    · rw [min_eq_left h, min_eq_left (pow_le_pow_left₀ la h 2)]
    · rw [min_eq_right h, min_eq_right (pow_le_pow_left₀ lb h 2)]
  rw [e, hm, ← pow_two, ← sq_abs tol, ← mul_pow]
  exact pow_le_pow_iff_left₀ (Real.sqrt_nonneg _) (mul_nonneg (abs_nonneg _) (le_min la lb)) two_ne_zero

/-- The two points differ by at most the tolerance, relative to the smaller of their distances from the origin. -/
def Spec.RelClose (tol : ℝ) (a b : V3 ℝ) : Prop := dist3 a b ≤ |tol| * Min.min (length3 a) (length3 b)

/-- **C116, entities.**  `isApprox` of every class compares the members in the same way; radii are compared
absolutely, and strictly. -/
theorem C116_entities (tol : ℝ) :
    (∀ l m : Line ℝ, l.isApprox m tol = true ↔ RelClose tol l.origin m.origin ∧ RelClose tol l.direction m.direction) ∧
    (∀ l m : Ray ℝ, l.isApprox m tol = true ↔ RelClose tol l.origin m.origin ∧ RelClose tol l.direction m.direction) ∧
    (∀ p q : Plane ℝ, p.isApprox q tol = true ↔ RelClose tol p.origin q.origin ∧ RelClose tol p.normal q.normal) ∧
    (∀ s t : Segment ℝ, s.isApprox t tol = true ↔ RelClose tol s.v0 t.v0 ∧ RelClose tol s.v1 t.v1) ∧
    (∀ s t : Triangle ℝ, s.isApprox t tol = true ↔
      RelClose tol s.v0 t.v0 ∧ RelClose tol s.v1 t.v1 ∧ RelClose tol s.v2 t.v2) ∧
    (∀ d e : Disk ℝ, d.isApprox e tol = true ↔
      |d.radius - e.radius| < tol ∧ RelClose tol d.center e.center ∧ RelClose tol d.normal e.normal) ∧
    (∀ b c : Ball ℝ, b.isApprox c tol = true ↔ |b.radius - c.radius| < tol ∧ RelClose tol b.center c.center) ∧
    (∀ b c : Box ℝ, b.isApprox c tol = true ↔ RelClose tol b.min c.min ∧ RelClose tol b.max c.max) := by
  refine ⟨?_, ?_, ?_, ?_, ?_, ?_, ?_, ?_⟩ <;> intro x y <;>
    simp only [Line.isApprox, Ray.isApprox, Plane.isApprox, Segment.isApprox, Triangle.isApprox, Disk.isApprox,
      Ball.isApprox, Box.isApprox, Bool.and_eq_true, C116_vector, RelClose, Scalar.isApprox, real_lt, real_abs,
      real_sub, decide_eq_true_eq, and_assoc, Disk.center, Disk.normal]

/-- **C116, the laws it obeys.**  It holds of two equal points, does not depend on the order of the points, and
holds for every larger tolerance. -/
theorem C116_laws (a b : V3 ℝ) {tol tol' : ℝ} (h0 : 0 ≤ tol) (h : tol ≤ tol') :
    RelClose tol a a ∧ (RelClose tol a b → RelClose tol b a) ∧ (RelClose tol a b → RelClose tol' a b) := by
  have la : 0 ≤ length3 a := Real.sqrt_nonneg _
  have lb : 0 ≤ length3 b := Real.sqrt_nonneg _
  refine ⟨?_, fun hab => ?_, fun hab => hab.trans ?_⟩
  · have : dist3 a a = 0 := by simp [dist3]
    rw [RelClose, this]
    exact mul_nonneg (abs_nonneg _) (le_min la la)
  · have : dist3 b a = dist3 a b := by rw [dist3, dist3]; congr 1; ring
    rw [RelClose, this, min_comm]; exact hab
  · rw [abs_of_nonneg h0, abs_of_nonneg (h0.trans h)]
    exact mul_le_mul_of_nonneg_right h (le_min la lb)

/-- **C116 is false**: whether two points are "almost equal" depends on where the origin is.  However near two points
are and whatever the tolerance, they can fail the comparison and pass it after a common translation; and points
arbitrarily far from each other can pass it. -/
theorem C116_place_refuted {tol : ℝ} (ht : 0 < tol) {δ D : ℝ} (hδ : 0 < δ) :
    (∃ a b v : V3 ℝ, dist3 a b ≤ δ ∧ V3.isApprox a b tol = false ∧ V3.isApprox (V3.add a v) (V3.add b v) tol = true) ∧
    (∃ a b : V3 ℝ, D ≤ dist3 a b ∧ V3.isApprox a b tol = true) := by
  have hx (x : ℝ) : √(x ^ 2) = |x| := Real.sqrt_sq_eq_abs x
  constructor
  · refine ⟨⟨0, 0, 0⟩, ⟨δ, 0, 0⟩, ⟨δ / tol, 0, 0⟩, ?_, ?_, ?_⟩
    · simp [dist3, hx, abs_of_pos hδ]
    · rw [← Bool.not_eq_true, C116_vector]
      simp [dist3, length3, hx, abs_of_pos hδ, hδ, min_eq_left hδ.le]
    · rw [C116_vector]
      have h1 : 0 < δ / tol := by positivity
      simp only [dist3, length3, V3.real_add]
      simp only [zero_add, add_zero, sub_self, ne_eq, OfNat.ofNat_ne_zero, not_false_eq_true, zero_pow, hx]
      rw [show δ / tol - (δ + δ / tol) = -δ by ring, abs_neg, abs_of_pos hδ, abs_of_pos h1, abs_of_pos (show 0 < δ + δ / tol by linarith),
        min_eq_left (by linarith), abs_of_pos ht, mul_div_cancel₀ _ ht.ne']
  · refine ⟨⟨|D| / tol, 0, 0⟩, ⟨|D| / tol + |D|, 0, 0⟩, ?_, ?_⟩
    · simp only [dist3, sub_self, ne_eq, OfNat.ofNat_ne_zero, not_false_eq_true, zero_pow, add_zero, hx]
      rw [show |D| / tol - (|D| / tol + |D|) = -|D| by ring, abs_neg, abs_abs]
      exact le_abs_self D
    · rw [C116_vector]
      have h1 : 0 ≤ |D| / tol := by positivity
      have h2 := abs_nonneg D
      simp only [dist3, length3, sub_self, ne_eq, OfNat.ofNat_ne_zero, not_false_eq_true, zero_pow, add_zero, hx]
      rw [show |D| / tol - (|D| / tol + |D|) = -|D| by ring, abs_neg, abs_abs, abs_of_nonneg h1, abs_of_nonneg (by linarith : 0 ≤ |D| / tol + |D|),
        min_eq_left (by linarith), abs_of_pos ht, mul_div_cancel₀ _ ht.ne']

/-- Nor is it transitive, for any positive tolerance. -/
theorem C116_transitive_refuted {tol : ℝ} (ht : 0 < tol) :
    ∃ a b c : V3 ℝ, V3.isApprox a b tol = true ∧ V3.isApprox b c tol = true ∧ V3.isApprox a c tol = false := by
  have hx (x : ℝ) : √(x ^ 2) = |x| := Real.sqrt_sq_eq_abs x
  have k (x y : ℝ) (h0 : 0 < x) (h : x ≤ y) : V3.isApprox (⟨x, 0, 0⟩ : V3 ℝ) ⟨y, 0, 0⟩ tol = true ↔ y - x ≤ tol * x := by
    rw [C116_vector]
    simp only [dist3, length3, sub_self, ne_eq, OfNat.ofNat_ne_zero, not_false_eq_true, zero_pow, add_zero, hx]
    rw [abs_of_pos h0, abs_of_pos (h0.trans_le h), min_eq_left h, abs_of_pos ht, abs_sub_comm, abs_of_nonneg (sub_nonneg.2 h)]
  refine ⟨⟨1, 0, 0⟩, ⟨1 + tol, 0, 0⟩, ⟨(1 + tol) * (1 + tol), 0, 0⟩, ?_, ?_, ?_⟩
  · rw [k _ _ one_pos (by linarith)]; linarith
  · rw [k _ _ (by linarith) (by nlinarith)]; nlinarith
  · rw [← Bool.not_eq_true, k _ _ one_pos (by nlinarith)]; nlinarith

/-- A disk or ball is not `isApprox` to itself with tolerance zero, although a plane, a line and a segment are. -/
theorem C116_zero_tolerance_refuted (d : Disk ℝ) (b : Ball ℝ) (q : Plane ℝ) (s : Segment ℝ) :
    d.isApprox d 0 = false ∧ b.isApprox b 0 = false ∧ q.isApprox q 0 = true ∧ s.isApprox s 0 = true := by
  have h := C116_entities 0
  have l (a : V3 ℝ) := (C116_laws a a (le_refl (0 : ℝ)) le_rfl).1
  refine ⟨?_, ?_, ?_, ?_⟩
  · rw [← Bool.not_eq_true, h.2.2.2.2.2.1]; simp
  · rw [← Bool.not_eq_true, h.2.2.2.2.2.2.1]; simp
  · rw [h.2.2.1]; exact ⟨l _, l _⟩
  · rw [h.2.2.2.1]; exact ⟨l _, l _⟩

/-- A plane reversed and normalised twice over is reached by three operations; its points stay. -/
example : ∃ q : Plane ℝ, Relation.ReflTransGen Turned (.plane ⟨⟨1, 2, 3⟩, ⟨0, 3, 4⟩⟩) (.plane q) ∧
    (OnPlane q ⟨5, 2, 3⟩ ∧ ¬ OnPlane q ⟨1, 2, 4⟩) := by
  refine ⟨_, ((Relation.ReflTransGen.single (.planeReverse _)).tail (.planeNormalize _)).tail (.planeReverse _), ?_⟩
  have h := C115_points (((Relation.ReflTransGen.single (Turned.planeReverse ⟨⟨1, 2, 3⟩, ⟨0, 3, 4⟩⟩)).tail
    (.planeNormalize _)).tail (.planeReverse _))
  simp only [Has] at h
  rw [← h, ← h]
  norm_num [OnPlane, dot3, minus]

/-- Points that pass and points that fail the comparison. -/
example : RelClose (1 / 2) ⟨2, 0, 0⟩ ⟨3, 0, 0⟩ ∧ ¬ RelClose (1 / 2) ⟨1, 0, 0⟩ ⟨2, 0, 0⟩ := by
  have hx (x : ℝ) : √(x ^ 2) = |x| := Real.sqrt_sq_eq_abs x
  simp only [RelClose, dist3, length3, sub_self, ne_eq, OfNat.ofNat_ne_zero, not_false_eq_true, zero_pow, add_zero, hx]
  norm_num

end Enve
