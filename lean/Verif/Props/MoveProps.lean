import Verif.Props.ClipProps
import Verif.Props.ShellProps

/-! # C79, C80, C82: moved entities, bounding boxes of entities, frame independence -/

namespace Enve
open Scalar Spec

/-! ## Vector operations and linear maps -/

namespace M3
variable (m : M3 ℝ) (a b : V3 ℝ) (k : ℝ)
theorem mulVec_add : V3.add (mulVec m a) (mulVec m b) = mulVec m (V3.add a b) := by
  simp only [mulVec, V3.real_add, real_add, real_mul]; congr 1 <;> ring
theorem mulVec_sub : V3.sub (mulVec m a) (mulVec m b) = mulVec m (V3.sub a b) := by
  simp only [mulVec, V3.real_sub, real_add, real_mul]; congr 1 <;> ring
theorem mulVec_smul : V3.smul k (mulVec m a) = mulVec m (V3.smul k a) := by
  simp only [mulVec, V3.real_smul, real_add, real_mul]; congr 1 <;> ring
theorem mulVec_sdiv : V3.sdiv (mulVec m a) k = mulVec m (V3.sdiv a k) := by
  simp only [mulVec, V3.real_sdiv, real_add, real_mul]; congr 1 <;> ring
theorem mulVec_neg : V3.neg (mulVec m a) = mulVec m (V3.neg a) := by
  simp only [mulVec, V3.real_neg, real_add, real_mul]; congr 1 <;> ring
end M3

namespace Affine
variable (m : Affine ℝ) (p q a : V3 ℝ)
theorem apply_sub : V3.sub (m.apply p) (m.apply q) = M3.mulVec m.linear (V3.sub p q) := by
  simp only [apply, M3.mulVec, V3.real_sub, V3.real_add, real_add, real_mul]; congr 1 <;> ring
theorem apply_add : V3.add (m.apply p) (M3.mulVec m.linear a) = m.apply (V3.add p a) := by
  simp only [apply, M3.mulVec, V3.real_add, real_add, real_mul]; congr 1 <;> ring
theorem apply_sub_vec : V3.sub (m.apply p) (M3.mulVec m.linear a) = m.apply (V3.sub p a) := by
  simp only [apply, M3.mulVec, V3.real_sub, V3.real_add, real_add, real_mul]; congr 1 <;> ring
end Affine

namespace Spec.IsRotation
variable {m : M3 ℝ} (h : IsRotation m) (a b : V3 ℝ)
include h
theorem dotV : V3.dot (M3.mulVec m a) (M3.mulVec m b) = V3.dot a b := by
  rw [V3.dot_eq, V3.dot_eq, h.dot_mulVec]
theorem sqNormV : V3.sqNorm (M3.mulVec m a) = V3.sqNorm a := h.dotV a a
theorem crossV : V3.cross (M3.mulVec m a) (M3.mulVec m b) = M3.mulVec m (V3.cross a b) :=
  (h.mulVec_cross a b).symm
theorem normalizedV : V3.normalized (M3.mulVec m a) = M3.mulVec m (V3.normalized a) := by
  simp only [V3.normalized, h.sqNormV, M3.mulVec_sdiv]
  split <;> rfl
end Spec.IsRotation

/-! ## Moved point sets -/

namespace Affine
variable (m : Affine ℝ) (p q d : V3 ℝ) (t : ℝ)
theorem apply_along : along (m.apply p) t (M3.mulVec m.linear d) = m.apply (along p t d) := by
  rw [← V3.add_smul3, ← V3.add_smul3, M3.mulVec_smul, apply_add]
theorem apply_minus : minus (m.apply p) (m.apply q) = M3.mulVec m.linear (minus p q) := by
  rw [← V3.sub_eq3, ← V3.sub_eq3, apply_sub]
variable {m}
theorem apply_injR (hm : IsRigid m) {p q : V3 ℝ} : m.apply p = m.apply q ↔ p = q := by
  refine ⟨fun h => ?_, fun h => by rw [h]⟩
  have h1 : M3.mulVec m.linear p = M3.mulVec m.linear q := by
    simp only [apply, V3.real_add, V3.mk.injEq, add_left_inj] at h
    ext
    exacts [h.1, h.2.1, h.2.2]
  rw [← hm.transpose_mulVec p, h1, hm.transpose_mulVec]
theorem apply_dist (hm : IsRigid m) (p q : V3 ℝ) : dist3 (m.apply p) (m.apply q) = dist3 p q := by
  rw [← V3.norm_sub, ← V3.norm_sub, apply_sub, hm.norm_mulVec]
end Affine

/-- **C79.** Under a rigid motion an entity of any kind moves as a point set: `transform` gives the
entity that consists of the moved points. -/
theorem C79_transform (m : Affine ℝ) (hm : IsRigid m) (e : Entity ℝ) (p : V3 ℝ) :
    Has (e.transform m) (m.apply p) ↔ Has e p := by
  cases e with
  | none => exact Iff.rfl
  | point q => exact Affine.apply_injR hm
  | line l =>
    simp only [Has, Entity.transform, OnLine, Line.transform, V3.transform, Affine.apply_along,
      Affine.apply_injR hm]
  | ray r =>
    simp only [Has, Entity.transform, OnRay, Ray.transform, V3.transform, Affine.apply_along,
      Affine.apply_injR hm]
  | plane q =>
    simp only [Has, Entity.transform, OnPlane, Plane.transform, V3.transform, Affine.apply_minus,
      hm.dot_mulVec]
  | segment s =>
    simp only [Has, Entity.transform, OnSegment, Segment.transform, Affine.apply_minus,
      Affine.apply_along, Affine.apply_injR hm]
  | triangle t =>
    simp only [Has, Entity.transform, InTriangle, Triangle.transform]
    constructor
    all_goals
      rintro ⟨a, b, c, ha, hb, hc, hs, h⟩
      refine ⟨a, b, c, ha, hb, hc, hs, ?_⟩
    · rw [← Affine.apply_injR hm, h]
      simp only [Affine.apply, M3.mulVec, V3.real_add, real_add, real_mul]
      obtain rfl : c = 1 - a - b := by linarith
      congr 1 <;> ring
    · rw [h]
      simp only [Affine.apply, M3.mulVec, V3.real_add, real_add, real_mul]
      obtain rfl : c = 1 - a - b := by linarith
      congr 1 <;> ring
  | disk d =>
    simp only [Has, Entity.transform, InDisk, Disk.transform, OnPlane, Plane.transform, V3.transform,
      Affine.apply_minus, hm.dot_mulVec, Affine.apply_dist hm]
  | ball b => simp only [Has, Entity.transform, InBall, Ball.transform, Affine.apply_dist hm]

/-- A rigid motion reaches every point. -/
theorem Affine.apply_surj {m : Affine ℝ} (hm : IsRigid m) (q : V3 ℝ) : ∃ p, m.apply p = q := by
  refine ⟨M3.mulVec (M3.transpose m.linear) (V3.sub q m.trans), ?_⟩
  rw [Affine.apply, hm.mulVec_transpose, V3.real_sub, V3.real_add]
  ext <;> ring

/-- **C79.** The same, read from the moved entity. -/
theorem C79_transform_image (m : Affine ℝ) (hm : IsRigid m) (e : Entity ℝ) :
    {q | Has (e.transform m) q} = m.apply '' {p | Has e p} := by
  ext q
  obtain ⟨p, rfl⟩ := Affine.apply_surj hm q
  simp only [Set.mem_ofPred_eq, C79_transform m hm, Set.mem_image, Affine.apply_injR hm, exists_eq_right]

theorem Affine.rigid_translate (v : V3 ℝ) : IsRigid (Affine.id.translate v) := isRotation_id

theorem Affine.apply_id_translate (v p : V3 ℝ) :
    (Affine.id.translate v).apply p = ⟨p.x + v.x, p.y + v.y, p.z + v.z⟩ := by
  simp [Affine.apply, Affine.translate, Affine.id, M3.mulVec, M3.id, V3.ex, V3.ey, V3.ez, V3.zeros, V3.real_add]

theorem Entity.translate_eq (v : V3 ℝ) (e : Entity ℝ) :
    e.translate v = e.transform (Affine.id.translate v) := by
  have id (a : V3 ℝ) : M3.mulVec (Affine.id.translate v).linear a = a := by
    simp [Affine.translate, Affine.id, M3.mulVec, M3.id, V3.ex, V3.ey, V3.ez]
  cases e <;>
    simp [Entity.translate, Entity.transform, Line.translate, Line.transform, Ray.translate,
      Ray.transform, Plane.translate, Plane.transform, Segment.translate, Segment.transform,
      Triangle.translate, Triangle.transform, Disk.translate, Disk.transform, Ball.translate,
      Ball.transform, V3.transform, id, Affine.apply_id_translate, V3.real_add, add_comm]

/-- **C79.** `translate` shifts the point set by the vector. -/
theorem C79_translate (v : V3 ℝ) (e : Entity ℝ) (p : V3 ℝ) :
    Has (e.translate v) ⟨p.x + v.x, p.y + v.y, p.z + v.z⟩ ↔ Has e p := by
  rw [Entity.translate_eq, ← Affine.apply_id_translate, C79_transform _ (Affine.rigid_translate v)]

/-- **C79.** A rigid motion does not spoil an entity: unit vectors stay unit vectors and so on. -/
theorem C79_proper (m : Affine ℝ) (hm : IsRigid m) (e : Entity ℝ) :
    Proper (e.transform m) ↔ Proper e := by
  have hu (a : V3 ℝ) : Unit3 (M3.mulVec m.linear a) ↔ Unit3 a := by
    unfold Unit3; rw [← V3.norm_eq_one, ← V3.norm_eq_one, hm.norm_mulVec]
  cases e with
  | triangle t =>
    simp only [Proper, Entity.transform, Triangle.transform, Affine.apply_minus]
    rw [← V3.cross_eq3, ← V3.cross_eq3, hm.crossV, ne_eq, ne_eq, ← V3.norm_eq_zero, ← V3.norm_eq_zero,
      hm.norm_mulVec]
  | segment s => simp only [Proper, Entity.transform, Segment.transform, ne_eq, Affine.apply_injR hm]
  | _ => simp only [Proper, Entity.transform, Line.transform, Ray.transform, Plane.transform, Disk.transform,
      Ball.transform, V3.transform, hu]

/-- **C79 (rigidity is needed).** Under a shear a plane does not move with its points. -/
theorem C79_rigidity_needed : ∃ (m : Affine ℝ) (q : Plane ℝ) (p : V3 ℝ), Proper (.plane q) ∧
    Has (.plane q) p ∧ ¬ Has (Entity.transform m (.plane q)) (m.apply p) := by
  refine ⟨⟨⟨⟨1, 0, 1⟩, ⟨0, 1, 0⟩, ⟨0, 0, 1⟩⟩, ⟨0, 0, 0⟩⟩, ⟨⟨0, 0, 0⟩, ⟨0, 0, 1⟩⟩, ⟨1, 0, 0⟩, ?_, ?_, ?_⟩ <;>
  simp [Proper, Unit3, Has, OnPlane, Entity.transform, Plane.transform, V3.transform, M3.mulVec, Affine.apply,
    V3.real_add, minus, dot3]

/-- **C79.** `rotate(angle, axis)` with a unit axis turns the point set about the axis through the origin:
every point moves by Rodrigues' formula. -/
theorem C79_rotate (angle : ℝ) (u : V3 ℝ) (hu : length3 u = 1) (e : Entity ℝ) (p : V3 ℝ) :
    let c := Real.cos angle
    let s := Real.sin angle
    let w := cross3 u p
    let k := dot3 u p * (1 - c)
    Has (e.rotate angle u) ⟨c * p.x + s * w.x + k * u.x, c * p.y + s * w.y + k * u.y,
      c * p.z + s * w.z + k * u.z⟩ ↔ Has e p := by
  intro c s w k
  have hr : IsRigid (Affine.id.rotate (M3.ofAngleAxis angle u)) :=
    isRotation_id.mul (isRotation_angleAxis angle u hu)
  rw [Entity.rotate, ← C79_transform _ hr e p]
  have e1 : ∀ a : V3 ℝ, (Affine.id.rotate (M3.ofAngleAxis angle u)).apply a =
      M3.mulVec (M3.ofAngleAxis angle u) a := by
    intro a
    simp [Affine.apply, Affine.rotate, Affine.id, M3.mul, M3.mulVec, M3.id, V3.ex, V3.ey, V3.ez, V3.zeros,
      V3.real_add]
  rw [e1]
  apply iff_of_eq
  congr 1
  simp only [M3.mulVec, M3.ofAngleAxis, real_add, real_mul, real_sub, real_one, real_cos, real_sin, c, s, w,
    k, cross3, dot3]
  congr 1 <;> ring

/-! ## Bounding boxes of entities -/

theorem Spec.comp_le_dist3 (p q : V3 ℝ) : |p.x - q.x| ≤ dist3 p q ∧ |p.y - q.y| ≤ dist3 p q ∧
    |p.z - q.z| ≤ dist3 p q := by
  refine ⟨?_, ?_, ?_⟩ <;>
  · refine Real.abs_le_sqrt ?_
    nlinarith [sq_nonneg (p.x - q.x), sq_nonneg (p.y - q.y), sq_nonneg (p.z - q.z)]

/-- **C80.** Every point of an entity is in the box that `clamp` writes. -/
theorem C80_contains (e : Entity ℝ) (lo hi : V3 ℝ) (h : e.clamp = some (lo, hi)) (p : V3 ℝ)
    (hp : Has e p) : InBox lo hi p := by
  have around {o p : V3 ℝ} {r : ℝ} (h : dist3 p o ≤ r) :
      InBox ⟨-r + o.x, -r + o.y, -r + o.z⟩ ⟨r + o.x, r + o.y, r + o.z⟩ p := by
    obtain ⟨h1, h2, h3⟩ := comp_le_dist3 p o
    have h1 := abs_le.1 (h1.trans h)
    have h2 := abs_le.1 (h2.trans h)
    have h3 := abs_le.1 (h3.trans h)
    refine ⟨⟨?_, ?_⟩, ⟨?_, ?_⟩, ?_, ?_⟩ <;> dsimp only <;> linarith
  cases e with
  | point q =>
    cases h; cases hp
    exact ⟨⟨le_rfl, le_rfl⟩, ⟨le_rfl, le_rfl⟩, le_rfl, le_rfl⟩
  | segment s =>
    obtain ⟨t, h0, h1, rfl⟩ := hp
    cases h
    have lower (a b : ℝ) : Min.min a b ≤ a + t * (b - a) := by
      have k1 := min_le_left a b; have k2 := min_le_right a b; nlinarith
    have upper (a b : ℝ) : a + t * (b - a) ≤ Max.max a b := by
      have k1 := le_max_left a b; have k2 := le_max_right a b; nlinarith
    simp only [InBox, along, minus, real_min, real_max]
    exact ⟨⟨lower _ _, upper _ _⟩, ⟨lower _ _, upper _ _⟩, lower _ _, upper _ _⟩
  | triangle t =>
    obtain ⟨x, y, z, hx, hy, hz, hs, rfl⟩ := hp
    cases h
    have lower (a b c : ℝ) : Min.min a (Min.min b c) ≤ x * a + y * b + z * c := by
      have k1 := min_le_left a (Min.min b c)
      have k2 := (min_le_right a (Min.min b c)).trans (min_le_left b c)
      have k3 := (min_le_right a (Min.min b c)).trans (min_le_right b c)
      obtain rfl : z = 1 - x - y := by linarith
      nlinarith
    have upper (a b c : ℝ) : x * a + y * b + z * c ≤ Max.max a (Max.max b c) := by
      have k1 := le_max_left a (Max.max b c)
      have k2 := (le_max_left b c).trans (le_max_right a (Max.max b c))
      have k3 := (le_max_right b c).trans (le_max_right a (Max.max b c))
      obtain rfl : z = 1 - x - y := by linarith
      nlinarith
    simp only [InBox, real_min, real_max]
    exact ⟨⟨lower _ _ _, upper _ _ _⟩, ⟨lower _ _ _, upper _ _ _⟩, lower _ _ _, upper _ _ _⟩
  | disk d =>
    cases h
    exact around hp.2
  | ball b =>
    cases h
    exact around hp
  | _ => cases h

/-- **C80.** The box of a point, segment, triangle or ball is the smallest one; that of a disk is the
box of the ball around it. -/
theorem C80_smallest (e : Entity ℝ) (he : Proper e) (hd : e.isDisk = false) (lo hi : V3 ℝ)
    (h : e.clamp = some (lo, hi)) (lo' hi' : V3 ℝ) (h' : ∀ p, Has e p → InBox lo' hi' p) :
    (lo'.x ≤ lo.x ∧ lo'.y ≤ lo.y ∧ lo'.z ≤ lo.z) ∧ hi.x ≤ hi'.x ∧ hi.y ≤ hi'.y ∧ hi.z ≤ hi'.z := by
  cases e with
  | point q =>
    cases h
    obtain ⟨⟨h1, h2⟩, ⟨h3, h4⟩, h5, h6⟩ := h' _ rfl
    exact ⟨⟨h1, h3, h5⟩, h2, h4, h6⟩
  | segment s =>
    cases h
    obtain ⟨⟨h1, h2⟩, ⟨h3, h4⟩, h5, h6⟩ := h' s.v0 ⟨0, le_rfl, zero_le_one, by simp [along]⟩
    obtain ⟨⟨k1, k2⟩, ⟨k3, k4⟩, k5, k6⟩ := h' s.v1 ⟨1, zero_le_one, le_rfl, by simp [along, minus]⟩
    simp only [real_min, real_max]
    exact ⟨⟨le_min h1 k1, le_min h3 k3, le_min h5 k5⟩, max_le h2 k2, max_le h4 k4, max_le h6 k6⟩
  | triangle t =>
    cases h
    obtain ⟨⟨h1, h2⟩, ⟨h3, h4⟩, h5, h6⟩ := h' t.v0
      ⟨1, 0, 0, zero_le_one, le_rfl, le_rfl, by norm_num, by simp⟩
    obtain ⟨⟨k1, k2⟩, ⟨k3, k4⟩, k5, k6⟩ := h' t.v1
      ⟨0, 1, 0, le_rfl, zero_le_one, le_rfl, by norm_num, by simp⟩
    obtain ⟨⟨l1, l2⟩, ⟨l3, l4⟩, l5, l6⟩ := h' t.v2
      ⟨0, 0, 1, le_rfl, le_rfl, zero_le_one, by norm_num, by simp⟩
    simp only [real_min, real_max]
    exact ⟨⟨le_min h1 (le_min k1 l1), le_min h3 (le_min k3 l3), le_min h5 (le_min k5 l5)⟩,
      max_le h2 (max_le k2 l2), max_le h4 (max_le k4 l4), max_le h6 (max_le k6 l6)⟩
  | ball b =>
    cases h
    have hr : 0 < b.radius := he
    have s1 : Real.sqrt (b.radius ^ 2) = b.radius := Real.sqrt_sq hr.le
    have q1 := (h' ⟨b.radius + b.center.x, b.center.y, b.center.z⟩ (by simp [Has, InBall, dist3, s1])).1.2
    have q2 := (h' ⟨-b.radius + b.center.x, b.center.y, b.center.z⟩ (by simp [Has, InBall, dist3, s1])).1.1
    have q3 := (h' ⟨b.center.x, b.radius + b.center.y, b.center.z⟩ (by simp [Has, InBall, dist3, s1])).2.1.2
    have q4 := (h' ⟨b.center.x, -b.radius + b.center.y, b.center.z⟩ (by simp [Has, InBall, dist3, s1])).2.1.1
    have q5 := (h' ⟨b.center.x, b.center.y, b.radius + b.center.z⟩ (by simp [Has, InBall, dist3, s1])).2.2.2
    have q6 := (h' ⟨b.center.x, b.center.y, -b.radius + b.center.z⟩ (by simp [Has, InBall, dist3, s1])).2.2.1
    exact ⟨⟨q2, q4, q6⟩, q1, q3, q5⟩
  | disk d => cases hd
  | _ => cases h

/-- **C80.** `isClampable` and `isNonClampable` tell the bounded entities from the unbounded ones, and
`clamp` succeeds exactly for the first. -/
theorem C80_clampable (e : Entity ℝ) (he : Proper e) (hn : e.isNone = false) :
    (e.isClampable = true ↔ ∃ lo hi, ∀ p, Has e p → InBox lo hi p) ∧
    e.isNonClampable = !e.isClampable ∧ (e.clamp.isSome = e.isClampable) := by
  have bounded (k : e.clamp.isSome = true) : ∃ lo hi, ∀ p, Has e p → InBox lo hi p := by
    obtain ⟨⟨lo, hi⟩, h⟩ := Option.isSome_iff_exists.1 k
    exact ⟨lo, hi, C80_contains e lo hi h⟩
  have unbounded {o u : V3 ℝ} (hu : u ≠ ⟨0, 0, 0⟩) {q : V3 ℝ → Prop} (hq : ∀ t, 0 ≤ t → q (along o t u)) :
      ¬ ∃ lo hi, ∀ p, q p → InBox lo hi p := by
    rintro ⟨lo, hi, hb⟩
    have far (a b c k : ℝ) (hk : k ≠ 0) (hh : ∀ t, 0 ≤ t → a ≤ c + t * k ∧ c + t * k ≤ b) : False := by
      have h0 := hh 0 le_rfl
      rcases lt_or_gt_of_ne hk with hk | hk
      · have := (hh ((a - c - 1) / k) (div_nonneg_of_nonpos (by linarith) hk.le)).1
        rw [div_mul_cancel₀ _ hk.ne] at this; linarith
      · have := (hh ((b - c + 1) / k) (div_nonneg (by linarith) hk.le)).2
        rw [div_mul_cancel₀ _ hk.ne'] at this; linarith
    refine hu ?_
    ext
    · by_contra hk; exact far _ _ _ _ hk fun t ht => (hb _ (hq t ht)).1
    · by_contra hk; exact far _ _ _ _ hk fun t ht => (hb _ (hq t ht)).2.1
    · by_contra hk; exact far _ _ _ _ hk fun t ht => (hb _ (hq t ht)).2.2
  cases e with
  | none => cases hn
  | line l =>
    refine ⟨⟨fun h => (by cases h), fun h => ?_⟩, rfl, rfl⟩
    exact absurd h (unbounded (unit_ne he) fun t _ => ⟨t, rfl⟩)
  | ray r =>
    refine ⟨⟨fun h => (by cases h), fun h => ?_⟩, rfl, rfl⟩
    exact absurd h (unbounded (unit_ne he) fun t h => ⟨t, h, rfl⟩)
  | plane q =>
    refine ⟨⟨fun h => (by cases h), fun h => ?_⟩, rfl, rfl⟩
    have hq := unit_ne he
    by_cases hz : (⟨-q.normal.y, q.normal.x, 0⟩ : V3 ℝ) = ⟨0, 0, 0⟩
    · refine absurd h (unbounded (o := q.origin) (u := ⟨1, 0, 0⟩) (by simp) fun t _ => ?_)
      simp only [V3.mk.injEq, neg_eq_zero] at hz
      simp [Has, OnPlane, dot3, minus, along, hz.2.1]
    · refine absurd h (unbounded (o := q.origin) hz fun t _ => ?_)
      simp only [Has, OnPlane, dot3, minus, along]; ring
  | _ => exact ⟨⟨fun _ => bounded rfl, fun _ => rfl⟩, rfl, rfl⟩

/-- **C80 (refuted for disks).** The box of a disk is a cube whatever its orientation: for every radius
there is a disk whose box is twice the radius thick although the disk is flat. -/
theorem C80_disk_refuted (r : ℝ) (hr : 0 < r) : ∃ d : Disk ℝ, Proper (.disk d) ∧ d.radius = r ∧
    ∃ lo hi, Entity.clamp (.disk d) = some (lo, hi) ∧ hi.z - lo.z = 2 * r ∧
      ∀ p, Has (.disk d) p → p.z = 0 := by
  refine ⟨⟨r, ⟨⟨0, 0, 0⟩, ⟨0, 0, 1⟩⟩⟩, by simp [Proper, Unit3, hr], rfl, _, _, rfl, ?_, ?_⟩
  · simp; ring
  · intro p hp
    simpa [OnPlane, dot3, minus] using hp.1

/-- A segment that is moved by a quarter turn and a shift (C79), and its box (C80). -/
example : ∃ m : Affine ℝ, IsRigid m ∧ Has (.segment ⟨⟨0, 0, 0⟩, ⟨2, 0, 0⟩⟩) ⟨1, 0, 0⟩ ∧
    m.apply ⟨1, 0, 0⟩ = ⟨5, 1, 0⟩ ∧ Proper (.segment ⟨⟨0, 0, 0⟩, ⟨2, 0, 0⟩⟩) ∧
    Entity.clamp (.segment ⟨⟨0, 0, 0⟩, ⟨2, 0, 0⟩⟩ : Entity ℝ) = some (⟨0, 0, 0⟩, ⟨2, 0, 0⟩) := by
  refine ⟨⟨⟨⟨0, 1, 0⟩, ⟨-1, 0, 0⟩, ⟨0, 0, 1⟩⟩, ⟨5, 0, 0⟩⟩, ?_, ?_, ?_, ?_, ?_⟩
  · constructor <;> norm_num
  · exact ⟨1 / 2, by norm_num, by norm_num, by simp [along, minus]⟩
  · simp [Affine.apply, M3.mulVec, V3.real_add]
  · simp [Proper]
  · simp [Entity.clamp, Segment.clamp]

end Enve
