import Verif.Props.BallProps

/-! # A point and an entity -/

namespace Enve
open Scalar Spec

theorem Spec.le_all {a : ℝ} : (∀ tol > 0, a ≤ tol) ↔ a ≤ 0 :=
  ⟨fun h => le_of_forall_pos_le_add fun e he => by linarith [h e he], fun h t ht => by linarith⟩

theorem Spec.lt_all {a : ℝ} : (∀ tol > 0, a < tol) ↔ a ≤ 0 :=
  ⟨fun h => le_all.1 fun t ht => (h t ht).le, fun h t ht => by linarith⟩

theorem V3.isApprox_all {a b : V3 ℝ} : (∀ tol > 0, V3.isApprox a b tol = true) ↔ a = b := by
  have e (tol : ℝ) : V3.isApprox a b tol = true ↔
      dist3 a b ^ 2 ≤ tol * tol * Min.min (V3.sqNorm a) (V3.sqNorm b) := by
    unfold V3.isApprox
    rw [← V3.norm_mul_self (V3.sub a b), V3.norm_sub]
    simp only [real_le, real_mul, real_min, decide_eq_true_eq, sq]
  simp only [e]
  constructor
  · intro h
    rw [← dist3_eq_zero]
    by_contra h0
    have hp : 0 < dist3 a b ^ 2 := by positivity
    have hm : 0 ≤ Min.min (V3.sqNorm a) (V3.sqNorm b) := le_min (V3.sqNorm_nonneg a) (V3.sqNorm_nonneg b)
    generalize Min.min (V3.sqNorm a) (V3.sqNorm b) = m at *
    generalize dist3 a b = x at *
    have hx : 0 < x ^ 2 / (2 * (m + 1)) := by positivity
    have h1 := h (√(x ^ 2 / (2 * (m + 1)))) (Real.sqrt_pos.2 hx)
    rw [Real.mul_self_sqrt hx.le, div_mul_eq_mul_div, le_div_iff₀ (by positivity)] at h1
    nlinarith
  · rintro rfl tol ht
    rw [dist3_eq_zero.2 rfl]
    have := V3.sqNorm_nonneg a
    rw [min_self]
    nlinarith [mul_nonneg (mul_self_nonneg tol) this]

theorem Spec.isApprox_norm_all {a b : V3 ℝ} :
    (∀ tol > 0, Scalar.isApprox (V3.norm (V3.cross a b)) zero tol = true) ↔ cross3 a b = ⟨0, 0, 0⟩ :=
  Rel.parV_all

theorem Spec.cross3_unit3_left (w d : V3 ℝ) :
    cross3 (unit3 w) d = ⟨0, 0, 0⟩ ↔ cross3 w d = ⟨0, 0, 0⟩ := by
  by_cases h : w = ⟨0, 0, 0⟩
  · rw [h]; simp [cross3, unit3]
  · exact cross3_unit_left h

theorem Spec.onLine_cross {l : Line ℝ} (hl : Unit3 l.direction) (p : V3 ℝ) :
    OnLine l p ↔ cross3 (minus p l.origin) l.direction = ⟨0, 0, 0⟩ := by
  constructor
  · rintro ⟨t, rfl⟩
    simp only [cross3, minus, along]; congr 1 <;> ring
  · intro h
    have := cross3_dir hl h
    generalize dot3 (minus p l.origin) l.direction = k at this
    simp only [minus, V3.mk.injEq] at this
    exact ⟨k, by ext <;> simp only [along] <;> linarith [this.1, this.2.1, this.2.2]⟩

theorem Line.isInside_all {l : Line ℝ} (hl : Unit3 l.direction) (p : V3 ℝ) :
    (∀ tol > 0, l.isInside p tol = true) ↔ OnLine l p := by
  unfold Line.isInside
  rw [isApprox_norm_all, V3.normalized_eq3, V3.sub_eq3, cross3_unit3_left, onLine_cross hl]

theorem Ray.isInside_all {r : Ray ℝ} (hr : Unit3 r.direction) (p : V3 ℝ) :
    (∀ tol > 0, r.isInside p tol = true) ↔ OnRay r p := by
  have hd : (zero <=. V3.dot (unit3 (minus p r.origin)) r.direction : Bool) = true ↔
      0 ≤ dot3 (minus p r.origin) r.direction := by
    rw [V3.dot_eq, real_le, real_zero, decide_eq_true_eq]
    by_cases h : minus p r.origin = ⟨0, 0, 0⟩
    · rw [h]; simp [unit3, dot3]
    · have h0 : 0 < length3 (minus p r.origin) := by rw [← V3.norm_eq]; exact V3.norm_pos.2 h
      have : dot3 (unit3 (minus p r.origin)) r.direction =
          dot3 (minus p r.origin) r.direction / length3 (minus p r.origin) := by
        simp only [unit3, dot3]; ring
      rw [this]
      exact ⟨fun h => by by_contra hc; exact absurd h (not_le.2 (div_neg_of_neg_of_pos (not_le.1 hc) h0)),
        fun h => div_nonneg h h0.le⟩
  unfold Ray.isInside
  rw [V3.normalized_eq3, V3.sub_eq3]
  dsimp only
  rw [Rel.and_all, isApprox_norm_all, cross3_unit3_left, hd]
  constructor
  · rintro ⟨h1, h2⟩
    have := cross3_dir hr h1
    have h2 := h2 1 one_pos
    generalize dot3 (minus p r.origin) r.direction = k at this h2
    simp only [minus, V3.mk.injEq] at this
    exact ⟨k, h2, by ext <;> simp only [along] <;> linarith [this.1, this.2.1, this.2.2]⟩
  · rintro ⟨t, ht, rfl⟩
    refine ⟨by simp only [cross3, minus, along]; congr 1 <;> ring, fun _ _ => ?_⟩
    have : dot3 (minus (along r.origin t r.direction) r.origin) r.direction = t := by
      unfold Unit3 at hr
      simp only [dot3, minus, along]; linear_combination t * hr
    rw [this]; exact ht

/-- A point is on a segment exactly when its distances to the ends add up to the length. -/
theorem Spec.onSegment_iff {s : Segment ℝ} (hs : s.v0 ≠ s.v1) (p : V3 ℝ) :
    OnSegment s p ↔ dist3 s.v0 s.v1 = dist3 p s.v0 + dist3 p s.v1 := by
  have e01 := dist3_sq s.v0 s.v1
  have e0 := dist3_sq p s.v0
  have e1 := dist3_sq p s.v1
  have hL : 0 < dist3 s.v0 s.v1 :=
    lt_of_le_of_ne (dist3_nonneg _ _) fun h => hs (dist3_eq_zero.1 h.symm)
  have h0 := dist3_nonneg p s.v0
  have h1 := dist3_nonneg p s.v1
  constructor
  · rintro ⟨t, ht0, ht1, rfl⟩
    have a0 : dist3 (along s.v0 t (minus s.v1 s.v0)) s.v0 = t * dist3 s.v0 s.v1 := by
      rw [← sq_eq_sq₀ (dist3_nonneg _ _) (by positivity), mul_pow, e01, dist3_sq]
      simp only [along, minus]; ring
    have a1 : dist3 (along s.v0 t (minus s.v1 s.v0)) s.v1 = (1 - t) * dist3 s.v0 s.v1 := by
      rw [← sq_eq_sq₀ (dist3_nonneg _ _) (mul_nonneg (by linarith) hL.le), mul_pow, e01, dist3_sq]
      simp only [along, minus]; ring
    rw [a0, a1]; ring
  · intro h
    refine ⟨dist3 p s.v0 / dist3 s.v0 s.v1, by positivity, (div_le_one hL).2 (by linarith), ?_⟩
    rw [← dist3_eq_zero, ← sq_eq_zero_iff]
    have hdot : 2 * dot3 (minus p s.v0) (minus s.v1 s.v0) = 2 * dist3 s.v0 s.v1 * dist3 p s.v0 := by
      have h3 : dist3 p s.v1 = dist3 s.v0 s.v1 - dist3 p s.v0 := by linarith
      rw [h3] at e1
      simp only [dot3, minus]
      linear_combination e1 - e01 - e0
    generalize hT : dist3 p s.v0 / dist3 s.v0 s.v1 = t
    have ht : t * dist3 s.v0 s.v1 = dist3 p s.v0 := by rw [← hT]; field_simp
    rw [dist3_sq]
    simp only [dot3, minus] at hdot
    simp only [along, minus]
    have e2 : (dist3 p s.v0 - t * dist3 s.v0 s.v1) ^ 2 = 0 := by rw [ht]; ring
    linear_combination e2 - e0 - t ^ 2 * e01 - t * hdot

theorem Segment.isInside_all {s : Segment ℝ} (hs : s.v0 ≠ s.v1) (p : V3 ℝ) :
    (∀ tol > 0, s.isInside p tol = true) ↔ OnSegment s p := by
  rw [onSegment_iff hs]
  unfold Segment.isInside Segment.length
  simp only [V3.norm_sub, real_sub, real_abs, real_le, decide_eq_true_eq]
  rw [le_all, abs_nonpos_iff]
  constructor <;> intro h <;> linarith

theorem Plane.isInside_all (q : Plane ℝ) (p : V3 ℝ) :
    (∀ tol > 0, q.isInside p tol = true) ↔ OnPlane q p := by
  unfold Plane.isInside Plane.distance Plane.signedDistance OnPlane
  simp only [real_lt, real_abs, decide_eq_true_eq, V3.sub_eq3, V3.dot_eq]
  rw [lt_all, abs_nonpos_iff]

theorem Disk.isInside_all (d : Disk ℝ) (p : V3 ℝ) :
    (∀ tol > 0, d.isInside p tol = true) ↔ InDisk d p := by
  unfold Disk.isInside InDisk
  rw [Rel.and_all, Plane.isInside_all]
  simp only [V3.norm_sub, real_le, decide_eq_true_eq, dist3_comm p]
  exact and_congr_right fun _ => ⟨fun h => h 1 one_pos, fun h _ _ => h⟩

/-- The barycentric coordinates of a point in the plane of a triangle with different directions of the
edges. -/
theorem Triangle.barycentric_spec {t : Triangle ℝ}
    (ht : cross3 (minus t.v1 t.v0) (minus t.v2 t.v0) ≠ ⟨0, 0, 0⟩) {p : V3 ℝ}
    (hp : dot3 (minus p t.v0) (cross3 (minus t.v1 t.v0) (minus t.v2 t.v0)) = 0) {u v w : ℝ} :
    t.barycentric p = (u, v, w) ↔ u + v + w = 1 ∧
      p = ⟨u * t.v0.x + v * t.v1.x + w * t.v2.x, u * t.v0.y + v * t.v1.y + w * t.v2.y,
        u * t.v0.z + v * t.v1.z + w * t.v2.z⟩ := by
  have hD : dot3 (minus t.v1 t.v0) (minus t.v1 t.v0) * dot3 (minus t.v2 t.v0) (minus t.v2 t.v0) -
      dot3 (minus t.v1 t.v0) (minus t.v2 t.v0) * dot3 (minus t.v1 t.v0) (minus t.v2 t.v0) ≠ 0 := by
    intro h0
    apply ht
    rw [← dot3_self_eq_zero, ← h0]
    simp only [dot3, cross3]; ring
  have hdec := V3.decomp (minus t.v1 t.v0) (minus t.v2 t.v0) (minus p t.v0)
  simp only [V3.cross_sq] at hdec
  simp only [V3.cross_eq3, hp] at hdec
  have e : t.barycentric p = (1 - (dot3 (minus t.v2 t.v0) (minus t.v2 t.v0) * dot3 (minus p t.v0) (minus t.v1 t.v0) -
        dot3 (minus t.v1 t.v0) (minus t.v2 t.v0) * dot3 (minus p t.v0) (minus t.v2 t.v0)) /
        (dot3 (minus t.v1 t.v0) (minus t.v1 t.v0) * dot3 (minus t.v2 t.v0) (minus t.v2 t.v0) -
        dot3 (minus t.v1 t.v0) (minus t.v2 t.v0) * dot3 (minus t.v1 t.v0) (minus t.v2 t.v0)) -
      (dot3 (minus t.v1 t.v0) (minus t.v1 t.v0) * dot3 (minus p t.v0) (minus t.v2 t.v0) -
        dot3 (minus t.v1 t.v0) (minus t.v2 t.v0) * dot3 (minus p t.v0) (minus t.v1 t.v0)) /
        (dot3 (minus t.v1 t.v0) (minus t.v1 t.v0) * dot3 (minus t.v2 t.v0) (minus t.v2 t.v0) -
        dot3 (minus t.v1 t.v0) (minus t.v2 t.v0) * dot3 (minus t.v1 t.v0) (minus t.v2 t.v0)),
      (dot3 (minus t.v2 t.v0) (minus t.v2 t.v0) * dot3 (minus p t.v0) (minus t.v1 t.v0) -
        dot3 (minus t.v1 t.v0) (minus t.v2 t.v0) * dot3 (minus p t.v0) (minus t.v2 t.v0)) /
        (dot3 (minus t.v1 t.v0) (minus t.v1 t.v0) * dot3 (minus t.v2 t.v0) (minus t.v2 t.v0) -
        dot3 (minus t.v1 t.v0) (minus t.v2 t.v0) * dot3 (minus t.v1 t.v0) (minus t.v2 t.v0)),
      (dot3 (minus t.v1 t.v0) (minus t.v1 t.v0) * dot3 (minus p t.v0) (minus t.v2 t.v0) -
        dot3 (minus t.v1 t.v0) (minus t.v2 t.v0) * dot3 (minus p t.v0) (minus t.v1 t.v0)) /
        (dot3 (minus t.v1 t.v0) (minus t.v1 t.v0) * dot3 (minus t.v2 t.v0) (minus t.v2 t.v0) -
        dot3 (minus t.v1 t.v0) (minus t.v2 t.v0) * dot3 (minus t.v1 t.v0) (minus t.v2 t.v0))) := by
    simp only [Triangle.barycentric, V3.sub_eq3, V3.dot_eq, real_sub, real_mul, real_div, real_one]
  rw [e, Prod.mk.injEq, Prod.mk.injEq]
  constructor
  · rintro ⟨rfl, rfl, rfl⟩
    refine ⟨by ring, ?_⟩
    obtain ⟨d1, d2, d3⟩ := hdec
    generalize dot3 (minus t.v1 t.v0) (minus t.v1 t.v0) = d00 at *
    generalize dot3 (minus t.v2 t.v0) (minus t.v2 t.v0) = d11 at *
    generalize dot3 (minus t.v1 t.v0) (minus t.v2 t.v0) = d01 at *
    generalize dot3 (minus p t.v0) (minus t.v1 t.v0) = d20 at *
    generalize dot3 (minus p t.v0) (minus t.v2 t.v0) = d21 at *
    simp only [minus] at d1 d2 d3
    rw [show d00 * d11 - d01 ^ 2 = d00 * d11 - d01 * d01 by ring] at d1 d2 d3
    generalize d00 * d11 - d01 * d01 = D at *
    ext
    · dsimp only; field_simp; linear_combination d1
    · dsimp only; field_simp; linear_combination d2
    · dsimp only; field_simp; linear_combination d3
  · rintro ⟨hs, hq⟩
    obtain rfl : u = 1 - v - w := by linarith
    have ex : minus p t.v0 = ⟨v * (t.v1.x - t.v0.x) + w * (t.v2.x - t.v0.x),
        v * (t.v1.y - t.v0.y) + w * (t.v2.y - t.v0.y), v * (t.v1.z - t.v0.z) + w * (t.v2.z - t.v0.z)⟩ := by
      rw [hq]; simp only [minus]; congr 1 <;> ring
    have hv : (dot3 (minus t.v2 t.v0) (minus t.v2 t.v0) * dot3 (minus p t.v0) (minus t.v1 t.v0) -
        dot3 (minus t.v1 t.v0) (minus t.v2 t.v0) * dot3 (minus p t.v0) (minus t.v2 t.v0)) /
        (dot3 (minus t.v1 t.v0) (minus t.v1 t.v0) * dot3 (minus t.v2 t.v0) (minus t.v2 t.v0) -
        dot3 (minus t.v1 t.v0) (minus t.v2 t.v0) * dot3 (minus t.v1 t.v0) (minus t.v2 t.v0)) = v := by
      rw [div_eq_iff hD, ex]; simp only [dot3, minus]; ring
    have hw : (dot3 (minus t.v1 t.v0) (minus t.v1 t.v0) * dot3 (minus p t.v0) (minus t.v2 t.v0) -
        dot3 (minus t.v1 t.v0) (minus t.v2 t.v0) * dot3 (minus p t.v0) (minus t.v1 t.v0)) /
        (dot3 (minus t.v1 t.v0) (minus t.v1 t.v0) * dot3 (minus t.v2 t.v0) (minus t.v2 t.v0) -
        dot3 (minus t.v1 t.v0) (minus t.v2 t.v0) * dot3 (minus t.v1 t.v0) (minus t.v2 t.v0)) = w := by
      rw [div_eq_iff hD, ex]; simp only [dot3, minus]; ring
    rw [hv, hw]
    exact ⟨rfl, rfl, rfl⟩

theorem Spec.onPlane_laying {t : Triangle ℝ} (h : Proper (.triangle t)) (p : V3 ℝ) :
    OnPlane t.layingPlane p ↔
      dot3 (minus p t.v0) (cross3 (minus t.v1 t.v0) (minus t.v2 t.v0)) = 0 := by
  have hL : length3 (cross3 (minus t.v1 t.v0) (minus t.v2 t.v0)) ≠ 0 := by
    rw [← V3.norm_eq]; exact (V3.norm_pos.2 h).ne'
  have hc : t.layingPlane.origin = ⟨(t.v0.x + t.v1.x + t.v2.x) / 3, (t.v0.y + t.v1.y + t.v2.y) / 3,
      (t.v0.z + t.v1.z + t.v2.z) / 3⟩ := by
    simp [Triangle.layingPlane, Triangle.centroid, V3.real_add, V3.real_sdiv]
  have hn : t.layingPlane.normal = unit3 (cross3 (minus t.v1 t.v0) (minus t.v2 t.v0)) :=
    Triangle.normal_eq t
  unfold OnPlane
  rw [hc, hn]
  have : ∀ N x : V3 ℝ, dot3 x (unit3 N) = dot3 x N / length3 N := by
    intro N x; simp only [dot3, unit3]; ring
  rw [this, div_eq_zero_iff, or_iff_left hL]
  have : dot3 (minus p ⟨(t.v0.x + t.v1.x + t.v2.x) / 3, (t.v0.y + t.v1.y + t.v2.y) / 3,
      (t.v0.z + t.v1.z + t.v2.z) / 3⟩) (cross3 (minus t.v1 t.v0) (minus t.v2 t.v0)) =
      dot3 (minus p t.v0) (cross3 (minus t.v1 t.v0) (minus t.v2 t.v0)) := by
    simp only [dot3, minus, cross3]; ring
  rw [this]

theorem Triangle.isInside_iff (t : Triangle ℝ) (p : V3 ℝ) (tol : ℝ) : t.isInside p tol = true ↔
    ((-tol ≤ (t.barycentric p).1 ∧ (t.barycentric p).1 ≤ 1 + tol) ∧
      (-tol ≤ (t.barycentric p).2.1 ∧ (t.barycentric p).2.1 ≤ 1 + tol) ∧
      (-tol ≤ (t.barycentric p).2.2 ∧ (t.barycentric p).2.2 ≤ 1 + tol)) ∧
    t.layingPlane.isInside p tol = true := by
  unfold Triangle.isInside
  generalize t.barycentric p = x
  obtain ⟨u, v, w⟩ := x
  simp only [real_le, real_sub, real_zero, zero_sub, real_add, real_one]
  rw [Bool.if_false_right]
  simp only [Bool.and_eq_true, decide_eq_true_eq, and_assoc]

theorem Triangle.isInside_all {t : Triangle ℝ} (h : Proper (.triangle t)) (p : V3 ℝ) :
    (∀ tol > 0, t.isInside p tol = true) ↔ InTriangle t.v0 t.v1 t.v2 p := by
  simp only [Triangle.isInside_iff]
  constructor
  · intro hi
    have hp := (Plane.isInside_all _ _).1 fun tol ht => (hi tol ht).2
    rw [onPlane_laying h] at hp
    rcases hx : t.barycentric p with ⟨u, v, w⟩
    rw [hx] at hi
    obtain ⟨hs, he⟩ := (Triangle.barycentric_spec h hp).1 hx
    have lo (x : ℝ) (hh : ∀ tol > 0, -tol ≤ x) : 0 ≤ x := by
      have := (le_all (a := -x)).1 fun t ht => by linarith [hh t ht]
      linarith
    exact ⟨u, v, w, lo _ fun t ht => (hi t ht).1.1.1, lo _ fun t ht => (hi t ht).1.2.1.1,
      lo _ fun t ht => (hi t ht).1.2.2.1, hs, he⟩
  · rintro ⟨u, v, w, hu, hv, hw, hs, he⟩ tol ht
    have hp : dot3 (minus p t.v0) (cross3 (minus t.v1 t.v0) (minus t.v2 t.v0)) = 0 := by
      obtain rfl : u = 1 - v - w := by linarith
      rw [he]; simp only [dot3, minus, cross3]; ring
    have hx := (Triangle.barycentric_spec h hp).2 ⟨hs, he⟩
    rw [hx]
    dsimp only
    refine ⟨⟨⟨?_, ?_⟩, ⟨?_, ?_⟩, ?_, ?_⟩, (Plane.isInside_all _ _).2 ((onPlane_laying h p).2 hp) tol ht⟩ <;>
      linarith

theorem Ball.isInside_iff (b : Ball ℝ) (p : V3 ℝ) : b.isInside p = true ↔ InBall b p := by
  unfold Ball.isInside InBall
  simp only [V3.norm_sub, real_le, decide_eq_true_eq, dist3_comm p]

theorem Inter.out_point {c : Bool} {p : V3 ℝ} :
    (Res.ok (Inter.out .point (if c then some p else none)) : Res (Entity ℝ)) = .ok (.point p) ↔
      c = true := by
  cases c <;> simp [Inter.out]

/-- **C74.** `Intersection` of a point and an entity returns the point, for every positive tolerance,
exactly when the point belongs to the entity. -/
theorem C74_point (p : V3 ℝ) (e : Entity ℝ) (he : Proper e) (h0 : e.isNone = false)
    (h1 : e.isBall = false) :
    (∀ tol > 0, Inter.entity (.point p) e tol = .ok (.point p)) ↔ Has e p := by
  have hpt (tol : ℝ) : Inter.entity (.point p) e tol = Inter.punctual (.point p) e tol := by
    unfold Inter.entity; rw [if_pos]; rfl
  simp only [hpt]
  cases e with
  | none => cases h0
  | ball => cases h1
  | point q => simp only [Inter.punctual, Inter.pointPoint, Inter.out_point]; exact V3.isApprox_all
  | line l => simp only [Inter.punctual, Inter.pointLine, Inter.out_point]; exact Line.isInside_all he p
  | ray l => simp only [Inter.punctual, Inter.pointRay, Inter.out_point]; exact Ray.isInside_all he p
  | plane l => simp only [Inter.punctual, Inter.pointPlane, Inter.out_point]; exact Plane.isInside_all l p
  | segment l =>
    simp only [Inter.punctual, Inter.pointSegment, Inter.out_point]; exact Segment.isInside_all he p
  | triangle l =>
    simp only [Inter.punctual, Inter.pointTriangle, Inter.out_point]; exact Triangle.isInside_all he p
  | disk l => simp only [Inter.punctual, Inter.pointDisk, Inter.out_point]; exact Disk.isInside_all l p

/-- **C74.** For one tolerance, `Intersection` of a point and an entity returns the point or an empty
entity, the same in both orders of the arguments; for a ball or an empty entity it throws. -/
theorem C74_point_result {α : Type} [Scalar α] (p : V3 α) (e : Entity α) (tol : α) :
    (e.isNone = false ∧ e.isBall = false →
      (Inter.entity (.point p) e tol = .ok (.point p) ∨ Inter.entity (.point p) e tol = .ok .none)) ∧
    ((e.isNone = true ∨ e.isBall = true) →
      Inter.entity (.point p) e tol = .throw "exception not handled (punctual)." ∧
      Inter.entity e (.point p) tol = .throw "exception not handled (punctual).") ∧
    (e.isPoint = false → Inter.entity e (.point p) tol = Inter.entity (.point p) e tol) := by
  have hpt : Inter.entity (.point p) e tol = Inter.punctual (.point p) e tol := by
    unfold Inter.entity; rw [if_pos]; rfl
  have hpt2 : Inter.entity e (.point p) tol = Inter.punctual e (.point p) tol := by
    unfold Inter.entity; rw [if_pos]; simp [Entity.isPoint]
  rw [hpt, hpt2]
  refine ⟨?_, ?_, ?_⟩
  · rintro ⟨h0, h1⟩
    cases e <;> first | (cases h0; done) | (cases h1; done) | skip
    all_goals
      simp only [Inter.punctual, Inter.pointPoint, Inter.pointLine, Inter.pointRay, Inter.pointPlane,
        Inter.pointSegment, Inter.pointTriangle, Inter.pointDisk]
      split
      · exact .inl rfl
      · exact .inr rfl
  · rintro (h | h) <;> cases e <;> first | (cases h; done) | exact ⟨rfl, rfl⟩
  · intro h
    cases e <;> first | (cases h; done) | rfl

/-- **C74.** The membership test of a ball is exact, and ignores the tolerance. -/
theorem C74_ball (b : Ball ℝ) (p : V3 ℝ) : b.isInside p = true ↔ InBall b p := Ball.isInside_iff b p

/-- A point on the edge of a triangle. -/
example : ∀ tol > 0, Inter.entity (.point ⟨1 / 2, 1 / 2, 0⟩)
    (.triangle ⟨⟨0, 0, 0⟩, ⟨1, 0, 0⟩, ⟨0, 1, 0⟩⟩) (tol : ℝ) = .ok (.point ⟨1 / 2, 1 / 2, 0⟩) := by
  refine (C74_point _ _ (by simp [Proper, cross3, minus]) rfl rfl).2
    ⟨0, 1 / 2, 1 / 2, by norm_num, by norm_num, by norm_num, by norm_num, by norm_num⟩

end Enve
