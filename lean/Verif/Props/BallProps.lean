import Verif.Props.CrossProps

/-! # A ball and a line, ray, plane or segment; three planes -/

namespace Enve
open Scalar Spec

/-- Half the derivative of the squared distance at the start. -/
def Spec.ballA1 (o u c : V3 ℝ) : ℝ := dot3 u (minus o c)
/-- The discriminant of the quadratic for unit direction. -/
def Spec.ballDisc (o u c : V3 ℝ) (r : ℝ) : ℝ :=
  ballA1 o u c * ballA1 o u c - (dot3 (minus o c) (minus o c) - r * r)

theorem Spec.ball_sq {u : V3 ℝ} (hu : Unit3 u) (o c : V3 ℝ) (r t : ℝ) :
    dist3 (along o t u) c ^ 2 = r ^ 2 + ((t + ballA1 o u c) ^ 2 - ballDisc o u c r) := by
  rw [dist3_sq]
  unfold Unit3 at hu
  simp only [ballA1, ballDisc, along, dot3, minus]
  linear_combination t ^ 2 * hu

theorem Spec.ball_param {u : V3 ℝ} (hu : Unit3 u) (o c : V3 ℝ) {r : ℝ} (hr : 0 ≤ r) (t : ℝ) :
    dist3 (along o t u) c ≤ r ↔ (t + ballA1 o u c) ^ 2 ≤ ballDisc o u c r := by
  rw [← sq_le_sq₀ (dist3_nonneg _ _) hr, ball_sq hu o c r t]
  constructor <;> intro h <;> linarith

theorem Spec.sq_le_root {x d : ℝ} (hd : 0 ≤ d) : x ^ 2 ≤ d ↔ -√d ≤ x ∧ x ≤ √d := by
  rw [← abs_le, ← Real.sqrt_sq_eq_abs, Real.sqrt_le_sqrt_iff hd]

theorem Spec.seg_param (o u : V3 ℝ) {t0 t1 : ℝ} (h : t0 ≤ t1) (p : V3 ℝ) :
    OnSegment ⟨along o t0 u, along o t1 u⟩ p ↔ ∃ t, t0 ≤ t ∧ t ≤ t1 ∧ p = along o t u := by
  constructor
  · rintro ⟨s, h0, h1, rfl⟩
    refine ⟨t0 + s * (t1 - t0), by nlinarith, by nlinarith, ?_⟩
    simp only [along, minus]; congr 1 <;> ring
  · rintro ⟨t, h0, h1, rfl⟩
    rcases h.eq_or_lt with rfl | hlt
    · obtain rfl : t = t0 := le_antisymm h1 h0
      exact ⟨0, le_rfl, zero_le_one, by simp [along]⟩
    · have hd : 0 < t1 - t0 := by linarith
      refine ⟨(t - t0) / (t1 - t0), div_nonneg (by linarith) hd.le, (div_le_one hd).2 (by linarith), ?_⟩
      simp only [along, minus]; congr 1 <;> field_simp <;> ring

theorem Spec.onLine_unit (l : Line ℝ) (h : l.direction ≠ ⟨0, 0, 0⟩) (p : V3 ℝ) :
    OnLine l p ↔ ∃ t, p = along l.origin t (unit3 l.direction) := by
  have h0 : 0 < length3 l.direction := by rw [← V3.norm_eq]; exact V3.norm_pos.2 h
  constructor
  · rintro ⟨t, rfl⟩; exact ⟨_, along_unit3 _ _ _ h⟩
  · rintro ⟨t, rfl⟩
    refine ⟨t / length3 l.direction, ?_⟩
    rw [along_unit3 _ _ _ h, div_mul_cancel₀ _ h0.ne']

theorem Spec.onRay_unit (r : Ray ℝ) (h : r.direction ≠ ⟨0, 0, 0⟩) (p : V3 ℝ) :
    OnRay r p ↔ ∃ t, 0 ≤ t ∧ p = along r.origin t (unit3 r.direction) := by
  have h0 : 0 < length3 r.direction := by rw [← V3.norm_eq]; exact V3.norm_pos.2 h
  constructor
  · rintro ⟨t, ht, rfl⟩; exact ⟨_, by positivity, along_unit3 _ _ _ h⟩
  · rintro ⟨t, ht, rfl⟩
    refine ⟨t / length3 r.direction, by positivity, ?_⟩
    rw [along_unit3 _ _ _ h, div_mul_cancel₀ _ h0.ne']

theorem V3.add_smul3 (o u : V3 ℝ) (t : ℝ) : V3.add o (V3.smul t u) = along o t u := by
  rw [V3.real_smul, V3.real_add]; rfl

/-- What the overload for a line and a ball computes. -/
theorem Inter.lineBall_eq (l : Line ℝ) (b : Ball ℝ) (tol : ℝ) :
    Inter.lineBall l b tol =
      if tol < ballDisc l.origin (unit3 l.direction) b.center b.radius then
        some ⟨along l.origin (-ballA1 l.origin (unit3 l.direction) b.center -
            √(ballDisc l.origin (unit3 l.direction) b.center b.radius)) (unit3 l.direction),
          along l.origin (-ballA1 l.origin (unit3 l.direction) b.center +
            √(ballDisc l.origin (unit3 l.direction) b.center b.radius)) (unit3 l.direction)⟩
      else none := by
  simp only [Inter.lineBall, Line.toUnitVector, V3.normalized_eq3, V3.sub_eq3, V3.dot_eq, real_sub,
    real_mul, real_lt, real_neg, real_add, real_sqrt, V3.add_smul3, decide_eq_true_eq]
  rfl

/-- **C72.** The segment returned for a line and a ball is exactly the set of their common points. -/
theorem C72_line_ball (l : Line ℝ) (b : Ball ℝ) (hl : l.direction ≠ ⟨0, 0, 0⟩) (hr : 0 ≤ b.radius)
    (tol : ℝ) (ht : 0 ≤ tol) (s : Segment ℝ) (h : Inter.lineBall l b tol = some s) (p : V3 ℝ) :
    OnSegment s p ↔ OnLine l p ∧ InBall b p := by
  rw [Inter.lineBall_eq] at h
  have hu := unit3_unit hl
  rw [onLine_unit l hl]
  unfold InBall
  split at h
  · rename_i hd
    rw [← Option.some.inj h, seg_param _ _ (by linarith [Real.sqrt_nonneg (ballDisc l.origin (unit3 l.direction) b.center b.radius)])]
    have hd0 : 0 ≤ ballDisc l.origin (unit3 l.direction) b.center b.radius := by linarith
    constructor
    · rintro ⟨t, h0, h1, rfl⟩
      refine ⟨⟨t, rfl⟩, (ball_param hu _ _ hr t).2 ((sq_le_root hd0).2 ⟨by linarith, by linarith⟩)⟩
    · rintro ⟨⟨t, rfl⟩, h2⟩
      obtain ⟨h3, h4⟩ := (sq_le_root hd0).1 ((ball_param hu _ _ hr t).1 h2)
      exact ⟨t, by linarith, by linarith, rfl⟩
  · cases h

/-- **C72.** No segment is returned for a line and a ball exactly when no point of the line is deeper in
the ball than the tolerance allows: the squared distance to the center is nowhere less than the squared
radius minus the tolerance. -/
theorem C72_line_ball_none (l : Line ℝ) (b : Ball ℝ) (hl : l.direction ≠ ⟨0, 0, 0⟩) (tol : ℝ) :
    Inter.lineBall l b tol = none ↔
      ∀ p, OnLine l p → b.radius ^ 2 - tol ≤ dist3 p b.center ^ 2 := by
  rw [Inter.lineBall_eq]
  have hu := unit3_unit hl
  constructor
  · intro h p hp
    obtain ⟨t, rfl⟩ := (onLine_unit l hl p).1 hp
    split at h
    · cases h
    rename_i hd
    rw [ball_sq hu _ _ b.radius]
    nlinarith [sq_nonneg (t + ballA1 l.origin (unit3 l.direction) b.center)]
  · intro h
    have := h _ ((onLine_unit l hl _).2 ⟨-ballA1 l.origin (unit3 l.direction) b.center, rfl⟩)
    rw [ball_sq hu _ _ b.radius] at this
    rw [if_neg]
    rw [neg_add_cancel, zero_pow two_ne_zero] at this
    linarith

/-- What the overload for a ray and a ball computes. -/
theorem Inter.rayBall_eq (l : Ray ℝ) (b : Ball ℝ) (tol : ℝ) :
    let D := ballDisc l.origin (unit3 l.direction) b.center b.radius
    let A := ballA1 l.origin (unit3 l.direction) b.center
    Inter.rayBall l b tol = if tol < D then
        if -A - √D < 0 ∧ -A + √D < 0 then none else
        some ⟨along l.origin (Max.max (-A - √D) 0) (unit3 l.direction),
          along l.origin (Max.max (-A + √D) 0) (unit3 l.direction)⟩
      else none := by
  simp only [Inter.rayBall, Ray.toUnitVector, V3.normalized_eq3, V3.sub_eq3, V3.dot_eq, real_sub,
    real_mul, real_lt, real_neg, real_add, real_sqrt, V3.add_smul3, decide_eq_true_eq, real_max,
    real_zero, Bool.and_eq_true]
  rfl

/-- **C72.** The segment returned for a ray and a ball is exactly the set of their common points. -/
theorem C72_ray_ball (l : Ray ℝ) (b : Ball ℝ) (hl : l.direction ≠ ⟨0, 0, 0⟩) (hr : 0 ≤ b.radius)
    (tol : ℝ) (ht : 0 ≤ tol) (s : Segment ℝ) (h : Inter.rayBall l b tol = some s) (p : V3 ℝ) :
    OnSegment s p ↔ OnRay l p ∧ InBall b p := by
  rw [Inter.rayBall_eq] at h
  have hu := unit3_unit hl
  rw [onRay_unit l hl]
  unfold InBall
  have hb := ball_param hu l.origin b.center hr
  generalize hD : ballDisc l.origin (unit3 l.direction) b.center b.radius = D at *
  generalize ballA1 l.origin (unit3 l.direction) b.center = A at *
  split at h
  · rename_i hd
    split at h
    · cases h
    rename_i hn
    have hd0 : 0 ≤ D := by linarith
    have hs := Real.sqrt_nonneg D
    rw [← Option.some.inj h, seg_param _ _ (max_le_max_right _ (by linarith))]
    have h1 : 0 ≤ -A + √D := by
      by_contra hc
      exact hn ⟨by linarith, by linarith⟩
    constructor
    · rintro ⟨t, h2, h3, rfl⟩
      rw [max_le_iff] at h2
      rw [max_eq_left h1] at h3
      exact ⟨⟨t, h2.2, rfl⟩, (hb t).2 ((sq_le_root hd0).2 ⟨by linarith, by linarith⟩)⟩
    · rintro ⟨⟨t, h0, rfl⟩, h2⟩
      obtain ⟨h3, h4⟩ := (sq_le_root hd0).1 ((hb t).1 h2)
      exact ⟨t, max_le (by linarith) h0, le_max_of_le_left (by linarith), rfl⟩
  · cases h

/-- **C72.** If no segment is returned for a ray and a ball, no point of the ray is deeper in the ball
than the tolerance allows. -/
theorem C72_ray_ball_none (l : Ray ℝ) (b : Ball ℝ) (hl : l.direction ≠ ⟨0, 0, 0⟩)
    (tol : ℝ) (ht : 0 ≤ tol) (h : Inter.rayBall l b tol = none) (p : V3 ℝ) (hp : OnRay l p) :
    b.radius ^ 2 - tol ≤ dist3 p b.center ^ 2 := by
  rw [Inter.rayBall_eq] at h
  have hu := unit3_unit hl
  obtain ⟨t, h0, rfl⟩ := (onRay_unit l hl p).1 hp
  rw [ball_sq hu l.origin b.center b.radius t]
  generalize ballDisc l.origin (unit3 l.direction) b.center b.radius = D at *
  generalize ballA1 l.origin (unit3 l.direction) b.center = A at *
  split at h
  · rename_i hd
    split at h
    · rename_i hn
      have h1 := Real.sq_sqrt (show 0 ≤ D by linarith)
      have h2 := Real.sqrt_nonneg D
      nlinarith [hn.2]
    · cases h
  · nlinarith [sq_nonneg (t + A)]

/-- **C72.** The disk returned for a plane and a ball is exactly the set of their common points, and
none is returned exactly when there are no common points. -/
theorem C72_plane_ball (q : Plane ℝ) (b : Ball ℝ) (hq : q.normal ≠ ⟨0, 0, 0⟩) (hr : 0 ≤ b.radius) :
    (∀ d, Inter.planeBall q b = some d → ∀ p, InDisk d p ↔ OnPlane q p ∧ InBall b p) ∧
    (Inter.planeBall q b = none ↔ ∀ p, OnPlane q p → ¬ InBall b p) := by
  have hu := unit3_unit hq
  have hon (p : V3 ℝ) : OnPlane q p ↔ dot3 (minus p q.origin) (unit3 q.normal) = 0 := by
    have h0 : length3 q.normal ≠ 0 := by rw [← V3.norm_eq]; exact (V3.norm_pos.2 hq).ne'
    have : dot3 (minus p q.origin) (unit3 q.normal) = dot3 (minus p q.origin) q.normal / length3 q.normal := by
      simp only [dot3, unit3]; ring
    rw [this, div_eq_zero_iff, or_iff_left h0]; rfl
  have e : Inter.planeBall q b =
      if |dot3 (minus b.center q.origin) (unit3 q.normal)| ≤ b.radius then
        some ⟨√((b.radius + |dot3 (minus b.center q.origin) (unit3 q.normal)|) *
          (b.radius - |dot3 (minus b.center q.origin) (unit3 q.normal)|)),
          ⟨along b.center (-dot3 (minus b.center q.origin) (unit3 q.normal)) (unit3 q.normal),
            unit3 q.normal⟩⟩ else none := by
    simp only [Inter.planeBall, Plane.unitNormal, V3.normalized_eq3, V3.sub_eq3, V3.dot_eq, real_abs,
      real_le, real_sqrt, real_mul, real_add, real_sub, decide_eq_true_eq]
    have : ∀ k : ℝ, minus b.center (V3.smul k (unit3 q.normal)) = along b.center (-k) (unit3 q.normal) := by
      intro k; rw [V3.real_smul]; simp only [minus, along]; congr 1 <;> ring
    rw [this]
  rw [e]
  generalize unit3 q.normal = n at *
  generalize hk : dot3 (minus b.center q.origin) n = k
  have hsq (p : V3 ℝ) (hp : dot3 (minus p q.origin) n = 0) :
      dist3 p b.center ^ 2 = dist3 p (along b.center (-k) n) ^ 2 + k ^ 2 := by
    rw [dist3_sq, dist3_sq]
    unfold Unit3 at hu
    simp only [along, minus, dot3] at hp hk ⊢
    linear_combination (-k ^ 2) * hu - 2 * k * hp + 2 * k * hk
  have hon2 (p : V3 ℝ) : dot3 (minus p (along b.center (-k) n)) n = 0 ↔ dot3 (minus p q.origin) n = 0 := by
    have : dot3 (minus p (along b.center (-k) n)) n = dot3 (minus p q.origin) n := by
      unfold Unit3 at hu
      simp only [along, minus, dot3] at hk ⊢
      linear_combination k * hu - hk
    rw [this]
  split
  · rename_i hd
    have hfac : (b.radius + |k|) * (b.radius - |k|) = b.radius ^ 2 - k ^ 2 := by
      rw [← sq_abs k]; ring
    have hpos : 0 ≤ b.radius ^ 2 - k ^ 2 := by
      rw [← hfac]; exact mul_nonneg (by positivity) (by linarith)
    constructor
    · intro d h p
      rw [← Option.some.inj h, hon]
      unfold InDisk InBall OnPlane
      dsimp only
      rw [hon2]
      refine and_congr_right fun hp => ?_
      rw [hfac, ← sq_le_sq₀ (dist3_nonneg _ _) (Real.sqrt_nonneg _), Real.sq_sqrt hpos,
        ← sq_le_sq₀ (dist3_nonneg _ _) hr, hsq p hp]
      constructor <;> intro h <;> linarith
    · refine iff_of_false (by simp) fun h => ?_
      have hp := (hon2 (along b.center (-k) n)).1 (by simp [minus, dot3])
      refine h _ ((hon _).2 hp) ?_
      unfold InBall
      rw [← sq_le_sq₀ (dist3_nonneg _ _) hr, hsq _ hp, dist3_eq_zero.2 rfl]
      linarith
  · rename_i hd
    constructor
    · intro d h; cases h
    · refine iff_of_true rfl fun p hp hb => hd ?_
      unfold InBall at hb
      rw [← sq_le_sq₀ (dist3_nonneg _ _) hr, hsq _ ((hon _).1 hp)] at hb
      refine abs_le_of_sq_le_sq ?_ hr
      nlinarith [sq_nonneg (dist3 p (along b.center (-k) n))]

/-- What the overload for a segment and a ball computes. -/
theorem Inter.segBall_eq (l : Segment ℝ) (b : Ball ℝ) (tol : ℝ) :
    let D := ballDisc l.v0 (minus l.v1 l.v0) b.center b.radius
    let A := ballA1 l.v0 (minus l.v1 l.v0) b.center
    Inter.segBall l b tol = if tol < D then
        if (-A - √D < 0 ∧ -A + √D < 0) ∨ (1 < -A - √D ∧ 1 < -A + √D) then none else
        some ⟨along l.v0 (Min.min (Max.max (-A - √D) 0) 1) (minus l.v1 l.v0),
          along l.v0 (Min.min (Max.max (-A + √D) 0) 1) (minus l.v1 l.v0)⟩
      else none := by
  simp only [Inter.segBall, Segment.toVector_eq3, V3.sub_eq3, V3.dot_eq, real_sub,
    real_mul, real_lt, real_neg, real_add, real_sqrt, V3.add_smul3, decide_eq_true_eq, real_max, real_min,
    real_zero, real_one, Bool.and_eq_true, Bool.or_eq_true]
  rfl

/-- **C72 (partial).** For a segment of length one the returned segment is exactly the set of the
points common to the segment and the ball.  Missing: every other length, see the two refutations. -/
theorem C72_segment_ball_partial (l : Segment ℝ) (b : Ball ℝ) (hl : Unit3 (minus l.v1 l.v0))
    (hr : 0 ≤ b.radius) (tol : ℝ) (ht : 0 ≤ tol) (s : Segment ℝ) (h : Inter.segBall l b tol = some s)
    (p : V3 ℝ) : OnSegment s p ↔ OnSegment l p ∧ InBall b p := by
  rw [Inter.segBall_eq] at h
  unfold InBall
  have hb := ball_param hl l.v0 b.center hr
  have hos : OnSegment l p ↔ ∃ t : ℝ, 0 ≤ t ∧ t ≤ 1 ∧ p = along l.v0 t (minus l.v1 l.v0) := Iff.rfl
  rw [hos]
  generalize hD : ballDisc l.v0 (minus l.v1 l.v0) b.center b.radius = D at *
  generalize ballA1 l.v0 (minus l.v1 l.v0) b.center = A at *
  split at h
  · rename_i hd
    split at h
    · cases h
    rename_i hn
    have hd0 : 0 ≤ D := by linarith
    have hs := Real.sqrt_nonneg D
    rw [← Option.some.inj h, seg_param _ _ (min_le_min_right _ (max_le_max_right _ (by linarith)))]
    rw [not_or, not_and_or, not_and_or] at hn
    have h1 : 0 ≤ -A + √D := by
      rcases hn.1 with h | h <;> linarith
    have h2 : -A - √D ≤ 1 := by
      rcases hn.2 with h | h <;> linarith
    rw [max_eq_left h1, min_eq_left (max_le h2 zero_le_one)]
    constructor
    · rintro ⟨t, h2, h3, rfl⟩
      rw [max_le_iff] at h2
      rw [le_min_iff] at h3
      exact ⟨⟨t, h2.2, h3.2, rfl⟩, (hb t).2 ((sq_le_root hd0).2 ⟨by linarith, by linarith⟩)⟩
    · rintro ⟨⟨t, h0, h5, rfl⟩, h2⟩
      obtain ⟨h3, h4⟩ := (sq_le_root hd0).1 ((hb t).1 h2)
      exact ⟨t, max_le (by linarith) h0, le_min (by linarith) h5, rfl⟩
  · cases h

/-- **C72 (refuted for segments).** A segment with one end inside the ball is reported to miss it. -/
theorem C72_segment_ball_missed_refuted (tol : ℝ) (ht : 0 ≤ tol) :
    let s : Segment ℝ := ⟨⟨11 / 10, 0, 0⟩, ⟨9 / 10, 0, 0⟩⟩
    let b : Ball ℝ := ⟨1, ⟨0, 0, 0⟩⟩
    (OnSegment s s.v1 ∧ dist3 s.v1 b.center < b.radius) ∧ Inter.segBall s b tol = none := by
  refine ⟨⟨⟨1, zero_le_one, le_rfl, by simp [along, minus]⟩, ?_⟩, ?_⟩
  · unfold dist3
    refine (Real.sqrt_lt' one_pos).2 ?_
    norm_num
  · rw [Inter.segBall_eq]
    dsimp only
    rw [if_neg]
    simp only [ballDisc, ballA1, dot3, minus]
    norm_num
    linarith

/-- **C72 (refuted for segments).** A segment that stays at twice the radius from the center is
reported to meet the ball. -/
theorem C72_segment_ball_false_refuted (tol : ℝ) (h1 : tol ≤ 1) :
    let s : Segment ℝ := ⟨⟨4, 0, 0⟩, ⟨2, 0, 0⟩⟩
    let b : Ball ℝ := ⟨1, ⟨0, 0, 0⟩⟩
    (∀ p, OnSegment s p → 2 ≤ dist3 p b.center) ∧ Inter.segBall s b tol = some ⟨⟨2, 0, 0⟩, ⟨2, 0, 0⟩⟩ := by
  constructor
  · rintro p ⟨t, h0, h2, rfl⟩
    simp only [dist3, along, minus]
    refine Real.le_sqrt_of_sq_le ?_
    nlinarith
  · rw [Inter.segBall_eq]
    have hD : ballDisc ⟨4, 0, 0⟩ (minus ⟨2, 0, 0⟩ ⟨4, 0, 0⟩) ⟨0, 0, 0⟩ 1 = 49 := by
      simp only [ballDisc, ballA1, dot3, minus]; norm_num
    have hA : ballA1 ⟨4, 0, 0⟩ (minus ⟨2, 0, 0⟩ ⟨4, 0, 0⟩) ⟨0, 0, 0⟩ = -8 := by
      simp only [ballA1, dot3, minus]; norm_num
    have hs : √(49 : ℝ) = 7 := by rw [show (49 : ℝ) = 7 ^ 2 by norm_num, Real.sqrt_sq (by norm_num)]
    dsimp only
    rw [hD, hA, hs, if_pos (by linarith), if_neg (by norm_num)]
    simp only [along, minus]
    norm_num

/-! ## C73: three planes -/

/-- **C73.** Three planes whose normals span a volume of at least the tolerance have exactly one common
point, and that point is returned; otherwise nothing is returned. -/
theorem C73_three_planes (a b c : Plane ℝ) (tol : ℝ) (ht : 0 < tol) :
    (tol ≤ |dot3 a.normal (cross3 b.normal c.normal)| →
      ∃ p, Inter.threePlanes a b c tol = some p ∧
        ∀ q, (OnPlane a q ∧ OnPlane b q ∧ OnPlane c q) ↔ q = p) ∧
    (|dot3 a.normal (cross3 b.normal c.normal)| < tol → Inter.threePlanes a b c tol = none) := by
  have e : Inter.threePlanes a b c tol =
      if |dot3 a.normal (cross3 b.normal c.normal)| < tol then none else
      some (V3.sdiv (V3.add (V3.add (V3.smul (dot3 a.origin a.normal) (cross3 b.normal c.normal))
        (V3.smul (dot3 b.origin b.normal) (cross3 c.normal a.normal)))
        (V3.smul (dot3 c.origin c.normal) (cross3 a.normal b.normal)))
        (dot3 a.normal (cross3 b.normal c.normal))) := by
    simp only [Inter.threePlanes, Plane.d, V3.dot_eq, V3.cross_eq3, real_neg, neg_neg, Scalar.isApprox,
      real_sub, real_zero, sub_zero, real_abs, real_lt, decide_eq_true_eq]
  rw [e]
  refine ⟨fun h => ?_, fun h => if_pos h⟩
  rw [if_neg (not_lt.2 h)]
  refine ⟨_, rfl, fun q => ?_⟩
  have hD : dot3 a.normal (cross3 b.normal c.normal) ≠ 0 := by
    intro h0; rw [h0, abs_zero] at h; linarith
  rw [V3.real_sdiv]
  simp only [V3.real_add, V3.real_smul]
  constructor
  · rintro ⟨h1, h2, h3⟩
    simp only [OnPlane, dot3, minus] at h1 h2 h3
    ext <;> dsimp only <;> rw [eq_div_iff hD] <;> simp only [dot3, cross3]
    · linear_combination (b.normal.y * c.normal.z - b.normal.z * c.normal.y) * h1 +
        (c.normal.y * a.normal.z - c.normal.z * a.normal.y) * h2 +
        (a.normal.y * b.normal.z - a.normal.z * b.normal.y) * h3
    · linear_combination (b.normal.z * c.normal.x - b.normal.x * c.normal.z) * h1 +
        (c.normal.z * a.normal.x - c.normal.x * a.normal.z) * h2 +
        (a.normal.z * b.normal.x - a.normal.x * b.normal.z) * h3
    · linear_combination (b.normal.x * c.normal.y - b.normal.y * c.normal.x) * h1 +
        (c.normal.x * a.normal.y - c.normal.y * a.normal.x) * h2 +
        (a.normal.x * b.normal.y - a.normal.y * b.normal.x) * h3
  · rintro rfl
    generalize hX : dot3 a.normal (cross3 b.normal c.normal) = X at hD
    simp only [OnPlane, dot3, minus]
    simp only [dot3, cross3] at hX
    refine ⟨?_, ?_, ?_⟩
    · field_simp
      rw [← hX]; simp only [cross3]; ring
    · field_simp
      rw [← hX]; simp only [cross3]; ring
    · field_simp
      rw [← hX]; simp only [cross3]; ring

/-- The three coordinate planes through `(1, 2, 3)`. -/
example : ∃ p, Inter.threePlanes ⟨⟨1, 0, 0⟩, ⟨1, 0, 0⟩⟩ ⟨⟨0, 2, 0⟩, ⟨0, 1, 0⟩⟩ ⟨⟨0, 0, 3⟩, ⟨0, 0, 1⟩⟩ (1 / 2 : ℝ) =
    some p ∧ p = ⟨1, 2, 3⟩ := by
  obtain ⟨p, hp, h⟩ := (C73_three_planes ⟨⟨1, 0, 0⟩, ⟨1, 0, 0⟩⟩ ⟨⟨0, 2, 0⟩, ⟨0, 1, 0⟩⟩ ⟨⟨0, 0, 3⟩, ⟨0, 0, 1⟩⟩
    (1 / 2 : ℝ) (by norm_num)).1 (by simp [dot3, cross3]; norm_num)
  refine ⟨p, hp, ((h ⟨1, 2, 3⟩).1 ?_).symm⟩
  simp [OnPlane, dot3, minus]

/-- A line through a ball: the chord is returned. -/
example : ∃ s, Inter.lineBall ⟨⟨-5, 0, 0⟩, ⟨2, 0, 0⟩⟩ ⟨1, ⟨0, 0, 0⟩⟩ (1 / 2 : ℝ) = some s ∧
    OnSegment s ⟨1 / 2, 0, 0⟩ := by
  have hl : (⟨2, 0, 0⟩ : V3 ℝ) ≠ ⟨0, 0, 0⟩ := by simp
  cases h : Inter.lineBall ⟨⟨-5, 0, 0⟩, ⟨2, 0, 0⟩⟩ ⟨1, ⟨0, 0, 0⟩⟩ (1 / 2 : ℝ) with
  | none =>
    have := (C72_line_ball_none ⟨⟨-5, 0, 0⟩, ⟨2, 0, 0⟩⟩ ⟨1, ⟨0, 0, 0⟩⟩ hl (1 / 2)).1 h ⟨0, 0, 0⟩
      ⟨5 / 2, by simp [along]⟩
    rw [dist3_eq_zero.2 rfl] at this
    norm_num at this
  | some s =>
    refine ⟨s, rfl, (C72_line_ball _ _ hl (by norm_num) _ (by norm_num) s h _).2
      ⟨⟨11 / 4, by simp [along]; norm_num⟩, ?_⟩⟩
    unfold InBall dist3
    refine Real.sqrt_le_iff.2 ⟨by norm_num, by norm_num⟩

end Enve
