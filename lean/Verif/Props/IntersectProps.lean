import Verif.Model.Intersection
import Verif.Lemmas.RealVec
import Verif.Spec.Geometry

/-! # Intersections of lines, planes, triangles and disks (C49–C53), exact reals -/

namespace Enve
open Scalar Spec

/-! ## C49: line and plane -/

/-- **C49.**  The intersection of a line and a plane is refused exactly when
`|direction · normal| ≤ tolerance`; otherwise the point returned is on the line and on the plane and
is the only such point. -/
theorem C49_line_plane (l : Line ℝ) (q : Plane ℝ) (tol : ℝ) (ht : 0 ≤ tol) :
    (Inter.linePlane l q tol = none ↔ |dot3 q.normal l.direction| ≤ tol) ∧
    ∀ p, Inter.linePlane l q tol = some p →
      OnLine l p ∧ OnPlane q p ∧ ∀ p', OnLine l p' → OnPlane q p' → p' = p := by
  have hd : V3.dot q.normal l.direction = dot3 q.normal l.direction := V3.dot_eq _ _
  unfold Inter.linePlane
  simp only [hd, real_lt, real_abs, real_div]
  by_cases h : tol < |dot3 q.normal l.direction|
  · have h0 : dot3 q.normal l.direction ≠ 0 := by
      intro h0; rw [h0, abs_zero] at h; linarith
    simp only [h, decide_true, if_true]
    refine ⟨⟨fun h' => by simp at h', fun h' => absurd h (not_lt.2 h')⟩, ?_⟩
    rintro p hp
    have hp := (Option.some.inj hp).symm
    subst hp
    have h0' := h0
    simp only [dot3] at h0'
    refine ⟨⟨_, by rw [along, V3.real_smul, V3.real_add]⟩, ?_, ?_⟩
    · simp only [OnPlane, dot3, minus]
      v3
      field_simp
      ring
    · rintro p' ⟨t, rfl⟩ hp'
      simp only [OnPlane, dot3, minus, along] at hp'
      have ht : t = ((q.origin.x - l.origin.x) * q.normal.x + (q.origin.y - l.origin.y) * q.normal.y +
          (q.origin.z - l.origin.z) * q.normal.z) / dot3 q.normal l.direction := by
        rw [eq_div_iff h0]
        simp only [dot3]
        linear_combination hp'
      rw [ht, along]
      v3
  · simp only [h, decide_false, Bool.false_eq_true, if_false]
    exact ⟨by simpa using not_lt.1 h, fun p hp => by simp at hp⟩

/-! ## C50: line and triangle -/

/-- The point returned by the line/triangle intersection, with the numbers computed on the way. -/
theorem Inter.lineTriangle_spec (l : Line ℝ) (t : Triangle ℝ) (tol : ℝ)
    (ha : box3 l.direction t ≠ 0) (hb : tol ≤ |box3 l.direction t|) :
    ∃ u v r : ℝ,
      along l.origin r l.direction = ⟨(1 - u - v) * t.v0.x + u * t.v1.x + v * t.v2.x,
        (1 - u - v) * t.v0.y + u * t.v1.y + v * t.v2.y,
        (1 - u - v) * t.v0.z + u * t.v1.z + v * t.v2.z⟩ ∧
      (∀ u' v' r' : ℝ, along l.origin r' l.direction =
        ⟨(1 - u' - v') * t.v0.x + u' * t.v1.x + v' * t.v2.x,
        (1 - u' - v') * t.v0.y + u' * t.v1.y + v' * t.v2.y,
        (1 - u' - v') * t.v0.z + u' * t.v1.z + v' * t.v2.z⟩ → u' = u ∧ v' = v ∧ r' = r) ∧
      Inter.lineTriangle l t tol =
        if -tol ≤ u ∧ u ≤ 1 + tol ∧ -tol ≤ v ∧ u + v ≤ 1 + tol
        then some (along l.origin r l.direction) else none := by
  obtain ⟨o, d⟩ := l
  obtain ⟨p, q, w⟩ := t
  have e : V3.dot (V3.sub q p) (V3.cross d (V3.sub w p)) = - box3 d ⟨p, q, w⟩ := by
    simp only [box3, minus]; v3; ring
  dsimp only at ha hb
  have ha' : V3.dot (V3.sub q p) (V3.cross d (V3.sub w p)) ≠ 0 := by rw [e]; simpa using ha
  have hA := ha'
  simp only [V3.real_sub, V3.real_dot, V3.real_cross] at hA
  refine ⟨1 / V3.dot (V3.sub q p) (V3.cross d (V3.sub w p)) *
      V3.dot (V3.sub o p) (V3.cross d (V3.sub w p)),
    1 / V3.dot (V3.sub q p) (V3.cross d (V3.sub w p)) *
      V3.dot d (V3.cross (V3.sub o p) (V3.sub q p)),
    1 / V3.dot (V3.sub q p) (V3.cross d (V3.sub w p)) *
      V3.dot (V3.sub w p) (V3.cross (V3.sub o p) (V3.sub q p)), ?_, ?_, ?_⟩
  · simp only [along, V3.mk.injEq]
    generalize hG : V3.dot (V3.sub q p) (V3.cross d (V3.sub w p)) = A at ha' ⊢
    simp only [V3.real_sub, V3.real_dot, V3.real_cross] at hG
    v3
    refine ⟨?_, ?_, ?_⟩ <;> field_simp <;> rw [← hG] <;> ring
  · intro u' v' r' h
    simp only [along, V3.mk.injEq] at h
    obtain ⟨hx, hy, hz⟩ := h
    refine ⟨?_, ?_, ?_⟩ <;> rw [one_div, eq_inv_mul_iff_mul_eq₀ ha'] <;> v3
    · linear_combination (-(d.y * (w.z - p.z) - d.z * (w.y - p.y))) * hx
        - (d.z * (w.x - p.x) - d.x * (w.z - p.z)) * hy - (d.x * (w.y - p.y) - d.y * (w.x - p.x)) * hz
    · linear_combination (-((q.y - p.y) * d.z - (q.z - p.z) * d.y)) * hx
        - ((q.z - p.z) * d.x - (q.x - p.x) * d.z) * hy - ((q.x - p.x) * d.y - (q.y - p.y) * d.x) * hz
    · linear_combination (-((q.y - p.y) * (w.z - p.z) - (q.z - p.z) * (w.y - p.y))) * hx
        - ((q.z - p.z) * (w.x - p.x) - (q.x - p.x) * (w.z - p.z)) * hy
        - ((q.x - p.x) * (w.y - p.y) - (q.y - p.y) * (w.x - p.x)) * hz
  · have hband : ¬ (-tol < V3.dot (V3.sub q p) (V3.cross d (V3.sub w p)) ∧
        V3.dot (V3.sub q p) (V3.cross d (V3.sub w p)) < tol) := by
      rw [← abs_lt, e, abs_neg]; exact not_lt.2 hb
    simp only [Inter.lineTriangle, real_lt, real_neg, real_div, real_one, real_mul, real_sub, real_add,
      real_zero, zero_sub]
    rw [if_neg (by simpa using hband)]
    set u := 1 / V3.dot (V3.sub q p) (V3.cross d (V3.sub w p)) *
      V3.dot (V3.sub o p) (V3.cross d (V3.sub w p))
    set v := 1 / V3.dot (V3.sub q p) (V3.cross d (V3.sub w p)) *
      V3.dot d (V3.cross (V3.sub o p) (V3.sub q p))
    by_cases c1 : u < -tol ∨ 1 + tol < u
    · rw [if_pos (by simpa using c1), if_neg]
      rintro ⟨h1, h2, -⟩
      rcases c1 with c1 | c1 <;> linarith
    · rw [if_neg (by simpa using c1)]
      rw [not_or, not_lt, not_lt] at c1
      by_cases c2 : v < -tol ∨ 1 + tol < u + v
      · rw [if_pos (by simpa using c2), if_neg]
        rintro ⟨-, -, h1, h2⟩
        rcases c2 with c2 | c2 <;> linarith
      · rw [if_neg (by simpa using c2)]
        rw [not_or, not_lt, not_lt] at c2
        rw [if_pos ⟨c1.1, c1.2, c2.1, c2.2⟩, along, V3.real_smul, V3.real_add]

/-- **C50, tolerance zero.**  For a line that is not parallel to the triangle's plane, the
intersection with tolerance 0 succeeds exactly when the line meets the closed triangle, and then the
point returned is the one common point. -/
theorem C50_line_triangle_exact (l : Line ℝ) (t : Triangle ℝ) (ha : box3 l.direction t ≠ 0) :
    ((∃ p, Inter.lineTriangle l t 0 = some p) ↔
      ∃ p, OnLine l p ∧ InTriangle t.v0 t.v1 t.v2 p) ∧
    ∀ p, Inter.lineTriangle l t 0 = some p →
      OnLine l p ∧ InTriangle t.v0 t.v1 t.v2 p ∧
      ∀ p', OnLine l p' → InTriangle t.v0 t.v1 t.v2 p' → p' = p := by
  obtain ⟨u, v, r, h1, h2, h3⟩ := Inter.lineTriangle_spec l t 0 ha (abs_nonneg _)
  simp only [neg_zero, add_zero] at h3
  have key : ∀ p', OnLine l p' → InTriangle t.v0 t.v1 t.v2 p' →
      p' = along l.origin r l.direction ∧ 0 ≤ u ∧ u ≤ 1 ∧ 0 ≤ v ∧ u + v ≤ 1 := by
    rintro p' ⟨r', rfl⟩ ⟨a, b, c, h0, h0', h0'', hs, he⟩
    obtain ⟨rfl, rfl, rfl⟩ := h2 b c r' (by rw [he]; congr 1 <;> rw [← hs] <;> ring)
    exact ⟨rfl, h0', by linarith, h0'', by linarith⟩
  have hin : (0 ≤ u ∧ u ≤ 1 ∧ 0 ≤ v ∧ u + v ≤ 1) →
      InTriangle t.v0 t.v1 t.v2 (along l.origin r l.direction) := fun h =>
    ⟨1 - u - v, u, v, by linarith [h.2.2.2], h.1, h.2.2.1, by ring, h1⟩
  rw [h3]
  split
  · rename_i h
    refine ⟨⟨fun _ => ⟨_, ⟨r, rfl⟩, hin h⟩, fun _ => ⟨_, rfl⟩⟩, ?_⟩
    rintro p hp
    have hp := Option.some.inj hp
    subst hp
    exact ⟨⟨r, rfl⟩, hin h, fun p' a b => (key p' a b).1⟩
  · rename_i h
    refine ⟨⟨fun ⟨p, hp⟩ => (by cases hp), ?_⟩, fun p hp => (by cases hp)⟩
    rintro ⟨p, a, b⟩
    exact absurd (key p a b).2 h

/-- **C50, positive tolerance.**  With tolerance `e > 0`, lines whose spanned volume with the triangle's
edges is below `e` are refused; for all others no common point of line and closed triangle is missed,
and every point reported is on the line and has barycentric coordinates at least `-e`. -/
theorem C50_line_triangle_tolerance (l : Line ℝ) (t : Triangle ℝ) (e : ℝ) (he : 0 < e) :
    (|box3 l.direction t| < e → Inter.lineTriangle l t e = none) ∧
    (e ≤ |box3 l.direction t| →
      (∀ p, OnLine l p → InTriangle t.v0 t.v1 t.v2 p → Inter.lineTriangle l t e = some p) ∧
      (∀ p, Inter.lineTriangle l t e = some p → OnLine l p ∧ NearTriangle e t p)) := by
  constructor
  · intro h
    have e1 : V3.dot (V3.sub t.v1 t.v0) (V3.cross l.direction (V3.sub t.v2 t.v0)) =
        - box3 l.direction t := by
      simp only [box3, minus]; v3; ring
    rw [← abs_neg, ← e1, abs_lt] at h
    simp only [Inter.lineTriangle, real_lt, real_neg]
    rw [if_pos (by simpa using h)]
  · intro h
    have ha : box3 l.direction t ≠ 0 := by intro h0; rw [h0, abs_zero] at h; linarith
    obtain ⟨u, v, r, h1, h2, h3⟩ := Inter.lineTriangle_spec l t e ha h
    rw [h3]
    constructor
    · rintro p ⟨r', rfl⟩ ⟨a, b, c, h0, h0', h0'', hs, hp⟩
      obtain ⟨rfl, rfl, rfl⟩ := h2 b c r' (by rw [hp]; congr 1 <;> rw [← hs] <;> ring)
      rw [if_pos ⟨by linarith, by linarith, by linarith, by linarith⟩]
    · intro p hp
      split at hp
      · rename_i hc
        have hp := Option.some.inj hp
        subst hp
        exact ⟨⟨r, rfl⟩, 1 - u - v, u, v, by linarith [hc.2.2.2], hc.1, hc.2.2.1, by ring, h1⟩
      · cases hp

/-- A line through the inside of a triangle. -/
example : ∃ (l : Line ℝ) (t : Triangle ℝ) (p : V3 ℝ), box3 l.direction t = -1 ∧ OnLine l p ∧
    InTriangle t.v0 t.v1 t.v2 p :=
  ⟨⟨⟨1/4, 1/4, 3⟩, ⟨0, 0, -1⟩⟩, ⟨⟨0, 0, 0⟩, ⟨1, 0, 0⟩, ⟨0, 1, 0⟩⟩, ⟨1/4, 1/4, 0⟩,
    by norm_num [box3, minus], ⟨3, by norm_num [along]⟩,
    ⟨1/2, 1/4, 1/4, by norm_num, by norm_num, by norm_num, by norm_num, by norm_num⟩⟩

/-! ## C51: two planes -/

/-- Every vector in terms of two vectors and their cross product. -/
theorem V3.decomp (a b x : V3 ℝ) :
    let D := V3.cross a b
    let c := dot3 a b
    let A := dot3 x a * dot3 b b - dot3 x b * c
    let B := dot3 x b * dot3 a a - dot3 x a * c
    dot3 D D * x.x = dot3 x D * D.x + A * a.x + B * b.x ∧
    dot3 D D * x.y = dot3 x D * D.y + A * a.y + B * b.y ∧
    dot3 D D * x.z = dot3 x D * D.z + A * a.z + B * b.z := by
  simp only [dot3, V3.real_cross]
  refine ⟨?_, ?_, ?_⟩ <;> ring

theorem V3.cross_sq (a b : V3 ℝ) :
    dot3 (V3.cross a b) (V3.cross a b) = dot3 a a * dot3 b b - dot3 a b ^ 2 := by
  simp only [dot3, V3.real_cross]; ring

theorem Spec.Unit3.dot {a : V3 ℝ} (h : Unit3 a) : dot3 a a = 1 := by
  unfold Unit3 at h; unfold dot3; linear_combination h

/-- What the intersection of two planes with unit normals computes. -/
theorem Inter.planePlane_unit (p q : Plane ℝ) (hp : Unit3 p.normal) (hq : Unit3 q.normal) (tol : ℝ) :
    Inter.planePlane p q tol =
      if dot3 (V3.cross p.normal q.normal) (V3.cross p.normal q.normal) < tol then none else
      let c := dot3 p.normal q.normal
      let d0 := dot3 p.origin p.normal
      let d1 := dot3 q.origin q.normal
      some ⟨⟨(d0 - c * d1) / (1 - c ^ 2) * p.normal.x + (d1 - c * d0) / (1 - c ^ 2) * q.normal.x,
        (d0 - c * d1) / (1 - c ^ 2) * p.normal.y + (d1 - c * d0) / (1 - c ^ 2) * q.normal.y,
        (d0 - c * d1) / (1 - c ^ 2) * p.normal.z + (d1 - c * d0) / (1 - c ^ 2) * q.normal.z⟩,
        V3.cross p.normal q.normal⟩ := by
  have h1 : V3.normalized p.normal = p.normal := V3.normalized_unit hp
  have h2 : V3.normalized q.normal = q.normal := V3.normalized_unit hq
  have h3 : V3.norm (V3.cross p.normal q.normal) * V3.norm (V3.cross p.normal q.normal) =
      dot3 (V3.cross p.normal q.normal) (V3.cross p.normal q.normal) := by
    rw [V3.norm_mul_self, V3.sqNorm, V3.dot_eq]
  have h4 : 0 ≤ dot3 (V3.cross p.normal q.normal) (V3.cross p.normal q.normal) := by
    rw [← h3]; exact mul_self_nonneg _
  simp only [Inter.planePlane, h1, h2, Scalar.isApprox, real_lt, real_mul, real_sub, real_zero, sub_zero,
    real_abs, h3, abs_of_nonneg h4, real_neg, Plane.d, neg_neg, real_div, real_one, V3.dot_eq,
    decide_eq_true_eq]
  congr 2
  simp only [V3.real_smul, V3.real_add]
  have e : ∀ x y : ℝ, x * (1 / (1 - y * y)) = x / (1 - y ^ 2) := fun x y => by
    rw [mul_one_div, sq]
  simp only [e]

/-- **C51.**  For planes with unit normals and a positive tolerance: the intersection fails exactly
when the squared sine of the angle between the planes is below the tolerance; when it succeeds, the
points of the line returned are exactly the common points of the two planes. -/
theorem C51_plane_plane (p q : Plane ℝ) (hp : Unit3 p.normal) (hq : Unit3 q.normal) (tol : ℝ)
    (ht : 0 < tol) :
    (Inter.planePlane p q tol = none ↔ 1 - dot3 p.normal q.normal ^ 2 < tol) ∧
    ∀ l, Inter.planePlane p q tol = some l → ∀ x, OnLine l x ↔ OnPlane p x ∧ OnPlane q x := by
  have hc := V3.cross_sq p.normal q.normal
  rw [hp.dot, hq.dot, mul_one] at hc
  rw [Inter.planePlane_unit p q hp hq tol, hc]
  constructor
  · split <;> simp_all
  · intro l hl
    split at hl
    · cases hl
    · rename_i hlt
      have hl := (Option.some.inj hl).symm
      have h0 : 1 - dot3 p.normal q.normal ^ 2 ≠ 0 := by
        intro h0; rw [h0] at hlt; exact hlt ht
      have hp' := hp.dot
      have hq' := hq.dot
      intro x
      have hcomm : dot3 q.normal p.normal = dot3 p.normal q.normal := by unfold dot3; ring
      constructor
      · rintro ⟨t, rfl⟩
        subst hl
        generalize hc' : dot3 p.normal q.normal = c at *
        generalize hd0 : dot3 p.origin p.normal = d0
        generalize hd1 : dot3 q.origin q.normal = d1
        simp only [dot3] at hc' hd0 hd1 hp' hq'
        have k0 : (d0 - c * d1) / (1 - c ^ 2) + (d1 - c * d0) / (1 - c ^ 2) * c = d0 := by
          field_simp; ring
        have k1 : (d0 - c * d1) / (1 - c ^ 2) * c + (d1 - c * d0) / (1 - c ^ 2) = d1 := by
          field_simp; ring
        generalize (d0 - c * d1) / (1 - c ^ 2) = A at *
        generalize (d1 - c * d0) / (1 - c ^ 2) = B at *
        simp only [OnPlane, minus, dot3, along, V3.real_cross]
        exact ⟨by linear_combination A * hp' + B * hc' + k0 - hd0,
          by linear_combination A * hc' + B * hq' + k1 - hd1⟩
      · rintro ⟨h1, h2⟩
        have e1 : dot3 x p.normal = dot3 p.origin p.normal := by
          simp only [OnPlane, minus, dot3] at h1 ⊢; linear_combination h1
        have e2 : dot3 x q.normal = dot3 q.origin q.normal := by
          simp only [OnPlane, minus, dot3] at h2 ⊢; linear_combination h2
        have hdec := V3.decomp p.normal q.normal x
        dsimp only at hdec
        rw [hc, hp', hq', e1, e2] at hdec
        obtain ⟨k1, k2, k3⟩ := hdec
        refine ⟨dot3 x (V3.cross p.normal q.normal) / (1 - dot3 p.normal q.normal ^ 2), ?_⟩
        rw [hl]
        simp only [along]
        ext
        · dsimp only; field_simp; linear_combination k1
        · dsimp only; field_simp; linear_combination k2
        · dsimp only; field_simp; linear_combination k3

/-- Two planes, a wall and a slope. -/
example : Unit3 (⟨1, 0, 0⟩ : V3 ℝ) ∧ Unit3 (⟨0, 3/5, 4/5⟩ : V3 ℝ) ∧
    ¬ (1 - dot3 (⟨1, 0, 0⟩ : V3 ℝ) ⟨0, 3/5, 4/5⟩ ^ 2 < Scalar.eps) := by
  refine ⟨by norm_num [Unit3], by norm_num [Unit3], ?_⟩
  have := real_eps_lt_one
  simp only [dot3]
  norm_num
  linarith

/-! ## C52: plane and disk -/

/-- The foot of the perpendicular from `c` to the line. -/
noncomputable def Spec.foot (l : Line ℝ) (c : V3 ℝ) : V3 ℝ :=
  along l.origin (-(dot3 (minus l.origin c) l.direction / dot3 l.direction l.direction)) l.direction

theorem Spec.foot_orth (l : Line ℝ) (c : V3 ℝ) (h : dot3 l.direction l.direction ≠ 0) :
    dot3 (minus (foot l c) c) l.direction = 0 := by
  unfold foot
  generalize hA : dot3 l.direction l.direction = A at *
  generalize hB : dot3 (minus l.origin c) l.direction = B
  simp only [dot3, minus, along] at hA hB ⊢
  have : B / A * A = B := by field_simp
  linear_combination hB - B / A * hA - this

/-- Squared distance from `c` of a point of the line given relative to the foot of the perpendicular. -/
theorem Spec.foot_dist (l : Line ℝ) (c : V3 ℝ) (h : dot3 l.direction l.direction ≠ 0) (t : ℝ) :
    dist3 (along (foot l c) t l.direction) c ^ 2 =
      dist3 (foot l c) c ^ 2 + t ^ 2 * dot3 l.direction l.direction := by
  have ho := foot_orth l c h
  unfold dist3
  rw [Real.sq_sqrt (by positivity), Real.sq_sqrt (by positivity)]
  simp only [dot3, minus, along] at ho ⊢
  linear_combination 2 * t * ho

theorem Spec.onLine_foot (l : Line ℝ) (c x : V3 ℝ) :
    OnLine l x ↔ ∃ t, x = along (foot l c) t l.direction := by
  unfold foot
  constructor
  · rintro ⟨t, rfl⟩
    exact ⟨t + dot3 (minus l.origin c) l.direction / dot3 l.direction l.direction, by
      simp only [along]; congr 1 <;> ring⟩
  · rintro ⟨t, rfl⟩
    exact ⟨t - dot3 (minus l.origin c) l.direction / dot3 l.direction l.direction, by
      simp only [along]; congr 1 <;> ring⟩

/-- What the intersection of a line and a disk computes: nothing if the line passes too far from the
centre, the foot of the perpendicular in the tangency band, and otherwise the two points of the line
at distance `radius` from the centre. -/
theorem Inter.lineDisk_spec (l : Line ℝ) (d : Disk ℝ) (tol : ℝ) (ht : 0 < tol)
    (h : dot3 l.direction l.direction ≠ 0) :
    let f := foot l d.center
    let disc := dot3 l.direction l.direction * (d.radius ^ 2 - dist3 f d.center ^ 2)
    (Inter.lineDisk l d tol = none ∧ disc < -tol) ∨
    ∃ ρ : ℝ, Inter.lineDisk l d tol =
        some ⟨along f (-ρ) l.direction, along f ρ l.direction⟩ ∧ 0 ≤ ρ ∧
      ((ρ = 0 ∧ -tol ≤ disc ∧ disc < tol) ∨
       (0 < ρ ∧ tol ≤ disc ∧ dist3 f d.center ^ 2 + ρ ^ 2 * dot3 l.direction l.direction = d.radius ^ 2)) := by
  intro f disc
  have hA : 0 < dot3 l.direction l.direction := by
    refine lt_of_le_of_ne ?_ (Ne.symm h)
    unfold dot3
    nlinarith [sq_nonneg l.direction.x, sq_nonneg l.direction.y, sq_nonneg l.direction.z]
  have hf : dist3 f d.center ^ 2 = dot3 (minus l.origin d.center) (minus l.origin d.center) -
      dot3 (minus l.origin d.center) l.direction ^ 2 / dot3 l.direction l.direction := by
    have := foot_dist l d.center h
      (dot3 (minus l.origin d.center) l.direction / dot3 l.direction l.direction)
    have e : along (foot l d.center)
        (dot3 (minus l.origin d.center) l.direction / dot3 l.direction l.direction) l.direction =
        l.origin := by
      unfold foot; simp only [along]; ext <;> dsimp only <;> ring
    rw [e] at this
    have e2 : dist3 l.origin d.center ^ 2 =
        dot3 (minus l.origin d.center) (minus l.origin d.center) := by
      unfold dist3
      rw [Real.sq_sqrt (by positivity)]
      simp only [dot3, minus]; ring
    rw [e2] at this
    show dist3 (foot l d.center) d.center ^ 2 = _
    rw [this]
    field_simp
    ring
  have hdisc : V3.dot (V3.sub l.origin d.center) l.direction *
        V3.dot (V3.sub l.origin d.center) l.direction -
      (V3.dot (V3.sub l.origin d.center) (V3.sub l.origin d.center) - d.radius * d.radius) *
        V3.dot l.direction l.direction = disc := by
    show _ = dot3 l.direction l.direction * (d.radius ^ 2 - dist3 f d.center ^ 2)
    rw [hf]
    have e : V3.sub l.origin d.center = minus l.origin d.center := by rw [V3.real_sub]; rfl
    rw [e, V3.dot_eq, V3.dot_eq, V3.dot_eq]
    field_simp
    ring
  have e : V3.sub l.origin d.center = minus l.origin d.center := by rw [V3.real_sub]; rfl
  unfold Inter.lineDisk
  simp only [real_mul, real_sub, real_lt, real_neg, real_abs, real_div, real_one, real_add, real_sqrt,
    hdisc, decide_eq_true_eq]
  rw [e, V3.dot_eq, V3.dot_eq]
  by_cases h1 : disc < -tol
  · exact .inl ⟨by rw [if_pos h1], h1⟩
  · right
    rw [if_neg h1]
    by_cases h2 : |disc| < tol
    · rw [if_pos h2]
      refine ⟨0, ?_, le_rfl, .inl ⟨rfl, not_lt.1 h1, (abs_lt.1 h2).2⟩⟩
      congr 2
      · simp only [f, foot, along]; v3; congr 1 <;> field_simp <;> ring
      · simp only [f, foot, along]; v3; congr 1 <;> field_simp <;> ring
    · rw [if_neg h2]
      refine ⟨Real.sqrt disc / dot3 l.direction l.direction, ?_, by positivity, ?_⟩
      · congr 2
        · simp only [f, foot, along]; v3; congr 1 <;> field_simp <;> ring
        · simp only [f, foot, along]; v3; congr 1 <;> field_simp <;> ring
      · rw [not_lt, le_abs'] at h2
        rw [not_lt] at h1
        rcases h2 with h2 | h2
        · left
          have : disc = -tol := le_antisymm h2 h1
          refine ⟨?_, h1, by linarith⟩
          rw [Real.sqrt_eq_zero_of_nonpos (by linarith), zero_div]
        · right
          have hp : 0 < disc := lt_of_lt_of_le ht h2
          refine ⟨by positivity, h2, ?_⟩
          rw [div_pow, Real.sq_sqrt hp.le]
          show _ + dot3 l.direction l.direction * (d.radius ^ 2 - dist3 f d.center ^ 2) / _ * _ = _
          field_simp
          ring

theorem Spec.dist3_comm (p q : V3 ℝ) : dist3 p q = dist3 q p := by
  unfold dist3; congr 1; ring

theorem Spec.dist3_nonneg (p q : V3 ℝ) : 0 ≤ dist3 p q := Real.sqrt_nonneg _

theorem Spec.dist3_sq (p q : V3 ℝ) :
    dist3 p q ^ 2 = (p.x - q.x) ^ 2 + (p.y - q.y) ^ 2 + (p.z - q.z) ^ 2 :=
  Real.sq_sqrt (by positivity)

theorem Spec.dist3_eq_zero {p q : V3 ℝ} : dist3 p q = 0 ↔ p = q := by
  constructor
  · intro h
    have h2 := dist3_sq p q
    rw [h] at h2
    have a := sq_nonneg (p.x - q.x); have b := sq_nonneg (p.y - q.y); have c := sq_nonneg (p.z - q.z)
    ext
    · have : (p.x - q.x) ^ 2 = 0 := by linarith
      linarith [pow_eq_zero_iff (two_ne_zero) |>.1 this]
    · have : (p.y - q.y) ^ 2 = 0 := by linarith
      linarith [pow_eq_zero_iff (two_ne_zero) |>.1 this]
    · have : (p.z - q.z) ^ 2 = 0 := by linarith
      linarith [pow_eq_zero_iff (two_ne_zero) |>.1 this]
  · rintro rfl; simp [dist3]

theorem Spec.dist3_along (f : V3 ℝ) (t : ℝ) (D : V3 ℝ) : dist3 (along f t D) f ^ 2 = t ^ 2 * dot3 D D := by
  rw [dist3_sq]; simp only [along, dot3]; ring

/-- The line of the section of a disk by a plane: its direction, its points and its distance from the
centre. -/
theorem Inter.planeDisk_spec (p : Plane ℝ) (d : Disk ℝ) (hp : Unit3 p.normal)
    (hd : Unit3 d.plane.normal) (tol : ℝ) (ht : 0 < tol) :
    (Inter.planeDisk p d tol = none ∧ 1 - dot3 p.normal d.plane.normal ^ 2 < tol) ∨
    ∃ (l : Line ℝ), l.direction = V3.cross p.normal d.plane.normal ∧
      tol ≤ dot3 l.direction l.direction ∧
      dot3 l.direction l.direction = 1 - dot3 p.normal d.plane.normal ^ 2 ∧
      (∀ x, OnLine l x ↔ OnPlane p x ∧ OnPlane d.plane x) ∧
      Inter.planeDisk p d tol = Inter.lineDisk l d tol := by
  have h := C51_plane_plane p d.layingPlane hp hd tol ht
  have hu := Inter.planePlane_unit p d.layingPlane hp hd tol
  unfold Inter.planeDisk
  cases hl : Inter.planePlane p d.layingPlane tol with
  | none => exact .inl ⟨rfl, h.1.1 hl⟩
  | some l =>
    right
    have hx := h.2 l hl
    rw [hl] at hu
    split at hu
    · cases hu
    · have hu := Option.some.inj hu
      have hdir : l.direction = V3.cross p.normal d.plane.normal := by rw [hu]; rfl
      have hsq : dot3 l.direction l.direction = 1 - dot3 p.normal d.plane.normal ^ 2 := by
        rw [hdir, V3.cross_sq, hp.dot, hd.dot, mul_one]
      refine ⟨l, hdir, ?_, hsq, hx, rfl⟩
      have : ¬ (1 - dot3 p.normal d.plane.normal ^ 2 < tol) := by
        intro hc; have := h.1.2 hc; rw [hl] at this; cases this
      rw [hsq]; exact not_lt.1 this

/-- **C52.**  For unit normals, a positive tolerance and a non-negative radius, when the intersection of
a plane and a disk succeeds: both end points are on the plane and in the disk's plane; if they differ
(that is, outside the tangency band), both are at distance `radius` from the centre, and the segment
consists of exactly the common points of plane and disk; if they coincide, every common point is
within the tolerance. -/
theorem C52_plane_disk (p : Plane ℝ) (d : Disk ℝ) (hp : Unit3 p.normal) (hd : Unit3 d.plane.normal)
    (hr : 0 ≤ d.radius) (tol : ℝ) (ht : 0 < tol) (s : Segment ℝ)
    (hs : Inter.planeDisk p d tol = some s) :
    (OnPlane p s.v0 ∧ OnPlane p s.v1) ∧ (OnPlane d.plane s.v0 ∧ OnPlane d.plane s.v1) ∧
    (s.v0 ≠ s.v1 → dist3 s.v0 d.plane.origin = d.radius ∧ dist3 s.v1 d.plane.origin = d.radius ∧
      ∀ x, OnSegment s x ↔ OnPlane p x ∧ InDisk d x) ∧
    (s.v0 = s.v1 → ∀ x, OnPlane p x → InDisk d x →
      dist3 x s.v0 ^ 2 * (1 - dot3 p.normal d.plane.normal ^ 2) < tol) := by
  rcases Inter.planeDisk_spec p d hp hd tol ht with ⟨h, -⟩ | ⟨l, -, htol, hsq, hx, he⟩
  · rw [h] at hs; cases hs
  have hne : dot3 l.direction l.direction ≠ 0 := by linarith [ht.trans_le htol]
  have hA : 0 < dot3 l.direction l.direction := ht.trans_le htol
  rw [he] at hs
  have hon : ∀ t, OnPlane p (along (foot l d.center) t l.direction) ∧
      OnPlane d.plane (along (foot l d.center) t l.direction) := fun t =>
    (hx _).1 ((onLine_foot l d.center _).2 ⟨t, rfl⟩)
  rcases Inter.lineDisk_spec l d tol ht hne with ⟨h, -⟩ | ⟨ρ, h1, h0, h2⟩
  · rw [h] at hs; cases hs
  rw [h1] at hs
  have hs := (Option.some.inj hs).symm
  subst hs
  refine ⟨⟨(hon _).1, (hon _).1⟩, ⟨(hon _).2, (hon _).2⟩, fun hv => ?_, fun hv x hxp hxd => ?_⟩
  · rcases h2 with ⟨rfl, -⟩ | ⟨hρ, -, h2⟩
    · exact absurd (by simp) hv
    have dist : ∀ t, dist3 (along (foot l d.center) t l.direction) d.center ^ 2 =
        d.radius ^ 2 + (t ^ 2 - ρ ^ 2) * dot3 l.direction l.direction := fun t => by
      rw [foot_dist l d.center hne]; linear_combination h2
    have hdist : ∀ t, t ^ 2 = ρ ^ 2 →
        dist3 (along (foot l d.center) t l.direction) d.center = d.radius := fun t ht' => by
      have := dist t
      rw [ht', sub_self, zero_mul, add_zero] at this
      exact (pow_left_inj₀ (dist3_nonneg _ _) hr two_ne_zero).1 this
    refine ⟨hdist _ (by ring), hdist _ rfl, fun x => ⟨?_, ?_⟩⟩
    · rintro ⟨t, ht0, ht1, rfl⟩
      have e : along (along (foot l d.center) (-ρ) l.direction) t
          (minus (along (foot l d.center) ρ l.direction) (along (foot l d.center) (-ρ) l.direction)) =
          along (foot l d.center) ((2 * t - 1) * ρ) l.direction := by
        simp only [along, minus]; congr 1 <;> ring
      dsimp only
      rw [e]
      refine ⟨(hon _).1, (hon _).2, ?_⟩
      have hd' := dist ((2 * t - 1) * ρ)
      have : ((2 * t - 1) * ρ) ^ 2 - ρ ^ 2 ≤ 0 := by
        have : (1 - t) * t ≥ 0 := mul_nonneg (by linarith) ht0
        nlinarith [mul_nonneg this (sq_nonneg ρ)]
      have : dist3 (along (foot l d.center) ((2 * t - 1) * ρ) l.direction) d.center ^ 2 ≤ d.radius ^ 2 := by
        rw [hd']; nlinarith
      exact (pow_le_pow_iff_left₀ (dist3_nonneg _ _) hr two_ne_zero).1 this
    · rintro ⟨hxp, hxd, hxr⟩
      obtain ⟨t, rfl⟩ := (onLine_foot l d.center x).1 ((hx x).2 ⟨hxp, hxd⟩)
      have hd' := dist t
      have hle : dist3 (along (foot l d.center) t l.direction) d.center ^ 2 ≤ d.radius ^ 2 :=
        (pow_le_pow_iff_left₀ (dist3_nonneg _ _) hr two_ne_zero).2 hxr
      have htρ : t ^ 2 ≤ ρ ^ 2 := by
        by_contra hc
        rw [not_le] at hc
        have := mul_pos (sub_pos.2 hc) hA
        linarith
      have habs := abs_le.1 (abs_le_of_sq_le_sq htρ hρ.le)
      refine ⟨(t + ρ) / (2 * ρ), div_nonneg (by linarith [habs.1]) (by linarith),
        (div_le_one (by linarith)).2 (by linarith [habs.2]), ?_⟩
      simp only [along, minus]
      congr 1 <;> field_simp <;> ring
  · have hρ : ρ = 0 := by
      by_contra hne'
      have e1 := dist3_along (foot l d.center) ρ l.direction
      have : (2 * ρ) ^ 2 * dot3 l.direction l.direction = 0 := by
        rw [← dist3_along (along (foot l d.center) (-ρ) l.direction)]
        have : along (along (foot l d.center) (-ρ) l.direction) (2 * ρ) l.direction =
            along (foot l d.center) ρ l.direction := by
          simp only [along]; congr 1 <;> ring
        rw [this]
        dsimp only at hv
        rw [hv, dist3_eq_zero.2 rfl]; ring
      rcases mul_eq_zero.1 this with h | h
      · exact hne' (by linarith [pow_eq_zero_iff (two_ne_zero) |>.1 h])
      · exact hne h
    subst hρ
    have hdisc : dot3 l.direction l.direction * (d.radius ^ 2 - dist3 (foot l d.center) d.center ^ 2) < tol := by
      rcases h2 with ⟨-, -, h2⟩ | ⟨h2, -⟩
      · exact h2
      · exact absurd h2 (lt_irrefl _)
    obtain ⟨t, rfl⟩ := (onLine_foot l d.center x).1 ((hx x).2 ⟨hxp, hxd.1⟩)
    have e : along (foot l d.center) (-0) l.direction = foot l d.center := by simp [along]
    dsimp only
    rw [e, dist3_along, ← hsq]
    have h3 := foot_dist l d.center hne t
    have hle : dist3 (along (foot l d.center) t l.direction) d.center ^ 2 ≤ d.radius ^ 2 :=
      (pow_le_pow_iff_left₀ (dist3_nonneg _ _) hr two_ne_zero).2 hxd.2
    have : t ^ 2 * dot3 l.direction l.direction ≤ d.radius ^ 2 - dist3 (foot l d.center) d.center ^ 2 := by
      linarith
    calc t ^ 2 * dot3 l.direction l.direction * dot3 l.direction l.direction
        ≤ (d.radius ^ 2 - dist3 (foot l d.center) d.center ^ 2) * dot3 l.direction l.direction := by
          gcongr
      _ < tol := by linarith

/-- **C52, refusals.**  When the intersection of a plane and a disk fails, either the squared sine of
the angle between plane and disk is below the tolerance, or plane and disk have no common point. -/
theorem C52_plane_disk_none (p : Plane ℝ) (d : Disk ℝ) (hp : Unit3 p.normal)
    (hd : Unit3 d.plane.normal) (hr : 0 ≤ d.radius) (tol : ℝ) (ht : 0 < tol)
    (hs : Inter.planeDisk p d tol = none) :
    1 - dot3 p.normal d.plane.normal ^ 2 < tol ∨ ∀ x, ¬ (OnPlane p x ∧ InDisk d x) := by
  rcases Inter.planeDisk_spec p d hp hd tol ht with ⟨-, h⟩ | ⟨l, -, htol, hsq, hx, he⟩
  · exact .inl h
  right
  have hA : 0 < dot3 l.direction l.direction := ht.trans_le htol
  rw [he] at hs
  rcases Inter.lineDisk_spec l d tol ht hA.ne' with ⟨-, h⟩ | ⟨ρ, h1, -⟩
  · rintro x ⟨hxp, hxd, hxr⟩
    obtain ⟨t, rfl⟩ := (onLine_foot l d.center x).1 ((hx x).2 ⟨hxp, hxd⟩)
    have h3 := foot_dist l d.center hA.ne' t
    have hle : dist3 (along (foot l d.center) t l.direction) d.center ^ 2 ≤ d.radius ^ 2 :=
      (pow_le_pow_iff_left₀ (dist3_nonneg _ _) hr two_ne_zero).2 hxr
    have h4 : 0 ≤ t ^ 2 * dot3 l.direction l.direction := by positivity
    have : 0 ≤ dot3 l.direction l.direction * (d.radius ^ 2 - dist3 (foot l d.center) d.center ^ 2) :=
      mul_nonneg hA.le (by linarith)
    linarith
  · rw [h1] at hs; cases hs

/-- A vertical disk of radius 1, its centre half a unit above the ground, is cut in a proper chord. -/
example : ∃ s : Segment ℝ, Inter.planeDisk ⟨⟨0, 0, 0⟩, ⟨0, 0, 1⟩⟩ ⟨1, ⟨⟨0, 0, 1/2⟩, ⟨0, 1, 0⟩⟩⟩ Scalar.eps = some s ∧
    s.v0 ≠ s.v1 := by
  have heps := real_eps_pos
  have heps1 : (Scalar.eps : ℝ) < 1 / 2 := by rw [real_eps]; norm_num
  rcases Inter.planeDisk_spec ⟨⟨0, 0, 0⟩, ⟨0, 0, 1⟩⟩ ⟨1, ⟨⟨0, 0, 1/2⟩, ⟨0, 1, 0⟩⟩⟩
    (by norm_num [Unit3]) (by norm_num [Unit3]) Scalar.eps heps with
    ⟨-, h⟩ | ⟨l, hdir, htol, hsq, hx, he⟩
  · norm_num [dot3] at h; linarith
  have hA : dot3 l.direction l.direction = 1 := by rw [hsq]; norm_num [dot3]
  have hf : foot l ⟨0, 0, 1/2⟩ = ⟨0, 0, 0⟩ := by
    have h1 := (hx _).1 ((onLine_foot l ⟨0, 0, 1/2⟩ _).2 ⟨0, rfl⟩)
    have h2 := foot_orth l ⟨0, 0, 1/2⟩ (by rw [hA]; norm_num)
    have e : along (foot l ⟨0, 0, 1/2⟩) 0 l.direction = foot l ⟨0, 0, 1/2⟩ := by simp [along]
    rw [e] at h1
    rw [hdir] at h2
    simp only [OnPlane, dot3, minus, V3.real_cross] at h1 h2
    norm_num at h1 h2
    ext
    · exact h2
    · exact h1.2
    · exact h1.1
  rcases Inter.lineDisk_spec l ⟨1, ⟨⟨0, 0, 1/2⟩, ⟨0, 1, 0⟩⟩⟩ Scalar.eps heps (by rw [hA]; norm_num) with
    ⟨-, h⟩ | ⟨ρ, h1, -, h2⟩
  · simp only [Disk.center] at h
    rw [hf, hA, dist3_sq] at h
    norm_num at h
    linarith
  · simp only [Disk.center] at h1 h2
    rw [hf, hA, dist3_sq] at h2
    refine ⟨_, by rw [he, h1], ?_⟩
    rcases h2 with ⟨-, -, h2⟩ | ⟨h2, -⟩
    · norm_num at h2; linarith
    · intro hc
      have h3 := congrArg (fun v => v.x) hc
      rw [hf, hdir] at h3
      simp only [along, V3.real_cross] at h3
      norm_num at h3
      linarith

/-! ## C53: triangle and disk -/

/-- Three vectors orthogonal to a unit vector have no volume. -/
theorem Spec.triple_zero {n w a b : V3 ℝ} (hn : Unit3 n) (hw : dot3 w n = 0) (ha : dot3 a n = 0)
    (hb : dot3 b n = 0) : dot3 w (V3.cross a b) = 0 := by
  unfold Unit3 at hn
  simp only [dot3, V3.real_cross] at *
  linear_combination (-(w.x * (a.y * b.z - a.z * b.y) + w.y * (a.z * b.x - a.x * b.z) +
      w.z * (a.x * b.y - a.y * b.x))) * hn +
    ((a.y * b.z - a.z * b.y) * n.x + (a.z * b.x - a.x * b.z) * n.y + (a.x * b.y - a.y * b.x) * n.z) * hw +
    (b.x * (w.y * n.z - w.z * n.y) + b.y * (w.z * n.x - w.x * n.z) + b.z * (w.x * n.y - w.y * n.x)) * ha -
    (a.x * (w.y * n.z - w.z * n.y) + a.y * (w.z * n.x - w.x * n.z) + a.z * (w.x * n.y - w.y * n.x)) * hb

/-- The intersection of a line with a segment in the same plane is on the line and, up to the
tolerance, on the segment. -/
theorem Inter.lineSegment_spec (l : Line ℝ) (s : Segment ℝ) (tol : ℝ) (ht : 0 < tol)
    (hc : dot3 (minus s.v0 l.origin) (V3.cross l.direction (minus s.v1 s.v0)) = 0) (p : V3 ℝ)
    (hp : Inter.lineSegment l s tol = some p) :
    OnLine l p ∧ ∃ t : ℝ, -tol ≤ t ∧ t ≤ 1 + tol ∧ p = along s.v0 t (minus s.v1 s.v0) := by
  unfold Inter.lineSegment at hp
  split at hp
  · cases hp
  rename_i hpar
  dsimp only at hp
  have e1 : V3.sub s.v1 s.v0 = minus s.v1 s.v0 := by rw [V3.real_sub]; rfl
  have hne : V3.cross l.direction (minus s.v1 s.v0) ≠ ⟨0, 0, 0⟩ := by
    intro h0
    apply hpar
    simp only [Inter.isParallel, Scalar.isApprox, real_lt, real_sub, real_zero, sub_zero, real_abs,
      decide_eq_true_eq, Segment.toUnitVector, e1]
    have : V3.cross l.direction (V3.normalized (minus s.v1 s.v0)) = ⟨0, 0, 0⟩ := by
      by_cases hz : minus s.v1 s.v0 = ⟨0, 0, 0⟩
      · rw [V3.normalized_zero hz]; exact h0
      · rw [V3.normalized_of_ne hz]
        have hn := V3.norm_pos.2 hz
        rw [V3.real_cross, V3.mk.injEq] at h0
        obtain ⟨a, b, c⟩ := h0
        rw [V3.real_cross]
        dsimp only
        ext <;> dsimp only <;> field_simp
        · linarith
        · linarith
        · linarith
    rw [this]
    rw [V3.norm_eq_zero.2 rfl, abs_zero]; exact ht
  have hA : 0 < dot3 (V3.cross l.direction (minus s.v1 s.v0)) (V3.cross l.direction (minus s.v1 s.v0)) := by
    rw [← V3.dot_eq]; exact V3.sqNorm_pos.2 hne
  simp only [Segment.toVector, e1, real_div, real_lt, real_sub, real_zero, zero_sub, real_one,
    real_add] at hp
  generalize hD : minus s.v1 s.v0 = D at *
  generalize hA' : dot3 (V3.cross l.direction D) (V3.cross l.direction D) = A at hA
  have hA'' := hA'
  simp only [dot3, V3.real_cross] at hA''
  have et0 : V3.dot (V3.cross (V3.sub s.v0 l.origin) D) (V3.cross l.direction D) /
      V3.dot (V3.cross l.direction D) (V3.cross l.direction D) =
      dot3 (V3.cross (minus s.v0 l.origin) D) (V3.cross l.direction D) / A := by
    rw [V3.dot_eq, V3.dot_eq, hA', V3.real_sub]; rfl
  have et1 : V3.dot (V3.cross (V3.sub l.origin s.v0) l.direction)
        (V3.neg (V3.cross l.direction D)) /
      V3.dot (V3.neg (V3.cross l.direction D)) (V3.neg (V3.cross l.direction D)) =
      dot3 (V3.cross (minus s.v0 l.origin) l.direction) (V3.cross l.direction D) / A := by
    rw [V3.dot_eq, V3.dot_eq]
    congr 1
    · simp only [dot3, minus]; v3; ring
    · rw [← hA']; simp only [dot3]; v3; ring
  rw [et0, et1] at hp
  split at hp
  · cases hp
  rename_i hcond
  simp only [Bool.or_eq_true, decide_eq_true_eq, not_or, not_lt] at hcond
  have hp := (Option.some.inj hp).symm
  rw [V3.real_smul, V3.real_add] at hp
  refine ⟨⟨_, hp⟩, _, hcond.1, hcond.2, ?_⟩
  rw [hp]
  simp only [dot3, V3.real_cross, minus] at hc ⊢
  ext
  · simp only [along]; field_simp
    rw [← hA'']
    linear_combination -(l.direction.y * D.z - l.direction.z * D.y) * hc
  · simp only [along]; field_simp
    rw [← hA'']
    linear_combination -(l.direction.z * D.x - l.direction.x * D.z) * hc
  · simp only [along]; field_simp
    rw [← hA'']
    linear_combination -(l.direction.x * D.y - l.direction.y * D.x) * hc

theorem Spec.NearTriangle.edge0 {e t : ℝ} {T : Triangle ℝ} (he : 0 < e) (h0 : -e ≤ t) (h1 : t ≤ 1 + e) :
    NearTriangle e T (along T.v0 t (minus T.v1 T.v0)) :=
  ⟨1 - t, t, 0, by linarith, h0, by linarith, by ring, by
    simp only [along, minus]; congr 1 <;> ring⟩

theorem Spec.NearTriangle.edge1 {e t : ℝ} {T : Triangle ℝ} (he : 0 < e) (h0 : -e ≤ t) (h1 : t ≤ 1 + e) :
    NearTriangle e T (along T.v1 t (minus T.v2 T.v1)) :=
  ⟨0, 1 - t, t, by linarith, by linarith, h0, by ring, by
    simp only [along, minus]; congr 1 <;> ring⟩

theorem Spec.NearTriangle.edge2 {e t : ℝ} {T : Triangle ℝ} (he : 0 < e) (h0 : -e ≤ t) (h1 : t ≤ 1 + e) :
    NearTriangle e T (along T.v2 t (minus T.v0 T.v2)) :=
  ⟨t, 0, 1 - t, h0, by linarith, by linarith, by ring, by
    simp only [along, minus]; congr 1 <;> ring⟩

theorem Spec.NearTriangle.convex {e t : ℝ} {T : Triangle ℝ} {p q : V3 ℝ} (hp : NearTriangle e T p)
    (hq : NearTriangle e T q) (h0 : 0 ≤ t) (h1 : t ≤ 1) : NearTriangle e T (along p t (minus q p)) := by
  obtain ⟨x, y, z, a, b, c, hs, rfl⟩ := hp
  obtain ⟨x', y', z', a', b', c', hs', rfl⟩ := hq
  refine ⟨(1 - t) * x + t * x', (1 - t) * y + t * y', (1 - t) * z + t * z', ?_, ?_, ?_,
    by linear_combination (1 - t) * hs + t * hs', by simp only [along, minus]; congr 1 <;> ring⟩
  · nlinarith
  · nlinarith
  · nlinarith

theorem Spec.OnLine.convex {l : Line ℝ} {p q : V3 ℝ} (hp : OnLine l p) (hq : OnLine l q) (t : ℝ) :
    OnLine l (along p t (minus q p)) := by
  obtain ⟨a, rfl⟩ := hp
  obtain ⟨b, rfl⟩ := hq
  exact ⟨a + t * (b - a), by simp only [along, minus]; congr 1 <;> ring⟩

/-- When a line in the plane of a triangle meets the triangle in a segment, its end points are on the
line and, up to the tolerance, in the triangle. -/
theorem Inter.lineTriangleSeg_spec (l : Line ℝ) (T : Triangle ℝ) (n : V3 ℝ) (tol : ℝ) (ht : 0 < tol)
    (hn : Unit3 n) (hd : dot3 l.direction n = 0) (h0 : dot3 (minus T.v0 l.origin) n = 0)
    (h1 : dot3 (minus T.v1 l.origin) n = 0) (h2 : dot3 (minus T.v2 l.origin) n = 0) (s : Segment ℝ)
    (hs : Inter.lineTriangleSeg l T tol = .ok (some s)) :
    (OnLine l s.v0 ∧ NearTriangle tol T s.v0) ∧ (OnLine l s.v1 ∧ NearTriangle tol T s.v1) := by
  have d01 : dot3 (minus T.v1 T.v0) n = 0 := by
    simp only [dot3, minus] at *; linear_combination h1 - h0
  have d12 : dot3 (minus T.v2 T.v1) n = 0 := by
    simp only [dot3, minus] at *; linear_combination h2 - h1
  have d20 : dot3 (minus T.v0 T.v2) n = 0 := by
    simp only [dot3, minus] at *; linear_combination h0 - h2
  have k0 : ∀ p, Inter.lineSegment l T.edge0 tol = some p → OnLine l p ∧ NearTriangle tol T p := by
    intro p hp
    obtain ⟨a, t, b, c, rfl⟩ := Inter.lineSegment_spec l T.edge0 tol ht (triple_zero hn h0 hd d01) p hp
    exact ⟨a, .edge0 ht b c⟩
  have k1 : ∀ p, Inter.lineSegment l T.edge1 tol = some p → OnLine l p ∧ NearTriangle tol T p := by
    intro p hp
    obtain ⟨a, t, b, c, rfl⟩ := Inter.lineSegment_spec l T.edge1 tol ht (triple_zero hn h1 hd d12) p hp
    exact ⟨a, .edge1 ht b c⟩
  have k2 : ∀ p, Inter.lineSegment l T.edge2 tol = some p → OnLine l p ∧ NearTriangle tol T p := by
    intro p hp
    obtain ⟨a, t, b, c, rfl⟩ := Inter.lineSegment_spec l T.edge2 tol ht (triple_zero hn h2 hd d20) p hp
    exact ⟨a, .edge2 ht b c⟩
  unfold Inter.lineTriangleSeg at hs
  split at hs
  · rename_i p0 p1 e0 e1 _
    cases hs
    exact ⟨k0 _ e0, k1 _ e1⟩
  · rename_i p1 p2 _ e1 e2
    cases hs
    exact ⟨k1 _ e1, k2 _ e2⟩
  · rename_i p0 p2 e0 _ e2
    cases hs
    exact ⟨k2 _ e2, k0 _ e0⟩
  · rename_i p0 p1 p2 e0 e1 e2
    split at hs
    · cases hs; exact ⟨k1 _ e1, k2 _ e2⟩
    · split at hs
      · cases hs; exact ⟨k0 _ e0, k1 _ e1⟩
      · split at hs
        · cases hs; exact ⟨k0 _ e0, k1 _ e1⟩
        · cases hs
  · cases hs

/-- What the intersection of a segment and a disk computes: a part of the segment which, unless it is
a single point, lies in the ball around the disk. -/
theorem Inter.segmentDisk_spec (s : Segment ℝ) (d : Disk ℝ) (tol : ℝ) (ht : 0 < tol) (hr : 0 ≤ d.radius)
    (r : Segment ℝ) (h : Inter.segmentDisk s d tol = some r) :
    OnSegment s r.v0 ∧ OnSegment s r.v1 ∧
    (r.v0 ≠ r.v1 → dist3 r.v0 d.center ≤ d.radius ∧ dist3 r.v1 d.center ≤ d.radius) := by
  unfold Inter.segmentDisk at h
  split at h
  · cases h
  rename_i hdeg
  simp only [Bool.or_eq_true, not_or] at hdeg
  have hne : minus s.v1 s.v0 ≠ ⟨0, 0, 0⟩ := by
    intro h0
    apply hdeg.1
    simp only [Segment.isDegenerated, Scalar.isApprox, real_lt, real_sub, real_zero, sub_zero, real_abs,
      decide_eq_true_eq]
    have : V3.sub s.v0 s.v1 = ⟨0, 0, 0⟩ := by
      simp only [minus, V3.mk.injEq] at h0
      rw [V3.real_sub, V3.mk.injEq]
      exact ⟨by linarith [h0.1], by linarith [h0.2.1], by linarith [h0.2.2]⟩
    rw [this, V3.norm_eq_zero.2 rfl, abs_zero]
    exact ht
  have e1 : Segment.toVector s = minus s.v1 s.v0 := by rw [Segment.toVector, V3.real_sub]; rfl
  have e2 : V3.sub s.v0 d.center = minus s.v0 d.center := by rw [V3.real_sub]; rfl
  have hA : 0 < dot3 (minus s.v1 s.v0) (minus s.v1 s.v0) := by
    rw [← V3.dot_eq]; exact V3.sqNorm_pos.2 hne
  dsimp only at h
  rw [e1, e2] at h
  simp only [V3.dot_eq, real_mul, real_sub, real_lt, real_neg, real_abs, real_div, real_one, real_add,
    real_sqrt, real_zero, real_max, real_min] at h
  generalize hD : minus s.v1 s.v0 = D at *
  generalize hA2 : dot3 D D = a2 at *
  generalize hA1 : dot3 (minus s.v0 d.center) D = a1 at *
  generalize hA0 : dot3 (minus s.v0 d.center) (minus s.v0 d.center) - d.radius * d.radius = a0 at *
  have dist : ∀ t, dist3 (along s.v0 t D) d.center ^ 2 = d.radius ^ 2 + (a2 * t ^ 2 + 2 * a1 * t + a0) := by
    intro t
    rw [dist3_sq, ← hA0, ← hA1, ← hA2]
    simp only [along, dot3, minus]
    ring
  split at h
  · cases h
  split at h
  · split at h
    · cases h
    · rename_i hc
      simp only [Bool.or_eq_true, decide_eq_true_eq, not_or, not_lt] at hc
      have h := (Option.some.inj h).symm
      subst h
      have : OnSegment s (V3.add s.v0 (V3.smul (-a1 * (1 / a2)) D)) :=
        ⟨_, hc.1, hc.2, by rw [hD, V3.real_smul, V3.real_add]; rfl⟩
      exact ⟨this, this, fun h => absurd rfl h⟩
  · rename_i hdlo hdhi
    simp only [decide_eq_true_eq, not_lt] at hdlo hdhi
    split at h
    · cases h
    · rename_i hc
      simp only [Bool.or_eq_true, Bool.and_eq_true, decide_eq_true_eq, not_or, not_and, not_lt] at hc
      have h := (Option.some.inj h).symm
      set root := Real.sqrt (a1 * a1 - a0 * a2) with hroot
      set t0 := -(a1 + root) * (1 / a2) with ht0
      set t1 := -(a1 - root) * (1 / a2) with ht1
      have hroot0 : 0 ≤ root := Real.sqrt_nonneg _
      have h01 : t0 ≤ t1 := by
        rw [ht0, ht1]
        gcongr
        linarith
      have c0 : 0 ≤ t1 := by
        by_contra hcon
        rw [not_le] at hcon
        exact absurd (hc.1 (h01.trans_lt hcon)) (not_le.2 hcon)
      have c1 : t0 ≤ 1 := by
        by_contra hcon
        rw [not_le] at hcon
        exact absurd (hc.2 hcon) (not_le.2 (hcon.trans_le h01))
      have seg : ∀ t, OnSegment s (V3.add s.v0 (V3.smul (Max.max 0 (Min.min t 1)) D)) := fun t =>
        ⟨_, le_max_left _ _, max_le zero_le_one (min_le_right _ _),
          by rw [hD, V3.real_smul, V3.real_add]; rfl⟩
      subst h
      refine ⟨seg _, seg _, fun hv => ?_⟩
      have hroots : root * root = a1 * a1 - a0 * a2 := by
        by_cases hneg : 0 ≤ a1 * a1 - a0 * a2
        · rw [hroot, Real.mul_self_sqrt hneg]
        · exfalso
          rw [not_le] at hneg
          have hz : root = 0 := Real.sqrt_eq_zero_of_nonpos hneg.le
          apply hv
          have : t0 = t1 := by rw [ht0, ht1, hz]; ring
          dsimp only
          rw [this]
      have inside : ∀ t, t0 ≤ t → t ≤ t1 → dist3 (along s.v0 t D) d.center ≤ d.radius := by
        intro t ha hb
        have hq : a2 * t ^ 2 + 2 * a1 * t + a0 ≤ 0 := by
          have p1 : 0 ≤ a2 * t + a1 + root := by
            have : t0 * a2 ≤ t * a2 := by gcongr
            rw [ht0] at this
            field_simp at this
            linarith
          have p2 : a2 * t + a1 - root ≤ 0 := by
            have : t * a2 ≤ t1 * a2 := by gcongr
            rw [ht1] at this
            field_simp at this
            linarith
          have p3 : (a2 * t + a1 + root) * (a2 * t + a1 - root) ≤ 0 :=
            mul_nonpos_of_nonneg_of_nonpos p1 p2
          have p4 : a2 * (a2 * t ^ 2 + 2 * a1 * t + a0) ≤ 0 := by
            have : (a2 * t + a1 + root) * (a2 * t + a1 - root) =
                a2 * (a2 * t ^ 2 + 2 * a1 * t + a0) := by linear_combination -hroots
            rwa [← this]
          by_contra hcon
          rw [not_le] at hcon
          exact absurd (mul_pos hA hcon) (not_lt.2 p4)
        have := dist t
        have hle : dist3 (along s.v0 t D) d.center ^ 2 ≤ d.radius ^ 2 := by linarith
        exact (pow_le_pow_iff_left₀ (dist3_nonneg _ _) hr two_ne_zero).1 hle
      have al : ∀ t, V3.add s.v0 (V3.smul t D) = along s.v0 t D := fun t => by
        rw [V3.real_smul, V3.real_add]; rfl
      dsimp only
      rw [al, al]
      constructor
      · exact inside _ (le_max_of_le_right (le_min le_rfl c1)) (max_le c0 ((min_le_left _ _).trans h01))
      · exact inside _ (le_max_of_le_right (le_min h01 c1)) (max_le c0 (min_le_left _ _))

theorem Spec.onPlane_centroid (T : Triangle ℝ) :
    OnPlane T.layingPlane T.v0 ∧ OnPlane T.layingPlane T.v1 ∧ OnPlane T.layingPlane T.v2 := by
  have key : ∀ p : V3 ℝ, dot3 (minus p T.centroid)
      (V3.cross (V3.sub T.v1 T.v0) (V3.sub T.v2 T.v0)) = 0 → OnPlane T.layingPlane p := by
    intro p hp
    show dot3 (minus p T.centroid) (V3.normalized _) = 0
    by_cases hz : V3.cross (V3.sub T.v1 T.v0) (V3.sub T.v2 T.v0) = ⟨0, 0, 0⟩
    · rw [V3.normalized_zero hz]; exact hp
    · rw [V3.normalized_of_ne hz]
      simp only [dot3] at hp ⊢
      have hn := (V3.norm_pos.2 hz).ne'
      field_simp
      linarith
  refine ⟨key _ ?_, key _ ?_, key _ ?_⟩ <;>
    simp only [dot3, minus, Triangle.centroid] <;> v3 <;> simp only [real_lit] <;> push_cast <;> ring

/-- **C53.**  For a positive tolerance, a unit disk normal and a non-negative radius, when the
intersection of a triangle and a disk succeeds: its end points are in the triangle's plane and in the
disk's plane, within the triangle up to the tolerance, and, if they differ (that is, outside the
tangency band), within the disk. -/
theorem C53_triangle_disk (T : Triangle ℝ) (d : Disk ℝ) (hd : Unit3 d.plane.normal) (hr : 0 ≤ d.radius)
    (tol : ℝ) (ht : 0 < tol) (s : Segment ℝ) (hs : Inter.triangleDisk T d tol = .ok (some s)) :
    (OnPlane T.layingPlane s.v0 ∧ OnPlane T.layingPlane s.v1) ∧
    (OnPlane d.plane s.v0 ∧ OnPlane d.plane s.v1) ∧
    (NearTriangle tol T s.v0 ∧ NearTriangle tol T s.v1) ∧
    (s.v0 ≠ s.v1 → InDisk d s.v0 ∧ InDisk d s.v1) := by
  unfold Inter.triangleDisk Inter.planeTriangle at hs
  cases hl : Inter.planePlane d.layingPlane T.layingPlane tol with
  | none => simp [hl] at hs
  | some l =>
    simp only [hl] at hs
    -- the triangle is not degenerate
    have hN : Unit3 T.layingPlane.normal := by
      by_cases hz : V3.cross (V3.sub T.v1 T.v0) (V3.sub T.v2 T.v0) = ⟨0, 0, 0⟩
      · exfalso
        have : T.layingPlane.normal = ⟨0, 0, 0⟩ := by
          show V3.normalized _ = _; rw [V3.normalized_zero hz, hz]
        have h0 : V3.normalized (⟨0, 0, 0⟩ : V3 ℝ) = ⟨0, 0, 0⟩ := V3.normalized_zero rfl
        have h1 : V3.cross (V3.normalized d.layingPlane.normal) (⟨0, 0, 0⟩ : V3 ℝ) = ⟨0, 0, 0⟩ := by
          rw [V3.real_cross]; simp
        unfold Inter.planePlane at hl
        dsimp only at hl
        rw [this, h0, h1, V3.norm_eq_zero.2 rfl] at hl
        simp [Scalar.isApprox, ht] at hl
      · exact V3.sq_normalized hz
    have hx := (C51_plane_plane d.layingPlane T.layingPlane hd hN tol ht).2 l hl
    cases hm : Inter.lineTriangleSeg l T tol with
    | throw m => simp [hm] at hs
    | ub w => simp [hm] at hs
    | ok o =>
      rw [hm, Res.bind_ok] at hs
      cases o with
      | none => simp at hs
      | some r =>
        have hs : Inter.segmentDisk r d tol = some s := Res.ok.inj hs
        obtain ⟨v0, v1, v2⟩ := onPlane_centroid T
        have ho := ((hx l.origin).1 ⟨0, by simp [along]⟩).2
        have h1 := ((hx (along l.origin 1 l.direction)).1 ⟨1, rfl⟩).2
        have hdir : dot3 l.direction T.layingPlane.normal = 0 := by
          simp only [OnPlane, dot3, minus, along] at ho h1 ⊢
          linear_combination h1 - ho
        have hrel : ∀ v, OnPlane T.layingPlane v → dot3 (minus v l.origin) T.layingPlane.normal = 0 := by
          intro v hv
          simp only [OnPlane, dot3, minus] at ho hv ⊢
          linear_combination hv - ho
        obtain ⟨⟨a0, b0⟩, a1, b1⟩ := Inter.lineTriangleSeg_spec l T T.layingPlane.normal tol ht hN hdir
          (hrel _ v0) (hrel _ v1) (hrel _ v2) r hm
        obtain ⟨⟨t, t0, t1, et⟩, ⟨t', t0', t1', et'⟩, hdist⟩ := Inter.segmentDisk_spec r d tol ht hr s hs
        have l0 : OnLine l s.v0 := by rw [et]; exact a0.convex a1 t
        have l1 : OnLine l s.v1 := by rw [et']; exact a0.convex a1 t'
        have p0 := (hx _).1 l0
        have p1 := (hx _).1 l1
        refine ⟨⟨p0.2, p1.2⟩, ⟨p0.1, p1.1⟩, ⟨by rw [et]; exact b0.convex b1 t0 t1,
          by rw [et']; exact b0.convex b1 t0' t1'⟩, fun hv => ?_⟩
        have := hdist hv
        exact ⟨⟨p0.1, this.1⟩, p1.1, this.2⟩

end Enve
