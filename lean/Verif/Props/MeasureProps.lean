import Verif.Model.Access
import Verif.Spec.Entity
import Verif.Lemmas.RealVec
import Mathlib.MeasureTheory.Measure.Lebesgue.VolumeOfBalls

/-! # C114: the measures of the geometric entities are the Euclidean ones -/

namespace Enve
open Scalar Spec

/-- The volume of a ball is the Lebesgue measure of its set of points, and its area is the rate at which
the volume grows with the radius. -/
theorem C114_ball (b : Ball ℝ) (hr : 0 ≤ b.radius) :
    MeasureTheory.volume {x : EuclideanSpace ℝ (Fin 3) | InBall b ⟨x 0, x 1, x 2⟩} = ENNReal.ofReal b.volume ∧
    HasDerivAt (fun r => Ball.volume ⟨r, b.center⟩) b.area b.radius := by
  have e (r : ℝ) : Ball.volume ⟨r, b.center⟩ = Real.pi * 4 / 3 * r ^ 3 := by
    simp only [Ball.volume, real_mul, real_div, real_lit, real_pi]; push_cast; ring
  constructor
  · have hs : {x : EuclideanSpace ℝ (Fin 3) | InBall b ⟨x 0, x 1, x 2⟩} =
        Metric.closedBall (WithLp.toLp 2 ![b.center.x, b.center.y, b.center.z]) b.radius := by
      ext x
      simp [InBall, dist3, Metric.mem_closedBall, EuclideanSpace.dist_eq, Fin.sum_univ_three, Real.dist_eq, sq_abs]
    rw [hs, EuclideanSpace.volume_closedBall_fin_three, ← ENNReal.ofReal_pow hr, ← ENNReal.ofReal_mul (by positivity)]
    congr 1
    rw [show b.volume = Ball.volume ⟨b.radius, b.center⟩ from rfl, e]; ring
  · rw [funext e]
    have h := (hasDerivAt_pow 3 b.radius).const_mul (Real.pi * 4 / 3)
    refine h.congr_deriv ?_
    simp only [Ball.area, real_mul, real_lit, real_pi]; push_cast; ring

/-- The area of a triangle is half of base times height, for whichever point of the line through the base
is the foot of the height; the perimeter is the sum of the lengths of the sides. -/
theorem C114_triangle_area (t : Triangle ℝ) :
    (∀ s, dot3 (minus t.v2 (along t.v0 s (minus t.v1 t.v0))) (minus t.v1 t.v0) = 0 →
      t.area = dist3 t.v0 t.v1 * dist3 t.v2 (along t.v0 s (minus t.v1 t.v0)) / 2) ∧
    (t.area = 0 ↔ cross3 (minus t.v1 t.v0) (minus t.v2 t.v0) = ⟨0, 0, 0⟩) ∧
    t.perimeter = dist3 t.v0 t.v1 + dist3 t.v1 t.v2 + dist3 t.v2 t.v0 := by
  have ea : t.area = length3 (cross3 (minus t.v1 t.v0) (minus t.v2 t.v0)) / 2 := by
    simp only [Triangle.area, V3.norm_eq, real_div, real_two]
    congr 2
  refine ⟨fun s hs => ?_, ?_, ?_⟩
  · rw [ea]
    congr 1
    rw [dist3, dist3, ← Real.sqrt_mul (by positivity), length3]
    congr 1
    simp only [along, minus, dot3, cross3] at hs ⊢
    linear_combination ((t.v2.x - (t.v0.x + s * (t.v1.x - t.v0.x))) * (t.v1.x - t.v0.x) + (t.v2.y - (t.v0.y + s * (t.v1.y - t.v0.y))) * (t.v1.y - t.v0.y) + (t.v2.z - (t.v0.z + s * (t.v1.z - t.v0.z))) * (t.v1.z - t.v0.z)) * (-1) * hs
  · rw [ea, div_eq_zero_iff, or_iff_left (by norm_num), ← V3.norm_eq, V3.norm_eq_zero]
  · simp only [Triangle.perimeter, V3.norm_sub, real_add]

/-- The centroid of a triangle is two thirds down each of the three medians. -/
theorem C114_triangle_centroid (t : Triangle ℝ) :
    t.centroid = along t.v0 (2 / 3) (minus (along t.v1 (1 / 2) (minus t.v2 t.v1)) t.v0) ∧
    t.centroid = along t.v1 (2 / 3) (minus (along t.v2 (1 / 2) (minus t.v0 t.v2)) t.v1) ∧
    t.centroid = along t.v2 (2 / 3) (minus (along t.v0 (1 / 2) (minus t.v1 t.v0)) t.v2) := by
  refine ⟨?_, ?_, ?_⟩ <;>
    (ext <;> simp [Triangle.centroid, along, minus, V3.sdiv, V3.add] <;> ring)

/-- The normal of a triangle whose vertices are not aligned is the unit vector perpendicular to its sides
about which the vertices run counterclockwise. -/
theorem C114_triangle_normal (t : Triangle ℝ) (ht : cross3 (minus t.v1 t.v0) (minus t.v2 t.v0) ≠ ⟨0, 0, 0⟩) (n : V3 ℝ) :
    t.normal = n ↔ Unit3 n ∧ dot3 n (minus t.v1 t.v0) = 0 ∧ dot3 n (minus t.v2 t.v0) = 0 ∧
      0 < dot3 (cross3 (minus t.v1 t.v0) (minus t.v2 t.v0)) n := by
  have ec : V3.cross (V3.sub t.v1 t.v0) (V3.sub t.v2 t.v0) = cross3 (minus t.v1 t.v0) (minus t.v2 t.v0) := rfl
  rw [Triangle.normal, ec]
  have hu := V3.sq_normalized ht
  have hp := V3.norm_pos.2 ht
  have hs := V3.norm_sq (cross3 (minus t.v1 t.v0) (minus t.v2 t.v0))
  have e1 : dot3 (cross3 (minus t.v1 t.v0) (minus t.v2 t.v0)) (minus t.v1 t.v0) = 0 := by
    simp only [dot3, cross3]; ring
  have e2 : dot3 (cross3 (minus t.v1 t.v0) (minus t.v2 t.v0)) (minus t.v2 t.v0) = 0 := by
    simp only [dot3, cross3]; ring
  have hn := V3.normalized_of_ne ht
  have hc (n : V3 ℝ) : dot3 n (minus t.v1 t.v0) = 0 → dot3 n (minus t.v2 t.v0) = 0 →
      cross3 n (cross3 (minus t.v1 t.v0) (minus t.v2 t.v0)) = ⟨0, 0, 0⟩ := by
    generalize minus t.v1 t.v0 = a
    generalize minus t.v2 t.v0 = b
    intro h1 h2
    simp only [dot3, cross3] at *
    ext <;> simp only
    · linear_combination a.x * h2 - b.x * h1
    · linear_combination a.y * h2 - b.y * h1
    · linear_combination a.z * h2 - b.z * h1
  generalize cross3 (minus t.v1 t.v0) (minus t.v2 t.v0) = c at *
  generalize V3.norm c = L at *
  have hi : 0 < 1 / L := by positivity
  constructor
  · rintro rfl
    refine ⟨hu, ?_, ?_, ?_⟩
    · rw [hn]; simp only [dot3] at e1 ⊢; field_simp; linarith
    · rw [hn]; simp only [dot3] at e2 ⊢; field_simp; linarith
    · rw [hn]
      have : dot3 c ⟨c.x / L, c.y / L, c.z / L⟩ = L := by
        simp only [dot3]; field_simp; linarith
      rw [this]; exact hp
  · rintro ⟨h0, h1, h2, h3⟩
    have hz := hc n h1 h2
    simp only [cross3, V3.mk.injEq] at hz
    obtain ⟨z1, z2, z3⟩ := hz
    have kx : n.x * L ^ 2 = dot3 c n * c.x := by
      rw [hs]; simp only [dot3]; linear_combination c.y * z3 - c.z * z2
    have ky : n.y * L ^ 2 = dot3 c n * c.y := by
      rw [hs]; simp only [dot3]; linear_combination c.z * z1 - c.x * z3
    have kz : n.z * L ^ 2 = dot3 c n * c.z := by
      rw [hs]; simp only [dot3]; linear_combination c.x * z2 - c.y * z1
    have kd : dot3 c n = L := by
      have h4 : dot3 c n ^ 2 = L ^ 2 := by
        have h5 : L ^ 2 * 1 = dot3 c n * dot3 c n := by
          rw [← h0]
          simp only [dot3] at *
          linear_combination n.x * kx + n.y * ky + n.z * kz
        linarith [pow_two (dot3 c n)]
      exact (pow_left_inj₀ h3.le hp.le two_ne_zero).1 h4
    rw [kd] at kx ky kz
    rw [hn]
    ext <;> simp only [div_eq_iff hp.ne']
    · nlinarith [mul_left_cancel₀ hp.ne' (show L * (n.x * L) = L * c.x by linarith)]
    · nlinarith [mul_left_cancel₀ hp.ne' (show L * (n.y * L) = L * c.y by linarith)]
    · nlinarith [mul_left_cancel₀ hp.ne' (show L * (n.z * L) = L * c.z by linarith)]

/-- The length of a segment is the distance of its end points; its centroid is on the segment and equally
far from both; its unit vector leads from the first end point to the second. -/
theorem C114_segment (s : Segment ℝ) :
    s.length = dist3 s.v0 s.v1 ∧
    OnSegment s s.centroid ∧ dist3 s.v0 s.centroid = s.length / 2 ∧ dist3 s.centroid s.v1 = s.length / 2 ∧
    (s.v0 ≠ s.v1 → Unit3 s.toUnitVector ∧ s.v1 = along s.v0 s.length s.toUnitVector) := by
  have el : s.length = dist3 s.v0 s.v1 := by simp only [Segment.length, V3.norm_sub]
  have h4 (a b c d : ℝ) (h0 : 0 ≤ d) (h : a ^ 2 + b ^ 2 + c ^ 2 = d / 4) : √(a ^ 2 + b ^ 2 + c ^ 2) = √d / 2 := by
    rw [h, show d / 4 = d / 2 ^ 2 by norm_num, Real.sqrt_div h0, Real.sqrt_sq (by norm_num)]
  refine ⟨el, ⟨1 / 2, by norm_num, by norm_num, ?_⟩, ?_, ?_, fun h => ?_⟩
  · ext <;> simp [Segment.centroid, along, minus, V3.sdiv, V3.add] <;> ring
  · rw [el, dist3, dist3]
    refine h4 _ _ _ _ (by positivity) ?_
    simp [Segment.centroid, V3.sdiv, V3.add]; ring
  · rw [el, dist3, dist3]
    refine h4 _ _ _ _ (by positivity) ?_
    simp [Segment.centroid, V3.sdiv, V3.add]; ring
  · have hne : V3.sub s.v1 s.v0 ≠ ⟨0, 0, 0⟩ := by
      intro e
      simp only [V3.real_sub, V3.mk.injEq] at e
      exact h (V3.ext (by linarith [e.1]) (by linarith [e.2.1]) (by linarith [e.2.2]))
    refine ⟨V3.sq_normalized hne, ?_⟩
    have hl : V3.norm (V3.sub s.v1 s.v0) = s.length := by
      rw [el, V3.norm_sub, dist3, dist3]; congr 1; ring
    have hp := V3.norm_pos.2 hne
    rw [hl] at hp
    rw [Segment.toUnitVector, V3.normalized_of_ne hne, hl]
    ext <;> simp only [along, V3.real_sub] <;> field_simp <;> ring

/-- For a plane with unit normal, `distance` is the least distance from the plane's points, and
`signedDistance` is how far the point has been moved along the normal from a point of the plane. -/
theorem C114_plane (q : Plane ℝ) (hn : Unit3 q.normal) (p : V3 ℝ) :
    IsLeast {x | ∃ o, OnPlane q o ∧ x = dist3 p o} (q.distance p) ∧
    (∀ o s, OnPlane q o → q.signedDistance (along o s q.normal) = s) ∧
    q.squaredDistance p = q.distance p ^ 2 ∧
    (OnPlane q p ↔ dot3 p q.normal + q.d = 0) := by
  have ed (p : V3 ℝ) : q.signedDistance p = dot3 (minus p q.origin) q.normal := by
    rw [Plane.signedDistance, V3.dot_eq]; rfl
  have eabs : q.distance p = |q.signedDistance p| := rfl
  have hn' : q.normal.x ^ 2 + q.normal.y ^ 2 + q.normal.z ^ 2 = 1 := hn
  refine ⟨⟨?_, ?_⟩, ?_, ?_, ?_⟩
  · refine ⟨along p (-q.signedDistance p) q.normal, ?_, ?_⟩
    · rw [ed, OnPlane]
      simp only [dot3, minus, along]
      linear_combination (-((p.x - q.origin.x) * q.normal.x + (p.y - q.origin.y) * q.normal.y + (p.z - q.origin.z) * q.normal.z)) * hn'
    · rw [eabs, dist3, ← Real.sqrt_sq_eq_abs]
      congr 1
      simp only [along]
      linear_combination (-(q.signedDistance p) ^ 2) * hn'
  · rintro _ ⟨o, ho, rfl⟩
    rw [eabs, ed, dist3]
    apply Real.le_sqrt_of_sq_le
    rw [sq_abs]
    have e : dot3 (minus p q.origin) q.normal = dot3 (minus p o) q.normal := by
      simp only [OnPlane, dot3, minus] at ho ⊢; linear_combination ho
    rw [e]
    simp only [dot3, minus]
    generalize p.x - o.x = a
    generalize p.y - o.y = b
    generalize p.z - o.z = c
    have h := hn'
    nlinarith [sq_nonneg (a * q.normal.y - b * q.normal.x), sq_nonneg (b * q.normal.z - c * q.normal.y),
      sq_nonneg (c * q.normal.x - a * q.normal.z)]
  · intro o s ho
    rw [ed]
    simp only [OnPlane, dot3, minus, along] at ho ⊢
    linear_combination ho + s * hn'
  · rw [eabs, sq_abs, pow_two]; rfl
  · simp only [OnPlane, dot3, minus, Plane.d, V3.real_dot, real_neg]
    constructor <;> intro h <;> linarith

/-- For a normal of any length, the distances are those of the plane with unit normal multiplied by
the length of the normal. -/
theorem C114_plane_scale (q : Plane ℝ) (hn : q.normal ≠ ⟨0, 0, 0⟩) (p : V3 ℝ) :
    q.signedDistance p = length3 q.normal * q.normalize.signedDistance p ∧ Unit3 q.normalize.normal ∧
    (∀ o, OnPlane q.normalize o ↔ OnPlane q o) := by
  have hp := V3.norm_pos.2 hn
  have ed (q : Plane ℝ) (p : V3 ℝ) : q.signedDistance p = dot3 (minus p q.origin) q.normal := by
    rw [Plane.signedDistance, V3.dot_eq]; rfl
  have e (o : V3 ℝ) : dot3 (minus o q.origin) q.normal = length3 q.normal * dot3 (minus o q.origin) q.normalize.normal := by
    rw [Plane.normalize]
    simp only
    rw [V3.normalized_of_ne hn, ← V3.norm_eq]
    simp only [dot3]; field_simp
  refine ⟨?_, V3.sq_normalized hn, fun o => ?_⟩
  · rw [ed, ed]; exact e p
  · rw [V3.norm_eq] at hp
    rw [OnPlane, OnPlane, e o]
    simp only [Plane.normalize, mul_eq_zero, hp.ne', false_or]

/-- So `distance` is not the distance from the plane when the normal is not a unit vector. -/
theorem C114_plane_refuted : ∃ (q : Plane ℝ) (p : V3 ℝ), q.normal ≠ ⟨0, 0, 0⟩ ∧
    ¬ IsLeast {x | ∃ o, OnPlane q o ∧ x = dist3 p o} (q.distance p) := by
  refine ⟨⟨⟨0, 0, 0⟩, ⟨0, 0, 2⟩⟩, ⟨0, 0, 1⟩, by simp, fun h => ?_⟩
  have h0 : OnPlane ⟨⟨0, 0, 0⟩, ⟨0, 0, 2⟩⟩ ⟨0, 0, 0⟩ := by simp [OnPlane, dot3, minus]
  have h1 : Plane.distance ⟨⟨0, 0, 0⟩, ⟨0, 0, 2⟩⟩ ⟨0, 0, 1⟩ ≤ dist3 ⟨0, 0, 1⟩ ⟨0, 0, 0⟩ := h.2 ⟨_, h0, rfl⟩
  have e1 : Plane.distance ⟨⟨0, 0, 0⟩, ⟨0, 0, 2⟩⟩ (⟨0, 0, 1⟩ : V3 ℝ) = 2 := by
    simp [Plane.distance, Plane.signedDistance, V3.real_dot, V3.real_sub]
  have e2 : dist3 ⟨0, 0, 1⟩ ⟨0, 0, 0⟩ = 1 := by simp [dist3]
  rw [e1, e2] at h1
  norm_num at h1

/-- A right triangle with legs 3 and 4 above a plane: the values of the queries. -/
example : (Triangle.area ⟨⟨0, 0, 5⟩, ⟨3, 0, 5⟩, ⟨0, 4, 5⟩⟩ : ℝ) = 6 ∧
    Triangle.normal ⟨⟨0, 0, 5⟩, ⟨3, 0, 5⟩, ⟨0, 4, 5⟩⟩ = (⟨0, 0, 1⟩ : V3 ℝ) ∧
    Plane.signedDistance ⟨⟨0, 0, 1⟩, ⟨0, 0, 1⟩⟩ (⟨7, 7, 5⟩ : V3 ℝ) = 4 := by
  refine ⟨?_, ?_, ?_⟩
  · rw [(C114_triangle_area _).1 0 (by norm_num [along, minus, dot3])]
    have h9 : √(9 : ℝ) = 3 := by rw [show (9 : ℝ) = 3 ^ 2 by norm_num]; exact Real.sqrt_sq (by norm_num)
    have h16 : √(16 : ℝ) = 4 := by rw [show (16 : ℝ) = 4 ^ 2 by norm_num]; exact Real.sqrt_sq (by norm_num)
    norm_num [along, minus, dist3, h9, h16]
  · exact (C114_triangle_normal _ (by norm_num [cross3, minus]) _).2 (by norm_num [Unit3, dot3, minus, cross3])
  · have h := (C114_plane ⟨⟨0, 0, 1⟩, ⟨0, 0, 1⟩⟩ (by norm_num [Unit3]) ⟨0, 0, 0⟩).2.1 ⟨7, 7, 1⟩ 4
      (by norm_num [OnPlane, dot3, minus])
    norm_num [along] at h ⊢
    exact h

end Enve
