import Verif.Lemmas.TriangleCut
import Verif.Props.ClipProps

/-! # A line in the plane of a triangle or a disk -/

namespace Enve
open Scalar Spec

theorem Spec.nearTriangle_zero {T : Triangle ℝ} {p : V3 ℝ} : NearTriangle 0 T p ↔ InTriangle T.v0 T.v1 T.v2 p := by
  simp only [NearTriangle, InTriangle, neg_zero]

/-- A point of the plane of a line is on the line when it is on the zero set of the side function. -/
theorem Spec.onLine_of_side {l : Line ℝ} {n N X : V3 ℝ} (hl : l.direction = V3.cross n N) (h0 : l.direction ≠ ⟨0, 0, 0⟩)
    (hN : dot3 (minus X l.origin) N = 0) (hn : dot3 (minus X l.origin) n = 0) : OnLine l X := by
  have hD : l.direction.x ^ 2 + l.direction.y ^ 2 + l.direction.z ^ 2 ≠ 0 := by
    intro h
    apply h0
    have hx : l.direction.x ^ 2 = 0 := by nlinarith [sq_nonneg l.direction.x, sq_nonneg l.direction.y, sq_nonneg l.direction.z]
    have hy : l.direction.y ^ 2 = 0 := by nlinarith [sq_nonneg l.direction.x, sq_nonneg l.direction.y, sq_nonneg l.direction.z]
    have hz : l.direction.z ^ 2 = 0 := by nlinarith [sq_nonneg l.direction.x, sq_nonneg l.direction.y, sq_nonneg l.direction.z]
    ext
    · exact pow_eq_zero_iff two_ne_zero |>.1 hx
    · exact pow_eq_zero_iff two_ne_zero |>.1 hy
    · exact pow_eq_zero_iff two_ne_zero |>.1 hz
  have c : cross3 (minus X l.origin) l.direction = ⟨0, 0, 0⟩ := by
    rw [hl]
    simp only [dot3] at hN hn
    simp only [V3.real_cross, cross3]
    generalize minus X l.origin = w at *
    congr 1
    · linear_combination n.x * hN - N.x * hn
    · linear_combination n.y * hN - N.y * hn
    · linear_combination n.z * hN - N.z * hn
  simp only [cross3, V3.mk.injEq] at c
  obtain ⟨c1, c2, c3⟩ := c
  obtain ⟨o, d⟩ := l
  dsimp only at *
  refine ⟨dot3 (minus X o) d / (d.x ^ 2 + d.y ^ 2 + d.z ^ 2), ?_⟩
  simp only [minus] at c1 c2 c3
  ext
  · simp only [along, dot3, minus]
    rw [div_mul_eq_mul_div, ← sub_eq_iff_eq_add', eq_div_iff hD]
    linear_combination d.y * c3 - d.z * c2
  · simp only [along, dot3, minus]
    rw [div_mul_eq_mul_div, ← sub_eq_iff_eq_add', eq_div_iff hD]
    linear_combination d.z * c1 - d.x * c3
  · simp only [along, dot3, minus]
    rw [div_mul_eq_mul_div, ← sub_eq_iff_eq_add', eq_div_iff hD]
    linear_combination d.x * c2 - d.y * c1

/-- A line in the plane of a triangle that cuts it cleanly: the reported segment is the common part. -/
theorem Inter.lineTriangle_clean {T : Triangle ℝ} {l : Line ℝ} {n N : V3 ℝ} (hT : Proper (.triangle T)) (hN : Unit3 N) {tol : ℝ}
    (ht : 0 < tol) (hl : l.direction = V3.cross n N) (h0 : l.direction ≠ ⟨0, 0, 0⟩) (p0 : dot3 (minus T.v0 l.origin) N = 0)
    (p1 : dot3 (minus T.v1 l.origin) N = 0) (p2 : dot3 (minus T.v2 l.origin) N = 0) (g : V3 ℝ → ℝ)
    (hg : ∀ v, g v = dot3 (minus v l.origin) n) (hc : CutsCleanly tol g T) :
    (∃ s, Inter.lineTriangleSeg l T tol = .ok (some s) ∧ s.v0 ≠ s.v1 ∧
      ∀ X, OnSegment s X ↔ InTriangle T.v0 T.v1 T.v2 X ∧ OnLine l X) ∨
    (Inter.lineTriangleSeg l T tol = .ok none ∧ ∀ X, InTriangle T.v0 T.v1 T.v2 X → ¬ OnLine l X) := by
  have hgl : ∀ X, OnLine l X → g X = 0 := by
    rintro X ⟨t, rfl⟩
    rw [hg]
    simp only [hl]
    simp only [dot3, minus, along]; v3; ring
  have lin : ∀ α β γ : ℝ, α + β + γ = 1 → ∀ w : V3 ℝ, dot3 (minus ⟨α * T.v0.x + β * T.v1.x + γ * T.v2.x,
      α * T.v0.y + β * T.v1.y + γ * T.v2.y, α * T.v0.z + β * T.v1.z + γ * T.v2.z⟩ l.origin) w =
      α * dot3 (minus T.v0 l.origin) w + β * dot3 (minus T.v1 l.origin) w + γ * dot3 (minus T.v2 l.origin) w := by
    intro α β γ h w
    obtain rfl : γ = 1 - α - β := by linarith
    simp only [dot3, minus]; ring
  have hpl : ∀ X, InTriangle T.v0 T.v1 T.v2 X → dot3 (minus X l.origin) N = 0 := by
    rintro X ⟨α, β, γ, -, -, -, hs, rfl⟩
    rw [lin α β γ hs, p0, p1, p2]; ring
  have hiff : ∀ X, InTriangle T.v0 T.v1 T.v2 X → (OnLine l X ↔ g X = 0) := fun X hX =>
    ⟨hgl X, fun h => onLine_of_side hl h0 (hpl X hX) (by rw [← hg]; exact h)⟩
  have cut (A B C : V3 ℝ) (hABC : A = T.v0 ∧ B = T.v1 ∧ C = T.v2 ∨ A = T.v1 ∧ B = T.v2 ∧ C = T.v0 ∨ A = T.v2 ∧ B = T.v0 ∧ C = T.v1)
      (hs : Splits tol g A B C) :
      ∃ s, Inter.lineTriangleSeg l T tol = .ok (some s) ∧ s.v0 ≠ s.v1 ∧
        ∀ X, OnSegment s X ↔ InTriangle T.v0 T.v1 T.v2 X ∧ OnLine l X := by
    obtain ⟨p, q, e, tp, gp, tq, gq, all⟩ := Inter.lineTriangle_cut hN ht hl p0 p1 p2 g hg ⟨A, B, C, hABC, hs⟩
    have gt : ∀ X, OnSegment ⟨p, q⟩ X → InTriangle T.v0 T.v1 T.v2 X ∧ OnLine l X := by
      rintro X ⟨t, t0, t1, rfl⟩
      have h1 := nearTriangle_zero.1 (tp.convex tq t0 t1)
      refine ⟨h1, (hiff _ h1).2 ?_⟩
      rw [hg] at gp gq ⊢
      simp only [dot3, minus, along] at gp gq ⊢
      linear_combination (1 - t) * gp + t * gq
    refine ⟨⟨p, q⟩, e, ?_, fun X => ⟨gt X, fun hX => all X (nearTriangle_zero.2 hX.1) (hgl X hX.2)⟩⟩
    intro hpq
    have hpq : p = q := hpq
    have one : ∀ X, InTriangle T.v0 T.v1 T.v2 X → g X = 0 → X = p := by
      intro X h1 h2
      obtain ⟨t, -, -, e⟩ := all X (nearTriangle_zero.2 h1) h2
      rw [e, hpq]; simp only [along, minus]; ext <;> dsimp only <;> ring
    -- the crossings of the two edges from A
    obtain ⟨gab, gac, -⟩ := hs
    have hA : g A ≠ 0 := by intro h; rw [h] at gab; simp at gab
    have hAA : 0 < g A ^ 2 := by positivity
    have hab : g A - g B ≠ 0 := by intro h; have : g B = g A := by linarith
                                   rw [this] at gab; nlinarith
    have hac : g A - g C ≠ 0 := by intro h; have : g C = g A := by linarith
                                   rw [this] at gac; nlinarith
    have frac : ∀ b : ℝ, g A * b < 0 → 0 ≤ g A / (g A - b) ∧ g A / (g A - b) ≤ 1 := by
      intro b hb
      refine crossing_unit hb.le (.inl hA) (b := b) ?_
      have : g A - b ≠ 0 := by intro h; have : b = g A := by linarith
                               rw [this] at hb; nlinarith
      field_simp; ring
    obtain ⟨t0, t1⟩ := frac _ gab
    obtain ⟨u0, u1⟩ := frac _ gac
    have et : g A + g A / (g A - g B) * (g B - g A) = 0 := by field_simp; ring
    have eu : g A + g A / (g A - g C) * (g C - g A) = 0 := by field_simp; ring
    have tn : g A / (g A - g B) ≠ 0 := div_ne_zero hA hab
    have un : g A / (g A - g C) ≠ 0 := div_ne_zero hA hac
    generalize g A / (g A - g B) = t at *
    generalize g A / (g A - g C) = u at *
    have mem1 : InTriangle T.v0 T.v1 T.v2 (along A t (minus B A)) := by
      rcases hABC with ⟨rfl, rfl, rfl⟩ | ⟨rfl, rfl, rfl⟩ | ⟨rfl, rfl, rfl⟩
      · exact ⟨1 - t, t, 0, by linarith, t0, le_rfl, by ring, by simp only [along, minus]; congr 1 <;> ring⟩
      · exact ⟨0, 1 - t, t, le_rfl, by linarith, t0, by ring, by simp only [along, minus]; congr 1 <;> ring⟩
      · exact ⟨t, 0, 1 - t, t0, le_rfl, by linarith, by ring, by simp only [along, minus]; congr 1 <;> ring⟩
    have mem2 : InTriangle T.v0 T.v1 T.v2 (along A u (minus C A)) := by
      rcases hABC with ⟨rfl, rfl, rfl⟩ | ⟨rfl, rfl, rfl⟩ | ⟨rfl, rfl, rfl⟩
      · exact ⟨1 - u, 0, u, by linarith, le_rfl, u0, by ring, by simp only [along, minus]; congr 1 <;> ring⟩
      · exact ⟨u, 1 - u, 0, u0, by linarith, le_rfl, by ring, by simp only [along, minus]; congr 1 <;> ring⟩
      · exact ⟨0, u, 1 - u, le_rfl, u0, by linarith, by ring, by simp only [along, minus]; congr 1 <;> ring⟩
    have z1 : g (along A t (minus B A)) = 0 := by
      rw [hg] at et ⊢
      rw [hg] at et
      simp only [dot3, minus, along] at et ⊢
      linear_combination et
    have z2 : g (along A u (minus C A)) = 0 := by
      rw [hg] at eu ⊢
      rw [hg] at eu
      simp only [dot3, minus, along] at eu ⊢
      linear_combination eu
    have eq := (one _ mem1 z1).trans (one _ mem2 z2).symm
    simp only [along, minus, V3.mk.injEq] at eq
    obtain ⟨e1, e2, e3⟩ := eq
    have cr : cross3 (minus B A) (minus C A) = ⟨0, 0, 0⟩ := by
      have c : ∀ x : ℝ, t * u * x = 0 → x = 0 := fun x hx => (mul_eq_zero.1 hx).resolve_left (mul_ne_zero tn un)
      simp only [cross3, minus, V3.mk.injEq]
      refine ⟨c _ ?_, c _ ?_, c _ ?_⟩
      · linear_combination u * (C.z - A.z) * e2 - u * (C.y - A.y) * e3
      · linear_combination u * (C.x - A.x) * e3 - u * (C.z - A.z) * e1
      · linear_combination u * (C.y - A.y) * e1 - u * (C.x - A.x) * e2
    apply hT
    rw [← cr]
    rcases hABC with ⟨rfl, rfl, rfl⟩ | ⟨rfl, rfl, rfl⟩ | ⟨rfl, rfl, rfl⟩
    · rfl
    · simp only [cross3, minus]; congr 1 <;> ring
    · simp only [cross3, minus]; congr 1 <;> ring
  rcases hc with hc | hc | hc | hc
  · exact .inl (cut _ _ _ (.inl ⟨rfl, rfl, rfl⟩) hc)
  · exact .inl (cut _ _ _ (.inr (.inl ⟨rfl, rfl, rfl⟩)) hc)
  · exact .inl (cut _ _ _ (.inr (.inr ⟨rfl, rfl, rfl⟩)) hc)
  · right
    obtain ⟨h01, h12, a1, a2, b1, b2, c1, c2⟩ := hc
    have n0 : g T.v1 ≠ 0 := by intro h; rw [h] at h01; simp at h01
    have h20 : 0 < g T.v2 * g T.v0 := by
      have : 0 < g T.v1 ^ 2 * (g T.v2 * g T.v0) := by nlinarith [mul_pos h01 h12]
      exact pos_of_mul_pos_right this (sq_nonneg _)
    have e0 := (Inter.lineSegment_plane hN ht hl p0 p1 g hg).2.2 h01 a1 a2
    have e1 := (Inter.lineSegment_plane hN ht hl p1 p2 g hg).2.2 h12 b1 b2
    have e2 := (Inter.lineSegment_plane hN ht hl p2 p0 g hg).2.2 h20 c1 c2
    refine ⟨?_, ?_⟩
    · unfold Inter.lineTriangleSeg Triangle.edge0 Triangle.edge1 Triangle.edge2
      rw [e0, e1, e2]
    · rintro X ⟨α, β, γ, h1, h2, h3, hs, rfl⟩ hX
      have := hgl _ hX
      rw [hg, lin α β γ hs, ← hg, ← hg, ← hg] at this
      have e : 0 = α * g T.v1 * g T.v0 + β * g T.v1 ^ 2 + γ * g T.v2 * g T.v1 := by
        linear_combination -g T.v1 * this
      have p1 : 0 ≤ α * (g T.v0 * g T.v1) := mul_nonneg h1 h01.le
      have p2 : 0 ≤ β * g T.v1 ^ 2 := by positivity
      have p3 : 0 ≤ γ * (g T.v1 * g T.v2) := mul_nonneg h3 h12.le
      have q1 : α * (g T.v0 * g T.v1) = 0 := by linarith
      have q2 : β * g T.v1 ^ 2 = 0 := by linarith
      have q3 : γ * (g T.v1 * g T.v2) = 0 := by linarith
      have := (mul_eq_zero.1 q1).resolve_right h01.ne'
      have := (mul_eq_zero.1 q2).resolve_right (pow_ne_zero _ n0)
      have := (mul_eq_zero.1 q3).resolve_right h12.ne'
      linarith

/-! ## Disks -/

/-- The solutions of a quadratic inequality. -/
theorem Spec.quadratic {A B C t : ℝ} (hA : 0 < A) (hD : 0 ≤ B ^ 2 - C * A) :
    A * t ^ 2 + 2 * B * t + C ≤ 0 ↔ -(B + Real.sqrt (B ^ 2 - C * A)) / A ≤ t ∧ t ≤ -(B - Real.sqrt (B ^ 2 - C * A)) / A := by
  have hs := Real.sq_sqrt hD
  have h0 := Real.sqrt_nonneg (B ^ 2 - C * A)
  generalize Real.sqrt (B ^ 2 - C * A) = r at *
  rw [div_le_iff₀ hA, le_div_iff₀ hA]
  have key : A * (A * t ^ 2 + 2 * B * t + C) = (A * t + B) ^ 2 - r ^ 2 := by rw [hs]; ring
  constructor
  · intro h
    have h1 : (A * t + B) ^ 2 ≤ r ^ 2 := by nlinarith [mul_nonneg hA.le (neg_nonneg.2 h)]
    have := abs_le.1 (abs_le_of_sq_le_sq h1 h0)
    constructor <;> linarith [this.1, this.2]
  · rintro ⟨h1, h2⟩
    have : (A * t + B) ^ 2 ≤ r ^ 2 := sq_le_sq' (by linarith) (by linarith)
    by_contra h
    nlinarith [mul_pos hA (not_le.1 h)]

theorem Spec.quadratic_none {A B C t : ℝ} (hA : 0 < A) (hD : B ^ 2 - C * A < 0) : 0 < A * t ^ 2 + 2 * B * t + C := by
  by_contra h
  nlinarith [mul_nonneg hA.le (neg_nonneg.2 (not_lt.1 h)), sq_nonneg (A * t + B)]

/-- A point of a line in the plane of a disk is in the disk when a quadratic polynomial is not positive. -/
theorem Spec.inDisk_along {d : Disk ℝ} {o u : V3 ℝ} (hr : 0 ≤ d.radius) (h0 : OnPlane d.plane o) (h1 : dot3 u d.plane.normal = 0) (t : ℝ) :
    InDisk d (along o t u) ↔ dot3 u u * t ^ 2 + 2 * dot3 (minus o d.center) u * t +
      (dot3 (minus o d.center) (minus o d.center) - d.radius ^ 2) ≤ 0 := by
  have hp : OnPlane d.plane (along o t u) := by
    simp only [OnPlane, minus, along, dot3] at h0 h1 ⊢; linear_combination h0 + t * h1
  unfold InDisk
  rw [and_iff_right hp]
  have e : d.center = d.plane.origin := rfl
  unfold dist3
  rw [Real.sqrt_le_left hr, e]
  simp only [along, dot3, minus]
  constructor <;> intro h <;> linarith

/-- The points of a segment of a line between two parameters. -/
theorem Spec.onSegment_along {o u p : V3 ℝ} {a b : ℝ} (h : a ≤ b) :
    OnSegment ⟨along o a u, along o b u⟩ p ↔ ∃ t, a ≤ t ∧ t ≤ b ∧ p = along o t u := by
  constructor
  · rintro ⟨s, s0, s1, rfl⟩
    refine ⟨a + s * (b - a), by nlinarith, by nlinarith, ?_⟩
    simp only [along, minus]; congr 1 <;> ring
  · rintro ⟨t, t0, t1, rfl⟩
    rcases eq_or_lt_of_le h with rfl | hlt
    · obtain rfl : t = a := le_antisymm t1 t0
      exact ⟨0, le_rfl, zero_le_one, by simp only [along, minus]; congr 1 <;> ring⟩
    · have hp : 0 < b - a := by linarith
      refine ⟨(t - a) / (b - a), by apply div_nonneg <;> linarith, by rw [div_le_one hp]; linarith, ?_⟩
      simp only [along, minus]
      congr 1 <;> field_simp <;> ring

/-- The squared distance of a point from a line, by the product of vectors. -/
theorem Spec.offLine_sq {o u c : V3 ℝ} (hu : Unit3 u) :
    offLine o u c ^ 2 = dot3 (minus o c) (minus o c) - dot3 (minus o c) u ^ 2 := by
  unfold offLine length3
  rw [Real.sq_sqrt (by positivity)]
  unfold Unit3 at hu
  simp only [cross3, minus, dot3]
  linear_combination ((o.x - c.x) ^ 2 + (o.y - c.y) ^ 2 + (o.z - c.z) ^ 2) * hu

end Enve
