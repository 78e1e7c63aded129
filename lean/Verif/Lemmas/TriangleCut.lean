import Verif.Props.SearchProps
import Verif.Spec.InPlane

/-! # The section of a triangle by the plane of a rib -/

namespace Enve
open Scalar Spec

/-- The line in which two planes meet finds the crossing of an edge that lies in the second plane and crosses the first one. -/
theorem Inter.lineSegment_cross {n0 n1 o a b : V3 ℝ} {tol : ℝ} (h1 : Unit3 n1) (ht : 0 < tol) (ha : dot3 (minus a o) n1 = 0)
    (hb : dot3 (minus b o) n1 = 0) (hab : dot3 (minus a o) n0 * dot3 (minus b o) n0 ≤ 0)
    (hn : dot3 (minus a o) n0 ≠ dot3 (minus b o) n0) (hs : tol * dist3 a b ≤ |dot3 (minus a o) n0 - dot3 (minus b o) n0|) :
    ∃ p, Inter.lineSegment ⟨o, V3.cross n0 n1⟩ ⟨a, b⟩ tol = some p := by
  have hba : dot3 (minus b a) n1 = 0 := by simp only [dot3, minus] at *; linarith
  obtain ⟨ga, ega⟩ : ∃ ga, ga = dot3 (minus a o) n0 := ⟨_, rfl⟩
  obtain ⟨gb, egb⟩ : ∃ gb, gb = dot3 (minus b o) n0 := ⟨_, rfl⟩
  rw [← ega, ← egb] at hab hs hn
  have hκ : dot3 n0 (minus b a) = gb - ga := by rw [ega, egb]; simp only [dot3, minus]; ring
  have hne : ga - gb ≠ 0 := sub_ne_zero.2 hn
  have hL : V3.norm (V3.sub b a) = dist3 a b := by
    rw [V3.norm_sub]; unfold dist3; congr 1; ring
  have hnab : V3.sub b a ≠ ⟨0, 0, 0⟩ := by
    intro h
    apply hne
    have hx : b.x - a.x = 0 ∧ b.y - a.y = 0 ∧ b.z - a.z = 0 := by
      rw [V3.real_sub] at h; exact ⟨congrArg V3.x h, congrArg V3.y h, congrArg V3.z h⟩
    rw [ega, egb]; simp only [dot3, minus]
    linear_combination -n0.x * hx.1 - n0.y * hx.2.1 - n0.z * hx.2.2
  have hpos := V3.norm_pos.2 hnab
  rw [hL] at hpos
  have hcr : V3.cross (V3.cross n0 n1) (V3.sub b a) = ⟨(gb - ga) * n1.x, (gb - ga) * n1.y, (gb - ga) * n1.z⟩ := by
    rw [← hκ]
    simp only [dot3, minus] at hba ⊢
    v3
    congr 1
    · linear_combination -n0.x * hba
    · linear_combination -n0.y * hba
    · linear_combination -n0.z * hba
  have hb1 : V3.cross (V3.sub o a) (V3.cross n0 n1) = ⟨ga * n1.x, ga * n1.y, ga * n1.z⟩ := by
    rw [ega]
    simp only [dot3, minus] at ha ⊢
    v3
    congr 1
    · linear_combination -n0.x * ha
    · linear_combination -n0.y * ha
    · linear_combination -n0.z * ha
  have hpar : Inter.isParallel (V3.cross n0 n1) (Segment.toUnitVector ⟨a, b⟩) tol = false := by
    unfold Inter.isParallel Segment.toUnitVector
    dsimp only
    have : V3.cross (V3.cross n0 n1) (V3.normalized (V3.sub b a)) =
        ⟨(gb - ga) / dist3 a b * n1.x, (gb - ga) / dist3 a b * n1.y, (gb - ga) / dist3 a b * n1.z⟩ := by
      rw [V3.normalized_of_ne hnab, hL]
      rw [V3.real_cross (V3.cross n0 n1) (V3.sub b a)] at hcr
      rw [V3.mk.injEq] at hcr
      rw [V3.real_cross]
      congr 1
      · linear_combination (1 / dist3 a b) * hcr.1
      · linear_combination (1 / dist3 a b) * hcr.2.1
      · linear_combination (1 / dist3 a b) * hcr.2.2
    rw [this, V3.norm_eq, length3]
    dsimp only
    rw [show ((gb - ga) / dist3 a b * n1.x) ^ 2 + ((gb - ga) / dist3 a b * n1.y) ^ 2 + ((gb - ga) / dist3 a b * n1.z) ^ 2 =
      ((gb - ga) / dist3 a b) ^ 2 by unfold Unit3 at h1; linear_combination ((gb - ga) / dist3 a b) ^ 2 * h1, Real.sqrt_sq_eq_abs]
    simp only [Scalar.isApprox, real_lt, real_sub, real_zero, sub_zero, real_abs, abs_abs, decide_eq_false_iff_not, not_lt]
    rw [abs_div, abs_of_pos hpos, le_div_iff₀ hpos, abs_sub_comm]
    exact hs
  unfold Inter.lineSegment
  rw [hpar, if_neg (by simp)]
  dsimp only [Segment.toVector]
  rw [hcr, hb1]
  have hden : V3.dot (V3.neg ⟨(gb - ga) * n1.x, (gb - ga) * n1.y, (gb - ga) * n1.z⟩)
      (V3.neg ⟨(gb - ga) * n1.x, (gb - ga) * n1.y, (gb - ga) * n1.z⟩) = (ga - gb) ^ 2 := by
    unfold Unit3 at h1; v3; linear_combination (ga - gb) ^ 2 * h1
  have hnum : V3.dot ⟨ga * n1.x, ga * n1.y, ga * n1.z⟩ (V3.neg ⟨(gb - ga) * n1.x, (gb - ga) * n1.y, (gb - ga) * n1.z⟩) =
      ga * (ga - gb) := by
    unfold Unit3 at h1; v3; linear_combination ga * (ga - gb) * h1
  rw [hden, hnum]
  have hq : ga * (ga - gb) / (ga - gb) ^ 2 = ga / (ga - gb) := by field_simp
  have hmem : 0 ≤ ga / (ga - gb) ∧ ga / (ga - gb) ≤ 1 := by
    have e : ga / (ga - gb) = ga * (ga - gb) / (ga - gb) ^ 2 := hq.symm
    have hp : 0 < (ga - gb) ^ 2 := by positivity
    rw [e, div_le_one hp]
    exact ⟨div_nonneg (by nlinarith [mul_self_nonneg ga]) hp.le, by nlinarith [mul_self_nonneg gb]⟩
  rw [if_neg]
  · exact ⟨_, rfl⟩
  · simp only [real_div, hq, real_lt, real_zero, real_sub, real_add, real_one, Bool.or_eq_true, decide_eq_true_eq, not_or, not_lt]
    constructor <;> linarith [hmem.1, hmem.2]

/-- A point of a triangle on the plane that separates `A` from `B` and `C` is between the two crossings. -/
theorem Spec.between_crossings {A B C : V3 ℝ} {ga gb gc t u α β γ : ℝ} (hab : ga * gb < 0) (hac : ga * gc < 0)
    (ht : ga + t * (gb - ga) = 0) (hu : ga + u * (gc - ga) = 0) (hβ : 0 ≤ β) (hγ : 0 ≤ γ) (h1 : α + β + γ = 1)
    (hg : α * ga + β * gb + γ * gc = 0) :
    ∃ s, 0 ≤ s ∧ s ≤ 1 ∧ (⟨α * A.x + β * B.x + γ * C.x, α * A.y + β * B.y + γ * C.y, α * A.z + β * B.z + γ * C.z⟩ : V3 ℝ) =
      along (along A t (minus B A)) s (minus (along A u (minus C A)) (along A t (minus B A))) := by
  have ha : ga ≠ 0 := by rintro rfl; simp at hab
  have hsq : 0 < ga ^ 2 := by positivity
  have w1 : 0 ≤ (ga - gb) / ga := by
    rw [show (ga - gb) / ga = (ga ^ 2 - ga * gb) / ga ^ 2 by field_simp]
    exact div_nonneg (by linarith) hsq.le
  have w2 : 0 ≤ (ga - gc) / ga := by
    rw [show (ga - gc) / ga = (ga ^ 2 - ga * gc) / ga ^ 2 by field_simp]
    exact div_nonneg (by linarith) hsq.le
  have hsum : β * ((ga - gb) / ga) + γ * ((ga - gc) / ga) = 1 := by
    field_simp
    linear_combination ga * h1 - hg
  have e1 : β * ((ga - gb) / ga) * t = β := by
    field_simp
    linear_combination (-β) * ht
  have e2 : γ * ((ga - gc) / ga) * u = γ := by
    field_simp
    linear_combination (-γ) * hu
  generalize (ga - gb) / ga = P at *
  generalize (ga - gc) / ga = Q at *
  have hb : 0 ≤ β * P := mul_nonneg hβ w1
  have hc : 0 ≤ γ * Q := mul_nonneg hγ w2
  refine ⟨γ * Q, hc, by linarith, ?_⟩
  have hα : α = 1 - β - γ := by linarith
  subst hα
  have e3 : t * (1 - γ * Q) = β := by rw [← hsum]; linear_combination e1
  simp only [along, minus]
  congr 1
  · linear_combination (A.x - B.x) * e3 + (A.x - C.x) * e2
  · linear_combination (A.y - B.y) * e3 + (A.y - C.y) * e2
  · linear_combination (A.z - B.z) * e3 + (A.z - C.z) * e2

/-- What a line in the plane of a triangle does with a segment in that plane. -/
theorem Inter.lineSegment_plane {l : Line ℝ} {n N a b : V3 ℝ} (hN : Unit3 N) {tol : ℝ} (ht : 0 < tol)
    (hl : l.direction = V3.cross n N) (pa : dot3 (minus a l.origin) N = 0) (pb : dot3 (minus b l.origin) N = 0)
    (g : V3 ℝ → ℝ) (hg : ∀ v, g v = dot3 (minus v l.origin) n) :
    (∀ p, Inter.lineSegment l ⟨a, b⟩ tol = some p →
      ∃ t, -tol ≤ t ∧ t ≤ 1 + tol ∧ p = along a t (minus b a) ∧ g a + t * (g b - g a) = 0 ∧ g p = 0) ∧
    (g a * g b ≤ 0 → g a ≠ g b → tol * dist3 a b ≤ |g a - g b| → ∃ p, Inter.lineSegment l ⟨a, b⟩ tol = some p) ∧
    (0 < g a * g b → tol * |g a - g b| < |g a| → tol * |g a - g b| < |g b| → Inter.lineSegment l ⟨a, b⟩ tol = none) := by
  have hline : l = ⟨l.origin, V3.cross n N⟩ := by rw [← hl]
  have hdir : dot3 l.direction N = 0 := by rw [hl]; simp only [dot3]; v3; ring
  have hdn : dot3 l.direction n = 0 := by rw [hl]; simp only [dot3]; v3; ring
  have hit : ∀ p, Inter.lineSegment l ⟨a, b⟩ tol = some p →
      ∃ t, -tol ≤ t ∧ t ≤ 1 + tol ∧ p = along a t (minus b a) ∧ g a + t * (g b - g a) = 0 ∧ g p = 0 := by
    intro p hp
    have hab : dot3 (minus b a) N = 0 := by simp only [dot3, minus] at *; linarith
    obtain ⟨⟨k, hol⟩, t, t0, t1, e⟩ := Inter.lineSegment_spec l ⟨a, b⟩ tol ht (triple_zero hN pa hdir hab) p hp
    have hp0 : g p = 0 := by
      rw [hg, hol]
      simp only [dot3, minus, along] at hdn ⊢
      linear_combination k * hdn
    refine ⟨t, t0, t1, e, ?_, hp0⟩
    rw [e, hg] at hp0
    rw [hg, hg]
    simp only [dot3, minus, along] at hp0 ⊢
    linear_combination hp0
  refine ⟨hit, ?_, ?_⟩
  · intro h1 h2 h3
    rw [hline]
    refine Inter.lineSegment_cross hN ht pa pb ?_ ?_ ?_
    · rw [← hg, ← hg]; exact h1
    · rw [← hg, ← hg]; exact h2
    · rw [← hg, ← hg]; exact h3
  · intro h1 h2 h3
    by_contra hc
    obtain ⟨p, hp⟩ := Option.ne_none_iff_exists'.1 hc
    obtain ⟨t, t0, t1, -, e, -⟩ := hit p hp
    exact no_crossing h1 h2 (by rw [abs_sub_comm]; exact h3) t0 t1 e

/-- A line in the plane of a triangle that separates one vertex cleanly from the two others cuts the triangle in a segment: both ends
are in the triangle and on the line, and all common points are between them. -/
theorem Inter.lineTriangle_cut {T : Triangle ℝ} {l : Line ℝ} {n N : V3 ℝ} (hN : Unit3 N) {tol : ℝ} (ht : 0 < tol)
    (hl : l.direction = V3.cross n N) (p0 : dot3 (minus T.v0 l.origin) N = 0) (p1 : dot3 (minus T.v1 l.origin) N = 0)
    (p2 : dot3 (minus T.v2 l.origin) N = 0) (g : V3 ℝ → ℝ) (hg : ∀ v, g v = dot3 (minus v l.origin) n)
    (hsep : ∃ A B C : V3 ℝ, (A = T.v0 ∧ B = T.v1 ∧ C = T.v2 ∨ A = T.v1 ∧ B = T.v2 ∧ C = T.v0 ∨ A = T.v2 ∧ B = T.v0 ∧ C = T.v1) ∧
      g A * g B < 0 ∧ g A * g C < 0 ∧ tol * dist3 A B ≤ |g A - g B| ∧ tol * dist3 A C ≤ |g A - g C| ∧
      tol * |g B - g C| < |g B| ∧ tol * |g B - g C| < |g C|) :
    ∃ p q, Inter.lineTriangleSeg l T tol = .ok (some ⟨p, q⟩) ∧ NearTriangle 0 T p ∧ g p = 0 ∧ NearTriangle 0 T q ∧ g q = 0 ∧
      ∀ X, NearTriangle 0 T X → g X = 0 → ∃ s, 0 ≤ s ∧ s ≤ 1 ∧ X = along p s (minus q p) := by
  -- a crossing is in the triangle
  have inside : ∀ {a b t : ℝ}, a * b < 0 → a + t * (b - a) = 0 → 0 ≤ t ∧ t ≤ 1 := by
    intro a b t h e
    exact crossing_unit h.le (.inl (by rintro rfl; simp at h)) e
  obtain ⟨A, B, C, hABC, gab, gac, sab, sac, cb, cc⟩ := hsep
  have pA : dot3 (minus A l.origin) N = 0 := by rcases hABC with ⟨rfl, -, -⟩ | ⟨rfl, -, -⟩ | ⟨rfl, -, -⟩ <;> assumption
  have pB : dot3 (minus B l.origin) N = 0 := by rcases hABC with ⟨-, rfl, -⟩ | ⟨-, rfl, -⟩ | ⟨-, rfl, -⟩ <;> assumption
  have pC : dot3 (minus C l.origin) N = 0 := by rcases hABC with ⟨-, -, rfl⟩ | ⟨-, -, rfl⟩ | ⟨-, -, rfl⟩ <;> assumption
  have gbc : 0 < g B * g C := by
    have ha : g A ≠ 0 := by intro h; rw [h] at gab; simp at gab
    have : 0 < g A ^ 2 * (g B * g C) := by nlinarith [mul_pos_of_neg_of_neg gab gac]
    exact pos_of_mul_pos_right this (sq_nonneg _)
  have nBC := (Inter.lineSegment_plane hN ht hl pB pC g hg).2.2 gbc cb cc
  have other : ∀ {a b : ℝ}, a * b < 0 → a ≠ b := by rintro a b h rfl; nlinarith [mul_self_nonneg a]
  obtain ⟨p, hp⟩ := (Inter.lineSegment_plane hN ht hl pA pB g hg).2.1 gab.le (other gab) sab
  obtain ⟨q, hq⟩ := (Inter.lineSegment_plane hN ht hl pC pA g hg).2.1 (by rw [mul_comm]; exact gac.le) (other gac).symm (by rw [dist3_comm, abs_sub_comm]; exact sac)
  obtain ⟨t, -, -, ep, et, gp⟩ := (Inter.lineSegment_plane hN ht hl pA pB g hg).1 p hp
  obtain ⟨u, -, -, eq, eu, gq⟩ := (Inter.lineSegment_plane hN ht hl pC pA g hg).1 q hq
  have hq' : q = along A (1 - u) (minus C A) := by
    rw [eq]; simp only [along, minus]; congr 1 <;> ring
  have eu' : g A + (1 - u) * (g C - g A) = 0 := by linarith
  obtain ⟨t0, t1⟩ := inside gab et
  obtain ⟨u0, u1⟩ := inside gac eu'
  have key : ∀ α β γ : ℝ, 0 ≤ β → 0 ≤ γ → α + β + γ = 1 → α * g A + β * g B + γ * g C = 0 →
      ∃ s, 0 ≤ s ∧ s ≤ 1 ∧ (⟨α * A.x + β * B.x + γ * C.x, α * A.y + β * B.y + γ * C.y, α * A.z + β * B.z + γ * C.z⟩ : V3 ℝ) =
        along p s (minus q p) := by
    intro α β γ hβ hγ h1 h2
    rw [ep, hq']
    exact between_crossings gab gac et eu' hβ hγ h1 h2
  have glin : ∀ α β γ : ℝ, α + β + γ = 1 → g ⟨α * T.v0.x + β * T.v1.x + γ * T.v2.x, α * T.v0.y + β * T.v1.y + γ * T.v2.y,
      α * T.v0.z + β * T.v1.z + γ * T.v2.z⟩ = α * g T.v0 + β * g T.v1 + γ * g T.v2 := by
    intro α β γ h
    have : γ = 1 - α - β := by linarith
    subst this
    simp only [hg, dot3, minus]; ring
  unfold Inter.lineTriangleSeg Triangle.edge0 Triangle.edge1 Triangle.edge2
  have rev : ∀ X : V3 ℝ, (∃ s, 0 ≤ s ∧ s ≤ 1 ∧ X = along p s (minus q p)) → ∃ s, 0 ≤ s ∧ s ≤ 1 ∧ X = along q s (minus p q) := by
    rintro X ⟨s, s0, s1, rfl⟩
    exact ⟨1 - s, by linarith, by linarith, by simp only [along, minus]; congr 1 <;> ring⟩
  rcases hABC with ⟨rfl, rfl, rfl⟩ | ⟨rfl, rfl, rfl⟩ | ⟨rfl, rfl, rfl⟩
  · refine ⟨q, p, by rw [hp, nBC, hq], ⟨u, 0, 1 - u, by linarith, by linarith, by linarith, by ring, ?_⟩, gq,
      ⟨1 - t, t, 0, by linarith, by linarith, by linarith, by ring, ?_⟩, gp, ?_⟩
    · rw [hq']; simp only [along, minus]; congr 1 <;> ring
    · rw [ep]; simp only [along, minus]; congr 1 <;> ring
    · rintro X ⟨α, β, γ, hα, hβ, hγ, h1, rfl⟩ hX
      rw [glin _ _ _ h1] at hX
      exact rev _ (key α β γ (by linarith) (by linarith) h1 hX)
  · refine ⟨q, p, by rw [hp, nBC, hq], ⟨1 - u, u, 0, by linarith, by linarith, by linarith, by ring, ?_⟩, gq,
      ⟨0, 1 - t, t, by linarith, by linarith, by linarith, by ring, ?_⟩, gp, ?_⟩
    · rw [hq']; simp only [along, minus]; congr 1 <;> ring
    · rw [ep]; simp only [along, minus]; congr 1 <;> ring
    · rintro X ⟨α, β, γ, hα, hβ, hγ, h1, rfl⟩ hX
      rw [glin _ _ _ h1] at hX
      obtain ⟨s, s0, s1, e⟩ := key β γ α (by linarith) (by linarith) (by linarith) (by linarith)
      refine rev _ ⟨s, s0, s1, ?_⟩
      rw [← e]; congr 1 <;> ring
  · refine ⟨q, p, by rw [hp, nBC, hq], ⟨0, 1 - u, u, by linarith, by linarith, by linarith, by ring, ?_⟩, gq,
      ⟨t, 0, 1 - t, by linarith, by linarith, by linarith, by ring, ?_⟩, gp, ?_⟩
    · rw [hq']; simp only [along, minus]; congr 1 <;> ring
    · rw [ep]; simp only [along, minus]; congr 1 <;> ring
    · rintro X ⟨α, β, γ, hα, hβ, hγ, h1, rfl⟩ hX
      rw [glin _ _ _ h1] at hX
      obtain ⟨s, s0, s1, e⟩ := key γ α β (by linarith) (by linarith) (by linarith) (by linarith)
      refine rev _ ⟨s, s0, s1, ?_⟩
      rw [← e]; congr 1 <;> ring

/-- The plane of a disk cuts a triangle cleanly in a segment: both ends are in the triangle and in the plane, and all common points are
between them. -/
theorem Inter.planeTriangle_cut {T : Triangle ℝ} {d : Disk ℝ} (hd : Unit3 d.plane.normal) {tol : ℝ} (ht : 0 < tol)
    (hT : V3.cross (minus T.v1 T.v0) (minus T.v2 T.v0) ≠ ⟨0, 0, 0⟩) (hsin : tol ≤ 1 - dot3 d.plane.normal T.normal ^ 2)
    (g : V3 ℝ → ℝ) (hg : ∀ v, g v = dot3 (minus v d.plane.origin) d.plane.normal)
    (hsep : ∃ A B C : V3 ℝ, (A = T.v0 ∧ B = T.v1 ∧ C = T.v2 ∨ A = T.v1 ∧ B = T.v2 ∧ C = T.v0 ∨ A = T.v2 ∧ B = T.v0 ∧ C = T.v1) ∧
      g A * g B < 0 ∧ g A * g C < 0 ∧ tol * dist3 A B ≤ |g A - g B| ∧ tol * dist3 A C ≤ |g A - g C| ∧
      tol * |g B - g C| < |g B| ∧ tol * |g B - g C| < |g C|) :
    ∃ p q, Inter.planeTriangle d.layingPlane T tol = .ok (some ⟨p, q⟩) ∧ NearTriangle 0 T p ∧ g p = 0 ∧ NearTriangle 0 T q ∧ g q = 0 ∧
      ∀ X, NearTriangle 0 T X → g X = 0 → ∃ s, 0 ≤ s ∧ s ≤ 1 ∧ X = along p s (minus q p) := by
  have hN : Unit3 T.normal := by
    have e1 : V3.sub T.v1 T.v0 = minus T.v1 T.v0 := by rw [V3.real_sub]; rfl
    have e2 : V3.sub T.v2 T.v0 = minus T.v2 T.v0 := by rw [V3.real_sub]; rfl
    unfold Triangle.normal
    rw [e1, e2]; exact V3.sq_normalized hT
  obtain ⟨hnone, hsome⟩ := C51_plane_plane d.layingPlane T.layingPlane hd hN tol ht
  have hnn : Inter.planePlane d.layingPlane T.layingPlane tol ≠ none := by
    intro h; have := hnone.1 h
    have e : dot3 d.layingPlane.normal T.layingPlane.normal = dot3 d.plane.normal T.normal := rfl
    rw [e] at this; linarith
  obtain ⟨l, hl⟩ := Option.ne_none_iff_exists'.1 hnn
  obtain ⟨-, hdir, hrel, hx⟩ := Inter.cut_line hd ht hl
  obtain ⟨v0, v1, v2⟩ := onPlane_centroid T
  have hform : l.direction = V3.cross d.plane.normal T.normal := by
    rw [Inter.planePlane_unit d.layingPlane T.layingPlane hd hN] at hl
    split at hl
    · cases hl
    · cases hl; rfl
  have hlo : g l.origin = 0 := by rw [hg]; exact ((hx l.origin).1 ⟨0, by simp [along]⟩).1
  have hgl : ∀ v, g v = dot3 (minus v l.origin) d.plane.normal := by
    intro v
    rw [hg] at hlo ⊢
    simp only [dot3, minus] at *; linarith
  have := Inter.lineTriangle_cut hN ht hform (hrel _ v0) (hrel _ v1) (hrel _ v2) g hgl hsep
  unfold Inter.planeTriangle
  rw [hl]
  exact this

end Enve
