import Verif.Lemmas.LineCut

/-! # A line in the plane of a triangle that goes through a vertex or along an edge -/

namespace Enve
open Scalar Spec

theorem Inter.lineSegment_parallel {l : Line ℝ} {n N a b : V3 ℝ} {tol : ℝ} (ht : 0 < tol) (hl : l.direction = V3.cross n N)
    (h1 : dot3 (minus b a) n = 0) (h2 : dot3 (minus b a) N = 0) : Inter.lineSegment l ⟨a, b⟩ tol = none := by
  have hz : V3.cross l.direction (Segment.toUnitVector ⟨a, b⟩) = ⟨0, 0, 0⟩ := by
    unfold Segment.toUnitVector
    dsimp only
    have hc : V3.cross l.direction (V3.sub b a) = ⟨0, 0, 0⟩ := by
      rw [hl]
      simp only [dot3, minus] at h1 h2
      v3
      congr 1
      · linear_combination N.x * h1 - n.x * h2
      · linear_combination N.y * h1 - n.y * h2
      · linear_combination N.z * h1 - n.z * h2
    by_cases h : V3.sub b a = ⟨0, 0, 0⟩
    · rw [h]
      have : V3.normalized (⟨0, 0, 0⟩ : V3 ℝ) = ⟨0, 0, 0⟩ := by simp [V3.normalized, V3.real_sqNorm]
      rw [this]
      v3
      simp
    · rw [V3.normalized_of_ne h]
      rw [V3.real_cross, V3.mk.injEq] at hc
      rw [V3.real_cross]
      congr 1
      · linear_combination (1 / V3.norm (V3.sub b a)) * hc.1
      · linear_combination (1 / V3.norm (V3.sub b a)) * hc.2.1
      · linear_combination (1 / V3.norm (V3.sub b a)) * hc.2.2
  unfold Inter.lineSegment
  rw [if_pos]
  unfold Inter.isParallel
  rw [hz]
  simp [Scalar.isApprox, V3.norm_eq, length3, ht]

theorem Spec.onSegment_swap {a b X : V3 ℝ} : OnSegment ⟨a, b⟩ X ↔ OnSegment ⟨b, a⟩ X := by
  constructor
  · rintro ⟨t, t0, t1, rfl⟩
    exact ⟨1 - t, by linarith, by linarith, by simp only [along, minus]; congr 1 <;> ring⟩
  · rintro ⟨t, t0, t1, rfl⟩
    exact ⟨1 - t, by linarith, by linarith, by simp only [along, minus]; congr 1 <;> ring⟩

/-- A line in the plane of a triangle that cuts it or runs along an edge: the reported segment is the common part. -/
theorem Inter.lineTriangle_cuts {T : Triangle ℝ} {l : Line ℝ} {n N : V3 ℝ} (hT : Proper (.triangle T)) (hN : Unit3 N) {tol : ℝ}
    (ht : 0 < tol) (hl : l.direction = V3.cross n N) (h0 : l.direction ≠ ⟨0, 0, 0⟩) (p0 : dot3 (minus T.v0 l.origin) N = 0)
    (p1 : dot3 (minus T.v1 l.origin) N = 0) (p2 : dot3 (minus T.v2 l.origin) N = 0) (g : V3 ℝ → ℝ)
    (hg : ∀ v, g v = dot3 (minus v l.origin) n) (hc : Cuts tol g T) :
    (∃ s, Inter.lineTriangleSeg l T tol = .ok (some s) ∧ s.v0 ≠ s.v1 ∧
      ∀ X, OnSegment s X ↔ InTriangle T.v0 T.v1 T.v2 X ∧ OnLine l X) ∨
    (Inter.lineTriangleSeg l T tol = .ok none ∧ ∀ X, InTriangle T.v0 T.v1 T.v2 X → ¬ OnLine l X) := by
  rcases hc with hc | ⟨A, B, C, hABC, hc⟩
  · exact Inter.lineTriangle_clean hT hN ht hl h0 p0 p1 p2 g hg hc
  left
  have hgl : ∀ X, OnLine l X → g X = 0 := by
    rintro X ⟨t, rfl⟩
    rw [hg]
    simp only [hl]
    simp only [dot3, minus, along]; v3; ring
  have pA : dot3 (minus A l.origin) N = 0 := by rcases hABC with ⟨rfl, -, -⟩ | ⟨rfl, -, -⟩ | ⟨rfl, -, -⟩ <;> assumption
  have pB : dot3 (minus B l.origin) N = 0 := by rcases hABC with ⟨-, rfl, -⟩ | ⟨-, rfl, -⟩ | ⟨-, rfl, -⟩ <;> assumption
  have pC : dot3 (minus C l.origin) N = 0 := by rcases hABC with ⟨-, -, rfl⟩ | ⟨-, -, rfl⟩ | ⟨-, -, rfl⟩ <;> assumption
  have hin : ∀ X, InTriangle T.v0 T.v1 T.v2 X ↔ InTriangle A B C X := by
    intro X
    rcases hABC with ⟨rfl, rfl, rfl⟩ | ⟨rfl, rfl, rfl⟩ | ⟨rfl, rfl, rfl⟩
    · rfl
    · constructor
      · rintro ⟨a, b, c, h1, h2, h3, hs, rfl⟩
        exact ⟨b, c, a, h2, h3, h1, by linarith, by congr 1 <;> ring⟩
      · rintro ⟨a, b, c, h1, h2, h3, hs, rfl⟩
        exact ⟨c, a, b, h3, h1, h2, by linarith, by congr 1 <;> ring⟩
    · constructor
      · rintro ⟨a, b, c, h1, h2, h3, hs, rfl⟩
        exact ⟨c, a, b, h3, h1, h2, by linarith, by congr 1 <;> ring⟩
      · rintro ⟨a, b, c, h1, h2, h3, hs, rfl⟩
        exact ⟨b, c, a, h2, h3, h1, by linarith, by congr 1 <;> ring⟩
  have hnd : cross3 (minus B A) (minus C A) ≠ ⟨0, 0, 0⟩ := by
    intro h
    apply hT
    rw [← h]
    rcases hABC with ⟨rfl, rfl, rfl⟩ | ⟨rfl, rfl, rfl⟩ | ⟨rfl, rfl, rfl⟩
    · rfl
    · simp only [cross3, minus]; congr 1 <;> ring
    · simp only [cross3, minus]; congr 1 <;> ring
  have lin : ∀ α β γ : ℝ, α + β + γ = 1 → ∀ w : V3 ℝ, dot3 (minus ⟨α * A.x + β * B.x + γ * C.x,
      α * A.y + β * B.y + γ * C.y, α * A.z + β * B.z + γ * C.z⟩ l.origin) w =
      α * dot3 (minus A l.origin) w + β * dot3 (minus B l.origin) w + γ * dot3 (minus C l.origin) w := by
    intro α β γ h w
    obtain rfl : γ = 1 - α - β := by linarith
    simp only [dot3, minus]; ring
  have hiff : ∀ X, InTriangle A B C X → (OnLine l X ↔ g X = 0) := by
    intro X hX
    refine ⟨hgl X, fun h => onLine_of_side hl h0 ?_ (by rw [← hg]; exact h)⟩
    obtain ⟨α, β, γ, -, -, -, hs, rfl⟩ := hX
    rw [lin α β γ hs, pA, pB, pC]; ring
  have hdAB : A ≠ B := by rintro rfl; apply hnd; simp [cross3, minus]
  have hdAC : A ≠ C := by rintro rfl; apply hnd; simp [cross3, minus]
  have hdBC : B ≠ C := by
    rintro rfl; apply hnd
    simp only [cross3, minus]; congr 1 <;> ring
  have dpos : ∀ {x y : V3 ℝ}, x ≠ y → 0 < tol * dist3 x y := by
    intro x y h
    refine mul_pos ht (lt_of_le_of_ne (Real.sqrt_nonneg _) fun e => h ?_)
    exact dist3_eq_zero.1 e.symm
  obtain ⟨iAB, jAB, -⟩ := Inter.lineSegment_plane hN ht hl pA pB g hg
  obtain ⟨iBC, jBC, -⟩ := Inter.lineSegment_plane hN ht hl pB pC g hg
  obtain ⟨iCA, jCA, -⟩ := Inter.lineSegment_plane hN ht hl pC pA g hg
  rcases hc with ⟨gB, gC, sB, sC⟩ | ⟨gA, gBC, sB, sC, sBC, far⟩
  · have gA : g A ≠ 0 := by
      intro h
      have := dpos hdAB
      rw [h, abs_zero] at sB; linarith
    have nBC : Inter.lineSegment l ⟨B, C⟩ tol = none := by
      refine Inter.lineSegment_parallel ht hl ?_ ?_
      · rw [hg] at gB gC; simp only [dot3, minus] at gB gC ⊢; linarith
      · simp only [dot3, minus] at pB pC ⊢; linarith
    obtain ⟨p, hp⟩ := jAB (by simp [gB]) (by rw [gB]; exact gA) (by rw [gB, sub_zero]; exact sB)
    obtain ⟨q, hq⟩ := jCA (by simp [gC]) (by rw [gC]; exact gA.symm) (by rw [gC, zero_sub, abs_neg, dist3_comm]; exact sC)
    obtain ⟨t, -, -, ep, et, -⟩ := iAB p hp
    obtain ⟨u, -, -, eq, eu, -⟩ := iCA q hq
    have t1 : t = 1 := by
      rw [gB] at et
      have : g A * (1 - t) = 0 := by linarith
      linarith [(mul_eq_zero.1 this).resolve_left gA]
    have u0 : u = 0 := by
      rw [gC] at eu
      have : u * g A = 0 := by linarith
      exact (mul_eq_zero.1 this).resolve_right gA
    have ep : p = B := by rw [ep, t1]; simp only [along, minus]; ext <;> dsimp only <;> ring
    have eq : q = C := by rw [eq, u0]; simp only [along, minus]; ext <;> dsimp only <;> ring
    rw [ep] at hp; rw [eq] at hq
    refine ⟨⟨C, B⟩, ?_, hdBC.symm, fun X => ?_⟩
    · unfold Inter.lineTriangleSeg Triangle.edge0 Triangle.edge1 Triangle.edge2
      rcases hABC with ⟨rfl, rfl, rfl⟩ | ⟨rfl, rfl, rfl⟩ | ⟨rfl, rfl, rfl⟩
      · rw [hp, nBC, hq]
      · rw [hp, nBC, hq]
      · rw [hp, nBC, hq]
    · rw [hin]
      constructor
      · rintro ⟨t, t0, t1, rfl⟩
        have hm : InTriangle A B C (along C t (minus B C)) :=
          ⟨0, t, 1 - t, le_rfl, t0, by linarith, by ring, by simp only [along, minus]; congr 1 <;> ring⟩
        refine ⟨hm, (hiff _ hm).2 ?_⟩
        rw [hg] at gB gC ⊢
        simp only [dot3, minus, along] at gB gC ⊢
        linear_combination t * gB + (1 - t) * gC
      · rintro ⟨⟨α, β, γ, h1, h2, h3, hs, rfl⟩, hX⟩
        have := hgl _ hX
        rw [hg, lin α β γ hs, ← hg, ← hg, ← hg, gB, gC] at this
        have hα : α = 0 := (mul_eq_zero.1 (by linarith : α * g A = 0)).resolve_right gA
        subst hα
        obtain rfl : γ = 1 - β := by linarith
        exact ⟨β, h2, by linarith, by simp only [along, minus]; congr 1 <;> ring⟩
  · have gB : g B ≠ 0 := by intro h; rw [h] at gBC; simp at gBC
    have gC : g C ≠ 0 := by intro h; rw [h] at gBC; simp at gBC
    have gne : g B ≠ g C := by intro h; rw [h] at gBC; nlinarith [mul_self_nonneg (g C)]
    obtain ⟨p, hp⟩ := jAB (by simp [gA]) (by rw [gA]; exact gB.symm) (by rw [gA, zero_sub, abs_neg]; exact sB)
    obtain ⟨q, hq⟩ := jCA (by simp [gA]) (by rw [gA]; exact gC) (by rw [gA, sub_zero, dist3_comm]; exact sC)
    obtain ⟨r, hr⟩ := jBC gBC.le gne sBC
    obtain ⟨t, -, -, ep, et, -⟩ := iAB p hp
    obtain ⟨u, -, -, eq, eu, -⟩ := iCA q hq
    obtain ⟨v, -, -, er, ev, gr⟩ := iBC r hr
    have t0 : t = 0 := by
      rw [gA] at et
      exact (mul_eq_zero.1 (by linarith : t * g B = 0)).resolve_right gB
    have u1 : u = 1 := by
      rw [gA] at eu
      have : g C * (1 - u) = 0 := by linarith
      linarith [(mul_eq_zero.1 this).resolve_left gC]
    have ep : p = A := by rw [ep, t0]; simp only [along, minus]; ext <;> dsimp only <;> ring
    have eq : q = A := by rw [eq, u1]; simp only [along, minus]; ext <;> dsimp only <;> ring
    rw [ep] at hp; rw [eq] at hq
    obtain ⟨v0, v1⟩ : 0 ≤ v ∧ v ≤ 1 := crossing_unit gBC.le (.inl gB) ev
    have onr : OnSegment ⟨B, C⟩ r := ⟨v, v0, v1, er⟩
    have hfar := far r onr
    have hl0 : 0 ≤ length3 A := Real.sqrt_nonneg _
    have hAr : A ≠ r := by
      rintro rfl
      rw [show dist3 A A = 0 by simp [dist3]] at hfar
      nlinarith
    have hap : V3.isApprox r A tol = false := by
      unfold V3.isApprox
      simp only [real_le, real_mul, real_min, decide_eq_false_iff_not, not_le]
      have h1 : V3.sqNorm (V3.sub r A) = dist3 A r ^ 2 := by
        unfold dist3
        rw [Real.sq_sqrt (by positivity)]
        rw [V3.real_sqNorm]; v3; ring
      have h2 : V3.sqNorm A = length3 A ^ 2 := by
        unfold length3
        rw [Real.sq_sqrt (by positivity)]
        rw [V3.real_sqNorm]; ring
      rw [h1]
      calc tol * tol * Min.min (V3.sqNorm r) (V3.sqNorm A) ≤ tol * tol * V3.sqNorm A :=
            mul_le_mul_of_nonneg_left (min_le_right _ _) (by positivity)
        _ = (tol * length3 A) ^ 2 := by rw [h2]; ring
        _ < dist3 A r ^ 2 := by
            have : 0 ≤ tol * length3 A := by positivity
            nlinarith
    have haa : V3.isApprox A A tol = true := by
      unfold V3.isApprox
      simp only [real_le, real_mul, real_min, decide_eq_true_eq, min_self]
      have h1 : V3.sqNorm (V3.sub A A) = 0 := by rw [V3.real_sqNorm]; v3; ring
      have h2 : 0 ≤ V3.sqNorm A := by
        rw [V3.real_sqNorm]
        have := mul_self_nonneg A.x; have := mul_self_nonneg A.y; have := mul_self_nonneg A.z
        linarith
      rw [h1]; positivity
    have hmem : ∀ X, OnSegment ⟨A, r⟩ X ↔ InTriangle T.v0 T.v1 T.v2 X ∧ OnLine l X := by
      intro X
      rw [hin]
      constructor
      · rintro ⟨s, s0, s1, rfl⟩
        have hm : InTriangle A B C (along A s (minus r A)) :=
          ⟨1 - s, s * (1 - v), s * v, by linarith, mul_nonneg s0 (by linarith), mul_nonneg s0 v0, by ring, by
            rw [er]; simp only [along, minus]; congr 1 <;> ring⟩
        refine ⟨hm, (hiff _ hm).2 ?_⟩
        rw [hg] at gA gr ⊢
        simp only [dot3, minus, along] at gA gr ⊢
        linear_combination (1 - s) * gA + s * gr
      · rintro ⟨⟨α, β, γ, h1, h2, h3, hs, rfl⟩, hX⟩
        have := hgl _ hX
        rw [hg, lin α β γ hs, ← hg, ← hg, ← hg, gA] at this
        have hv : (γ - (β + γ) * v) * (g C - g B) = 0 := by linear_combination this - (β + γ) * ev
        have hv := (mul_eq_zero.1 hv).resolve_right (sub_ne_zero.2 gne.symm)
        refine ⟨β + γ, by linarith, by linarith, ?_⟩
        rw [er]
        obtain rfl : α = 1 - (β + γ) := by linarith
        have hγ : γ = (β + γ) * v := by linarith
        simp only [along, minus]
        congr 1
        · linear_combination (C.x - B.x) * hγ
        · linear_combination (C.y - B.y) * hγ
        · linear_combination (C.z - B.z) * hγ
    have hmem' : ∀ X, OnSegment ⟨r, A⟩ X ↔ InTriangle T.v0 T.v1 T.v2 X ∧ OnLine l X := fun X => onSegment_swap.trans (hmem X)
    rcases hABC with ⟨rfl, rfl, rfl⟩ | ⟨rfl, rfl, rfl⟩ | ⟨rfl, rfl, rfl⟩
    · cases h1 : V3.isApprox T.v0 r tol with
      | true =>
        refine ⟨⟨r, T.v0⟩, ?_, hAr.symm, hmem'⟩
        unfold Inter.lineTriangleSeg Triangle.edge0 Triangle.edge1 Triangle.edge2
        rw [hp, hr, hq]
        simp [h1]
      | false =>
        refine ⟨⟨T.v0, r⟩, ?_, hAr, hmem⟩
        unfold Inter.lineTriangleSeg Triangle.edge0 Triangle.edge1 Triangle.edge2
        rw [hp, hr, hq]
        simp [h1, haa]
    · refine ⟨⟨T.v1, r⟩, ?_, hAr, hmem⟩
      unfold Inter.lineTriangleSeg Triangle.edge0 Triangle.edge1 Triangle.edge2
      rw [hp, hr, hq]
      simp [haa]
    · refine ⟨⟨r, T.v2⟩, ?_, hAr.symm, hmem'⟩
      unfold Inter.lineTriangleSeg Triangle.edge0 Triangle.edge1 Triangle.edge2
      rw [hp, hr, hq]
      simp [hap, haa]

/-- A line in the plane of a triangle that touches it in one vertex only: a segment with both ends at this vertex is reported. -/
theorem Inter.lineTriangle_vertex {T : Triangle ℝ} {l : Line ℝ} {n N : V3 ℝ} (hN : Unit3 N) {tol : ℝ}
    (ht : 0 < tol) (hl : l.direction = V3.cross n N) (p0 : dot3 (minus T.v0 l.origin) N = 0)
    (p1 : dot3 (minus T.v1 l.origin) N = 0) (p2 : dot3 (minus T.v2 l.origin) N = 0) (g : V3 ℝ → ℝ)
    (hg : ∀ v, g v = dot3 (minus v l.origin) n) {A B C : V3 ℝ}
    (hABC : A = T.v0 ∧ B = T.v1 ∧ C = T.v2 ∨ A = T.v1 ∧ B = T.v2 ∧ C = T.v0 ∨ A = T.v2 ∧ B = T.v0 ∧ C = T.v1)
    (hc : VertexOn tol g A B C) :
    Inter.lineTriangleSeg l T tol = .ok (some ⟨A, A⟩) ∧ ∀ X, InTriangle T.v0 T.v1 T.v2 X → g X = 0 → X = A := by
  have pA : dot3 (minus A l.origin) N = 0 := by rcases hABC with ⟨rfl, -, -⟩ | ⟨rfl, -, -⟩ | ⟨rfl, -, -⟩ <;> assumption
  have pB : dot3 (minus B l.origin) N = 0 := by rcases hABC with ⟨-, rfl, -⟩ | ⟨-, rfl, -⟩ | ⟨-, rfl, -⟩ <;> assumption
  have pC : dot3 (minus C l.origin) N = 0 := by rcases hABC with ⟨-, -, rfl⟩ | ⟨-, -, rfl⟩ | ⟨-, -, rfl⟩ <;> assumption
  obtain ⟨gA, gBC, sB, sC, nB, nC⟩ := hc
  have gB : g B ≠ 0 := by intro h; rw [h] at gBC; simp at gBC
  have gC : g C ≠ 0 := by intro h; rw [h] at gBC; simp at gBC
  obtain ⟨iAB, jAB, -⟩ := Inter.lineSegment_plane hN ht hl pA pB g hg
  obtain ⟨iCA, jCA, -⟩ := Inter.lineSegment_plane hN ht hl pC pA g hg
  have nBC := (Inter.lineSegment_plane hN ht hl pB pC g hg).2.2 gBC nB nC
  obtain ⟨p, hp⟩ := jAB (by simp [gA]) (by rw [gA]; exact gB.symm) (by rw [gA, zero_sub, abs_neg]; exact sB)
  obtain ⟨q, hq⟩ := jCA (by simp [gA]) (by rw [gA]; exact gC) (by rw [gA, sub_zero, dist3_comm]; exact sC)
  obtain ⟨t, -, -, ep, et, -⟩ := iAB p hp
  obtain ⟨u, -, -, eq, eu, -⟩ := iCA q hq
  have t0 : t = 0 := by
    rw [gA] at et
    exact (mul_eq_zero.1 (by linarith : t * g B = 0)).resolve_right gB
  have u1 : u = 1 := by
    rw [gA] at eu
    have : g C * (1 - u) = 0 := by linarith
    linarith [(mul_eq_zero.1 this).resolve_left gC]
  have ep : p = A := by rw [ep, t0]; simp only [along, minus]; ext <;> dsimp only <;> ring
  have eq : q = A := by rw [eq, u1]; simp only [along, minus]; ext <;> dsimp only <;> ring
  rw [ep] at hp; rw [eq] at hq
  constructor
  · unfold Inter.lineTriangleSeg Triangle.edge0 Triangle.edge1 Triangle.edge2
    rcases hABC with ⟨rfl, rfl, rfl⟩ | ⟨rfl, rfl, rfl⟩ | ⟨rfl, rfl, rfl⟩ <;> rw [hp, nBC, hq]
  · have key : ∀ α β γ : ℝ, 0 ≤ β → 0 ≤ γ → α + β + γ = 1 → ∀ X : V3 ℝ, X = ⟨α * A.x + β * B.x + γ * C.x,
        α * A.y + β * B.y + γ * C.y, α * A.z + β * B.z + γ * C.z⟩ → g X = 0 → X = A := by
      rintro α β γ h2 h3 hs X rfl h
      obtain rfl : α = 1 - β - γ := by linarith
      have e : β * g B + γ * g C = 0 := by
        rw [hg] at h gA ⊢
        rw [hg C]
        simp only [dot3, minus] at h gA ⊢
        linear_combination h - (1 - β - γ) * gA
      have hb : β = 0 ∧ γ = 0 := by
        have e1 : β * g B ^ 2 + γ * (g B * g C) = 0 := by linear_combination g B * e
        have q : 0 < g B ^ 2 := by positivity
        have x1 : 0 ≤ β * g B ^ 2 := by positivity
        have x2 : 0 ≤ γ * (g B * g C) := by positivity
        constructor
        · by_contra hne; have : 0 < β * g B ^ 2 := by positivity
          linarith
        · by_contra hne; have : 0 < γ * (g B * g C) := by positivity
          linarith
      obtain ⟨rfl, rfl⟩ := hb
      ext <;> dsimp only <;> ring
    rintro X ⟨a, b, c, h1, h2, h3, hs, rfl⟩ h
    rcases hABC with ⟨rfl, rfl, rfl⟩ | ⟨rfl, rfl, rfl⟩ | ⟨rfl, rfl, rfl⟩
    · exact key a b c h2 h3 hs _ rfl h
    · exact key b c a h3 h1 (by linarith) _ (by congr 1 <;> ring) h
    · exact key c a b h1 h2 (by linarith) _ (by congr 1 <;> ring) h

end Enve
