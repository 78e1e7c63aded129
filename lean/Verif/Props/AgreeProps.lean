import Verif.Props.GeomMeshProps
import Verif.Lemmas.Planar

/-! # Flat and mesh ground agree: C59; witnesses for the geometric method on a mesh -/

namespace Enve
open Scalar Spec

/-! ## The contribution of a full chord -/

theorem Spec.arg_pair {ρ z R : ℝ} (hρ : 0 < ρ) (hR : 0 < R) (h : ρ ^ 2 + z ^ 2 = R ^ 2) :
    -(Real.pi / 2) < Complex.arg ⟨ρ, z⟩ ∧ Complex.arg ⟨ρ, z⟩ < Real.pi / 2 ∧
    Real.sin (Complex.arg ⟨ρ, z⟩) = z / R ∧ Real.cos (Complex.arg ⟨ρ, z⟩) = ρ / R ∧
    (0 ≤ z → Complex.arg ⟨-ρ, z⟩ = Real.pi - Complex.arg ⟨ρ, z⟩) ∧
    (z < 0 → Complex.arg ⟨-ρ, z⟩ = -Real.pi - Complex.arg ⟨ρ, z⟩) := by
  have hn : ‖(⟨ρ, z⟩ : ℂ)‖ = R := by
    rw [Complex.norm_def, Complex.normSq_mk, ← sq, ← sq, h, Real.sqrt_sq hR.le]
  have hne : (⟨ρ, z⟩ : ℂ) ≠ 0 := by
    intro h0; rw [h0, norm_zero] at hn; exact hR.ne hn
  have hb := (Complex.abs_arg_lt_pi_div_two_iff (z := ⟨ρ, z⟩)).2 (.inl hρ)
  rw [abs_lt] at hb
  have hs : Real.sin (Complex.arg ⟨ρ, z⟩) = z / R := by rw [Complex.sin_arg, hn]
  have hc : Real.cos (Complex.arg ⟨ρ, z⟩) = ρ / R := by rw [Complex.cos_arg hne, hn]
  refine ⟨hb.1, hb.2, hs, hc, fun hz => ?_, fun hz => ?_⟩
  · have hφ : 0 ≤ Complex.arg ⟨ρ, z⟩ := Complex.arg_nonneg_iff.2 hz
    have e : (⟨-ρ, z⟩ : ℂ) = (R : ℂ) * (Complex.cos ((Real.pi - Complex.arg ⟨ρ, z⟩ : ℝ)) +
        Complex.sin ((Real.pi - Complex.arg ⟨ρ, z⟩ : ℝ)) * Complex.I) := by
      rw [← Complex.ofReal_cos, ← Complex.ofReal_sin, Real.cos_pi_sub, Real.sin_pi_sub, hs, hc]
      apply Complex.ext
      · simp; field_simp
      · simp; field_simp
    rw [e, Complex.arg_mul_cos_add_sin_mul_I hR ⟨by linarith [Real.pi_pos], by linarith⟩]
  · have hφ : Complex.arg ⟨ρ, z⟩ < 0 := Complex.arg_neg_iff.2 hz
    have e : (⟨-ρ, z⟩ : ℂ) = (R : ℂ) * (Complex.cos ((-Real.pi - Complex.arg ⟨ρ, z⟩ : ℝ)) +
        Complex.sin ((-Real.pi - Complex.arg ⟨ρ, z⟩ : ℝ)) * Complex.I) := by
      rw [← Complex.ofReal_cos, ← Complex.ofReal_sin]
      have e1 : Real.cos (-Real.pi - Complex.arg ⟨ρ, z⟩) = -(ρ / R) := by
        rw [show -Real.pi - Complex.arg ⟨ρ, z⟩ = -(Complex.arg ⟨ρ, z⟩ + Real.pi) by ring, Real.cos_neg, Real.cos_add_pi, hc]
      have e2 : Real.sin (-Real.pi - Complex.arg ⟨ρ, z⟩) = z / R := by
        rw [show -Real.pi - Complex.arg ⟨ρ, z⟩ = -(Complex.arg ⟨ρ, z⟩ + Real.pi) by ring, Real.sin_neg, Real.sin_add_pi, hs]
        ring
      rw [e1, e2]
      apply Complex.ext
      · simp; field_simp
      · simp; field_simp
    rw [e, Complex.arg_mul_cos_add_sin_mul_I hR ⟨by linarith [Real.pi_pos], by linarith⟩]

/-- The sorted end angles of a chord at height `z` below or above the centre: their half difference and
their mean. -/
theorem Spec.chord_angles {ρ z R : ℝ} (hρ : 0 < ρ) (hR : 0 < R) (h : ρ ^ 2 + z ^ 2 = R ^ 2) (A B : ℝ)
    (hAB : A = Complex.arg ⟨ρ, z⟩ ∧ B = Complex.arg ⟨-ρ, z⟩ ∨ A = Complex.arg ⟨-ρ, z⟩ ∧ B = Complex.arg ⟨ρ, z⟩) :
    ((if B < A then A else B) - (if B < A then B else A)) / 2 = Real.arccos (|z| / R) ∧
    Real.cos (((if B < A then B else A) + (if B < A then A else B)) / 2) = 0 ∧
    |z| * Real.sin (((if B < A then B else A) + (if B < A then A else B)) / 2) = z := by
  obtain ⟨h1, h2, hs, hc, hp, hn⟩ := arg_pair hρ hR h
  have hpi := Real.pi_pos
  generalize Complex.arg ⟨ρ, z⟩ = φ at *
  generalize Complex.arg ⟨-ρ, z⟩ = ψ at *
  rcases le_or_gt 0 z with hz | hz
  · have hψ := hp hz
    have hlt : φ < ψ := by rw [hψ]; linarith
    have hlo : (if B < A then B else A) = φ := by
      rcases hAB with ⟨rfl, rfl⟩ | ⟨rfl, rfl⟩
      · rw [if_neg (by linarith)]
      · rw [if_pos hlt]
    have hhi : (if B < A then A else B) = Real.pi - φ := by
      rcases hAB with ⟨rfl, rfl⟩ | ⟨rfl, rfl⟩
      · rw [if_neg (by linarith), hψ]
      · rw [if_pos hlt, hψ]
    rw [hlo, hhi, abs_of_nonneg hz]
    refine ⟨?_, ?_, ?_⟩
    · rw [← hs, ← Real.cos_pi_div_two_sub, Real.arccos_cos (by linarith) (by linarith)]
      ring
    · rw [show (φ + (Real.pi - φ)) / 2 = Real.pi / 2 by ring, Real.cos_pi_div_two]
    · rw [show (φ + (Real.pi - φ)) / 2 = Real.pi / 2 by ring, Real.sin_pi_div_two, mul_one]
  · have hψ := hn hz
    have hlt : ψ < φ := by rw [hψ]; linarith
    have hlo : (if B < A then B else A) = -Real.pi - φ := by
      rcases hAB with ⟨rfl, rfl⟩ | ⟨rfl, rfl⟩
      · rw [if_pos hlt, hψ]
      · rw [if_neg (by linarith), hψ]
    have hhi : (if B < A then A else B) = φ := by
      rcases hAB with ⟨rfl, rfl⟩ | ⟨rfl, rfl⟩
      · rw [if_pos hlt]
      · rw [if_neg (by linarith)]
    rw [hlo, hhi, abs_of_neg hz]
    refine ⟨?_, ?_, ?_⟩
    · rw [neg_div, ← hs, ← Real.cos_add_pi_div_two, Real.arccos_cos (by linarith) (by linarith)]
      ring
    · rw [show (-Real.pi - φ + φ) / 2 = -(Real.pi / 2) by ring, Real.cos_neg, Real.cos_pi_div_two]
    · rw [show (-Real.pi - φ + φ) / 2 = -(Real.pi / 2) by ring, Real.sin_neg, Real.sin_pi_div_two]; ring

/-- The contribution of a triangle that contains a whole chord parallel to the x axis of the wheel. -/
theorem Rib.contrib_chord {r : Rib ℝ} {pose : Affine ℝ} (hp : IsRigid pose)
    (t : TriangleGround ℝ) {ρ z : ℝ} (hρ : 0 < ρ) (hlen : Scalar.eps < 2 * ρ) (hR : 0 < r.radius)
    (h : ρ ^ 2 + z ^ 2 = r.radius ^ 2) (seg : Segment ℝ)
    (hseg : seg = ⟨V3.add (r.centerGrd pose) (M3.mulVec pose.linear ⟨ρ, 0, z⟩),
        V3.add (r.centerGrd pose) (M3.mulVec pose.linear ⟨-ρ, 0, z⟩)⟩ ∨
      seg = ⟨V3.add (r.centerGrd pose) (M3.mulVec pose.linear ⟨-ρ, 0, z⟩),
        V3.add (r.centerGrd pose) (M3.mulVec pose.linear ⟨ρ, 0, z⟩)⟩) :
    ∃ c, r.contrib pose t seg = some c ∧ c.area = 2 * ρ * r.width ∧
      c.volume = (r.radius ^ 2 * Real.arccos (|z| / r.radius) - |z| * ρ) * r.width ∧
      c.point = V3.add (r.centerGrd pose) (M3.mulVec pose.linear ⟨0, 0, z⟩) ∧ c.friction = t.friction := by
  have hRot : IsRotation pose.linear := hp
  have heps := real_eps_pos
  have hsub : ∀ v : V3 ℝ, M3.mulVec (M3.transpose pose.linear)
      (V3.sub (V3.add (r.centerGrd pose) (M3.mulVec pose.linear v)) (r.centerGrd pose)) = v := by
    intro v
    have : V3.sub (V3.add (r.centerGrd pose) (M3.mulVec pose.linear v)) (r.centerGrd pose) =
        M3.mulVec pose.linear v := by
      generalize M3.mulVec pose.linear v = w
      generalize r.centerGrd pose = c
      v3; simp
    rw [this, hRot.transpose_mulVec]
  have hnorm : ∀ ρ' : ℝ, ρ' ^ 2 = ρ ^ 2 → V3.norm ⟨ρ', 0, z⟩ = r.radius := by
    intro ρ' h'
    rw [V3.norm_eq, length3]
    have : ρ' ^ 2 + 0 ^ 2 + z ^ 2 = r.radius ^ 2 := by rw [h', ← h]; ring
    dsimp only
    rw [this, Real.sqrt_sq hR.le]
  have hlength : seg.length = 2 * ρ := by
    have e : ∀ a b : ℝ, V3.sub (V3.add (r.centerGrd pose) (M3.mulVec pose.linear ⟨a, 0, z⟩))
        (V3.add (r.centerGrd pose) (M3.mulVec pose.linear ⟨b, 0, z⟩)) = M3.mulVec pose.linear ⟨a - b, 0, 0⟩ := by
      intro a b
      generalize r.centerGrd pose = c
      v3; congr 1 <;> ring
    have n1 : ∀ a : ℝ, V3.norm (⟨a, 0, 0⟩ : V3 ℝ) = |a| := by
      intro a; rw [V3.norm_planar]; rw [show a ^ 2 + 0 ^ 2 = a ^ 2 by ring, Real.sqrt_sq_eq_abs]
    rcases hseg with rfl | rfl
    · rw [Segment.length, e, hRot.norm_mulVec, n1, abs_of_pos (by linarith)]; ring
    · rw [Segment.length, e, hRot.norm_mulVec, n1, abs_of_neg (by linarith)]; ring
  -- the two vertices in the frame of the wheel
  obtain ⟨δ, hδ, ea, eb⟩ : ∃ δ : ℝ, (δ = ρ ∨ δ = -ρ) ∧
      M3.mulVec (M3.transpose pose.linear) (V3.sub seg.v0 (r.centerGrd pose)) = ⟨δ, 0, z⟩ ∧
      M3.mulVec (M3.transpose pose.linear) (V3.sub seg.v1 (r.centerGrd pose)) = ⟨-δ, 0, z⟩ := by
    rcases hseg with rfl | rfl
    · exact ⟨ρ, .inl rfl, hsub _, hsub _⟩
    · exact ⟨-ρ, .inr rfl, hsub _, by rw [hsub, neg_neg]⟩
  have hδ2 : δ ^ 2 = ρ ^ 2 := by rcases hδ with rfl | rfl <;> ring
  have hang := chord_angles hρ hR h (Complex.arg ⟨δ, z⟩) (Complex.arg ⟨-δ, z⟩) (by
    rcases hδ with rfl | rfl
    · exact .inl ⟨rfl, rfl⟩
    · exact .inr ⟨rfl, by rw [neg_neg]⟩)
  unfold Rib.contrib
  dsimp only
  rw [ea, eb, hlength]
  simp only [real_atan2, real_lt, real_sub, real_add, real_div, real_two, real_mul, real_cos, real_sin, real_min,
    real_max, real_neg, real_zero, decide_eq_true_eq, hnorm δ hδ2, hnorm (-δ) (by rw [neg_sq, hδ2]), min_self]
  rw [if_neg (by simp only [Bool.and_eq_true, decide_eq_true_eq, not_and, not_lt]; intro _; linarith)]
  obtain ⟨g1, g2, g3⟩ := hang
  set lo := (if Complex.arg ⟨-δ, z⟩ < Complex.arg ⟨δ, z⟩ then Complex.arg ⟨-δ, z⟩ else Complex.arg ⟨δ, z⟩) with hlo
  set hi := (if Complex.arg ⟨-δ, z⟩ < Complex.arg ⟨δ, z⟩ then Complex.arg ⟨δ, z⟩ else Complex.arg ⟨-δ, z⟩) with hhi
  have hzR : |z| ≤ r.radius := by
    rw [← Real.sqrt_sq hR.le, ← Real.sqrt_sq_eq_abs]
    exact Real.sqrt_le_sqrt (by nlinarith)
  have hz1 : |z| / r.radius ≤ 1 := (div_le_one hR).2 hzR
  have hz0 : 0 ≤ |z| / r.radius := by positivity
  have hcos : Real.cos ((hi - lo) / 2) = |z| / r.radius := by
    rw [g1, Real.cos_arccos (by linarith) hz1]
  have hρR : Real.sqrt (1 - (|z| / r.radius) ^ 2) = ρ / r.radius := by
    rw [show 1 - (|z| / r.radius) ^ 2 = (ρ / r.radius) ^ 2 by
      rw [div_pow, div_pow, sq_abs]; field_simp; linarith]
    exact Real.sqrt_sq (by positivity)
  have hsin : Real.sin (hi - lo) = 2 * (ρ / r.radius) * (|z| / r.radius) := by
    rw [show hi - lo = 2 * ((hi - lo) / 2) by ring, Real.sin_two_mul, hcos, g1, Real.sin_arccos, hρR]
  have hrc : Min.min r.radius (Max.max 0 (2 * r.radius * r.radius / Max.max Scalar.eps (r.radius + r.radius) *
      Real.cos ((hi - lo) / 2))) = |z| := by
    have hρR' : ρ ≤ r.radius := by
      rw [← Real.sqrt_sq hR.le, ← Real.sqrt_sq hρ.le]
      exact Real.sqrt_le_sqrt (by nlinarith)
    rw [max_eq_right (a := Scalar.eps) (by linarith), hcos]
    have : 2 * r.radius * r.radius / (r.radius + r.radius) * (|z| / r.radius) = |z| := by field_simp; ring
    rw [this, max_eq_right (abs_nonneg z), min_eq_right hzR]
  refine ⟨_, rfl, rfl, ?_, ?_, rfl⟩
  · dsimp only
    rw [hsin, g1]
    field_simp
  · dsimp only
    rw [hrc]
    simp only [g2]
    have : V3.smul |z| (⟨0, 0, Real.sin ((lo + hi) / 2)⟩ : V3 ℝ) = ⟨0, 0, z⟩ := by
      v3; rw [g3]; simp
    rw [this]
    simp only [Rib.centerGrd]
    generalize r.center = c
    v3
    congr 1 <;> ring

/-! ## A triangle of the ground plane -/

/-- A triangle whose vertices are in a plane has that plane's normal, up to the sign. -/
theorem Spec.triangle_normal {q : Plane ℝ} (hn : Unit3 q.normal) {T : Triangle ℝ} (h0 : OnPlane q T.v0)
    (h1 : OnPlane q T.v1) (h2 : OnPlane q T.v2)
    (hT : V3.cross (minus T.v1 T.v0) (minus T.v2 T.v0) ≠ ⟨0, 0, 0⟩) :
    ∃ σ : ℝ, (σ = 1 ∨ σ = -1) ∧ T.normal = ⟨σ * q.normal.x, σ * q.normal.y, σ * q.normal.z⟩ := by
  have e1 : V3.sub T.v1 T.v0 = minus T.v1 T.v0 := by rw [V3.real_sub]; rfl
  have e2 : V3.sub T.v2 T.v0 = minus T.v2 T.v0 := by rw [V3.real_sub]; rfl
  have hu := V3.sq_normalized hT
  have hdec := V3.decomp (minus T.v1 T.v0) (minus T.v2 T.v0) q.normal
  have o1 : dot3 q.normal (minus T.v1 T.v0) = 0 := by
    simp only [OnPlane, dot3, minus] at *; linear_combination h1 - h0
  have o2 : dot3 q.normal (minus T.v2 T.v0) = 0 := by
    simp only [OnPlane, dot3, minus] at *; linear_combination h2 - h0
  have hN : T.normal = V3.normalized (V3.cross (minus T.v1 T.v0) (minus T.v2 T.v0)) := by
    unfold Triangle.normal; rw [e1, e2]
  rw [hN]
  have hpos := V3.norm_pos.2 hT
  have hsq := V3.norm_sq (V3.cross (minus T.v1 T.v0) (minus T.v2 T.v0))
  rw [V3.normalized_of_ne hT] at hu ⊢
  dsimp only at hdec
  rw [o1, o2] at hdec
  generalize V3.cross (minus T.v1 T.v0) (minus T.v2 T.v0) = D at *
  generalize V3.norm D = L at *
  have hDD : dot3 D D = L ^ 2 := by rw [hsq]; simp only [dot3]; ring
  rw [hDD] at hdec
  generalize hs : dot3 q.normal D = s at hdec
  simp only [zero_mul, sub_zero, add_zero] at hdec
  obtain ⟨d1, d2, d3⟩ := hdec
  unfold Unit3 at hn
  have hL : L ≠ 0 := hpos.ne'
  have hs2 : s ^ 2 = L ^ 2 := by
    simp only [dot3] at hs
    have : L ^ 2 * s = s * L ^ 2 := by ring
    have h4 : (L ^ 2) ^ 2 * (q.normal.x ^ 2 + q.normal.y ^ 2 + q.normal.z ^ 2) = s ^ 2 * (D.x ^ 2 + D.y ^ 2 + D.z ^ 2) := by
      rw [show (L ^ 2) ^ 2 * (q.normal.x ^ 2 + q.normal.y ^ 2 + q.normal.z ^ 2) =
        (L ^ 2 * q.normal.x) ^ 2 + (L ^ 2 * q.normal.y) ^ 2 + (L ^ 2 * q.normal.z) ^ 2 by ring, d1, d2, d3]
      ring
    rw [hn, ← hsq, mul_one] at h4
    have : (L ^ 2 - s ^ 2) * L ^ 2 = 0 := by linear_combination h4
    rcases mul_eq_zero.1 this with h | h
    · linarith
    · exact absurd h (by positivity)
  refine ⟨s / L, ?_, ?_⟩
  · rcases sq_eq_sq_iff_eq_or_eq_neg.1 hs2 with h | h
    · left; rw [h, div_self hL]
    · right; rw [h, neg_div, div_self hL]
  · ext <;> dsimp only
    · have : D.x = s * q.normal.x :=
        mul_left_cancel₀ (pow_ne_zero 2 hL) (by linear_combination -D.x * hs2 - s * d1)
      rw [this]; ring
    · have : D.y = s * q.normal.y :=
        mul_left_cancel₀ (pow_ne_zero 2 hL) (by linear_combination -D.y * hs2 - s * d2)
      rw [this]; ring
    · have : D.z = s * q.normal.z :=
        mul_left_cancel₀ (pow_ne_zero 2 hL) (by linear_combination -D.z * hs2 - s * d3)
      rw [this]; ring

/-- The signed distance of a point from the plane of a rib. -/
noncomputable def Spec.side (pose : Affine ℝ) (r : Rib ℝ) (p : V3 ℝ) : ℝ := dot3 (minus p (ribCentre pose r)) pose.linear.c1

/-- The plane of a rib separates the point `A` from `B` and `C`: `A` is on one side, the other two are on
the other side; the edges from `A` are not within the tolerance of being parallel to the plane, and the
line through `B` and `C` meets the plane (if at all) clearly outside the edge. -/
structure Spec.Separates (pose : Affine ℝ) (r : Rib ℝ) (A B C : V3 ℝ) : Prop where
  ab : side pose r A * side pose r B < 0
  ac : side pose r A * side pose r C < 0
  slopeAB : Scalar.eps * dist3 A B ≤ |side pose r A - side pose r B|
  slopeAC : Scalar.eps * dist3 A C ≤ |side pose r A - side pose r C|
  clearB : Scalar.eps * |side pose r B - side pose r C| < |side pose r B|
  clearC : Scalar.eps * |side pose r B - side pose r C| < |side pose r C|

/-- The section of a triangle by the plane of the rib, in the section frame. -/
theorem Spec.Separates.section {F : Affine ℝ} {pose : Affine ℝ} {r : Rib ℝ} (hr : IsRib r) {T : Triangle ℝ}
    (hF : SectionFrame F (r.diskGrd pose) T)
    (h : Separates pose r T.v0 T.v1 T.v2 ∨ Separates pose r T.v1 T.v2 T.v0 ∨ Separates pose r T.v2 T.v0 T.v1) :
    ∃ a b : ℝ, Inter.lineTriangleSeg (xAxis F) T Scalar.eps =
        .ok (some ⟨F.apply ⟨a, 0, 0⟩, F.apply ⟨b, 0, 0⟩⟩) ∧
      ∀ x, NearTriangle 0 T (F.apply ⟨x, 0, 0⟩) → x ∈ Set.uIcc a b := by
  have heps := real_eps_pos
  obtain ⟨p0, p1, p2⟩ := onPlane_centroid T
  have ho : (r.diskGrd pose).plane.origin = ribCentre pose r := r.centerGrd_eq pose
  have ha : pose.linear.c1 = F.linear.c1 := by rw [← hF.axis]; exact (Rib.normalGrd_eq hr pose).symm
  have c0 := hF.coords p0
  have c1 := hF.coords p1
  have c2 := hF.coords p2
  rw [ho, ← ha] at c0 c1 c2
  change T.v0 = F.apply ⟨_, side pose r T.v0, 0⟩ at c0
  change T.v1 = F.apply ⟨_, side pose r T.v1, 0⟩ at c1
  change T.v2 = F.apply ⟨_, side pose r T.v2, 0⟩ at c2
  generalize dot3 T.v0 F.linear.c0 = x0 at *
  generalize dot3 T.v1 F.linear.c0 = x1 at *
  generalize dot3 T.v2 F.linear.c0 = x2 at *
  have hcross : ∀ {A B C : V3 ℝ} {xa xb xc : ℝ}, A = F.apply ⟨xa, side pose r A, 0⟩ → B = F.apply ⟨xb, side pose r B, 0⟩ →
      C = F.apply ⟨xc, side pose r C, 0⟩ → Separates pose r A B C →
      Crosses Scalar.eps xa (side pose r A) xb (side pose r B) xc (side pose r C) := by
    intro A B C xa xb xc eA eB eC hs
    have dd : ∀ {P Q : V3 ℝ} {xp xq yp yq : ℝ}, P = F.apply ⟨xp, yp, 0⟩ → Q = F.apply ⟨xq, yq, 0⟩ →
        dist3 P Q = Real.sqrt ((xp - xq) ^ 2 + (yp - yq) ^ 2) := by
      intro P Q xp xq yp yq eP eQ
      rw [eP, eQ, Affine.dist_apply hF.rigid, dist3]
      congr 1; dsimp only; ring
    refine ⟨hs.ab, hs.ac, ?_, ?_, hs.clearB, hs.clearC⟩
    · rw [← dd eA eB]; exact hs.slopeAB
    · rw [← dd eA eC]; exact hs.slopeAC
  -- barycentric coordinates of points on the x axis
  have hbary : ∀ x, NearTriangle 0 T (F.apply ⟨x, 0, 0⟩) → ∃ α β γ : ℝ, 0 ≤ α ∧ 0 ≤ β ∧ 0 ≤ γ ∧ α + β + γ = 1 ∧
      x = α * x0 + β * x1 + γ * x2 ∧ α * side pose r T.v0 + β * side pose r T.v1 + γ * side pose r T.v2 = 0 := by
    rintro x ⟨α, β, γ, h1, h2, h3, h4, h5⟩
    refine ⟨α, β, γ, by linarith, by linarith, by linarith, h4, ?_⟩
    have e : (⟨α * T.v0.x + β * T.v1.x + γ * T.v2.x, α * T.v0.y + β * T.v1.y + γ * T.v2.y,
        α * T.v0.z + β * T.v1.z + γ * T.v2.z⟩ : V3 ℝ) =
        F.apply ⟨α * x0 + β * x1 + γ * x2,
          α * side pose r T.v0 + β * side pose r T.v1 + γ * side pose r T.v2, 0⟩ := by
      have k0 := c0; have k1 := c1; have k2 := c2
      generalize side pose r T.v0 = y0 at *
      generalize side pose r T.v1 = y1 at *
      generalize side pose r T.v2 = y2 at *
      rw [k0, k1, k2]
      have hγ : γ = 1 - α - β := by linarith
      subst hγ
      v3
      congr 1 <;> ring
    rw [e] at h5
    have := Affine.apply_inj hF.rigid h5
    rw [V3.mk.injEq] at this
    exact ⟨this.1, this.2.1.symm⟩
  have eT : T = ⟨F.apply ⟨x0, side pose r T.v0, 0⟩, F.apply ⟨x1, side pose r T.v1, 0⟩, F.apply ⟨x2, side pose r T.v2, 0⟩⟩ := by
    rw [← c0, ← c1, ← c2]
  rcases h with h | h | h
  · have hc := hcross c0 c1 c2 h
    refine ⟨_, _, by conv_lhs => rw [eT]
                     exact hc.seg0 hF.rigid heps, fun x hx => ?_⟩
    obtain ⟨α, β, γ, -, h2, h3, h4, rfl, h6⟩ := hbary x hx
    rw [Set.uIcc_comm]
    exact cross_between hc.ab hc.ac h2 h3 h4 h6
  · have hc := hcross c1 c2 c0 h
    refine ⟨_, _, by conv_lhs => rw [eT]
                     exact hc.seg1 hF.rigid heps, fun x hx => ?_⟩
    obtain ⟨α, β, γ, h1, h2, h3, h4, rfl, h6⟩ := hbary x hx
    rw [Set.uIcc_comm, show α * x0 + β * x1 + γ * x2 = β * x1 + γ * x2 + α * x0 by ring]
    exact cross_between hc.ab hc.ac h3 h1 (by linarith) (by linarith)
  · have hc := hcross c2 c0 c1 h
    refine ⟨_, _, by conv_lhs => rw [eT]
                     exact hc.seg2 hF.rigid heps, fun x hx => ?_⟩
    obtain ⟨α, β, γ, h1, h2, h3, h4, rfl, h6⟩ := hbary x hx
    rw [Set.uIcc_comm, show α * x0 + β * x1 + γ * x2 = γ * x2 + α * x0 + β * x1 by ring]
    exact cross_between hc.ab hc.ac h1 h2 (by linarith) (by linarith)

/-- A circular segment with nonzero chord has positive area. -/
theorem Spec.segment_area_pos {R ρ H : ℝ} (hR : 0 < R) (hρ0 : 0 < ρ) (hρ2 : ρ ^ 2 = R ^ 2 - H ^ 2) :
    0 < R ^ 2 * Real.arccos (|H| / R) - |H| * ρ := by
  have hx1 : |H| / R < 1 := by
    rw [div_lt_one hR]
    refine lt_of_pow_lt_pow_left₀ 2 hR.le ?_
    rw [sq_abs]
    have : 0 < ρ ^ 2 := by positivity
    linarith
  have hx0 : 0 ≤ |H| / R := by positivity
  have hθ : 0 < Real.arccos (|H| / R) := Real.arccos_pos.2 hx1
  have hcosθ : Real.cos (Real.arccos (|H| / R)) = |H| / R := Real.cos_arccos (by linarith) hx1.le
  have hsinθ : Real.sin (Real.arccos (|H| / R)) = ρ / R := by
    rw [Real.sin_arccos, show 1 - (|H| / R) ^ 2 = (ρ / R) ^ 2 by
      rw [div_pow, div_pow, sq_abs, hρ2]; field_simp]
    exact Real.sqrt_sq (by positivity)
  have hlt := Real.sin_lt (x := 2 * Real.arccos (|H| / R)) (by linarith)
  rw [Real.sin_two_mul, hcosθ, hsinθ] at hlt
  generalize Real.arccos (|H| / R) = θ at *
  have h3 : 2 * (ρ / R) * (|H| / R) * R ^ 2 < 2 * θ * R ^ 2 :=
    mul_lt_mul_of_pos_right hlt (by positivity)
  have h4 : 2 * (ρ / R) * (|H| / R) * R ^ 2 = 2 * (ρ * |H|) := by field_simp
  rw [h4] at h3
  linarith

set_option maxHeartbeats 800000 in
/-- **C59 (partial).**  A rib in contact with flat ground (geometric method), the wheel's z axis along the
ground normal; a triangle of the same friction with its vertices in the ground plane, in either
orientation, that contains the whole section of the rib disk and is at least one unit long in the rib
plane.  Then the evaluation against the mesh made of that triangle reports contact exactly when the flat
contact has more than `eps` area or volume, and then point, depth, area, volume and friction are those of
the flat contact.  Missing: contacts of less than `eps` area and volume (`C59_small_contact_refuted`). -/
theorem C59_flat_mesh_partial {r : Rib ℝ} (hr : IsRib r) {pose : Affine ℝ} (hp : IsRigid pose) {f : ℝ}
    {o n : V3 ℝ} {g : Flat ℝ} (hg : Flat.make f o n = .ok g) (hup : pose.linear.c2 = g.plane.normal)
    {id : Int} {p0 p1 p2 : V3 ℝ} {t : TriangleGround ℝ} (ht : TriangleGround.make id f p0 p1 p2 = .ok t)
    (h0 : OnPlane g.plane p0) (h1 : OnPlane g.plane p1) (h2 : OnPlane g.plane p2)
    (hT : V3.cross (minus p1 p0) (minus p2 p0) ≠ ⟨0, 0, 0⟩)
    (hsep : Separates pose r p0 p1 p2 ∨ Separates pose r p1 p2 p0 ∨ Separates pose r p2 p0 p1)
    (hin : ∀ x, InSection g.plane pose r x → NearTriangle 0 ⟨p0, p1, p2⟩ x)
    (hlong : ∃ P Q, NearTriangle 0 ⟨p0, p1, p2⟩ P ∧ NearTriangle 0 ⟨p0, p1, p2⟩ Q ∧ side pose r P = 0 ∧
      side pose r Q = 0 ∧ 1 ≤ dist3 P Q)
    (of : Output ℝ) (hflat : r.envelopGeometricFlat g pose = (true, of)) :
    ((Scalar.eps < of.area ∨ Scalar.eps < of.volume) ∧ ∃ om, r.envelopGeometricMesh [t] pose = .ok (true, om) ∧
      om.point = of.point ∧ om.depth = of.depth ∧ om.area = of.area ∧ om.volume = of.volume ∧
      om.friction = of.friction) ∨
    ((of.area ≤ Scalar.eps ∧ of.volume ≤ Scalar.eps) ∧
      r.envelopGeometricMesh [t] pose = .ok (false, r.noContact pose)) := by
  have hRot : IsRotation pose.linear := hp
  have hN := Flat.make_unit hg
  have heps := real_eps_pos
  have heps1 := real_eps_lt_one
  have hR : 0 < r.radius := hr.radius_pos
  have hgf : g.friction = f := by
    unfold Flat.make at hg
    rw [Res.bind_eq_ok] at hg
    obtain ⟨-, -, hg⟩ := hg
    rw [Res.bind_eq_ok] at hg
    obtain ⟨-, -, hg⟩ := hg
    cases hg; rfl
  have htt : t.tri = ⟨p0, p1, p2⟩ ∧ t.friction = f := by
    unfold TriangleGround.make at ht
    rw [Res.bind_eq_ok] at ht
    obtain ⟨-, -, ht⟩ := ht
    cases ht; exact ⟨rfl, rfl⟩
  -- the flat contact
  rcases Rib.geometricFlat_closed hr hp hN with ⟨hc, e⟩ | ⟨-, e⟩
  swap
  · rw [e] at hflat; cases hflat
  rw [e] at hflat
  have hof := (Prod.mk.inj hflat).2
  clear hflat e
  have hperp : dot3 g.plane.normal pose.linear.c1 = 0 := by
    rw [← hup]; have := hRot.orth12; simp only [dot3]; linarith
  have hS : sinSq g.plane.normal pose.linear.c1 = 1 := by unfold sinSq; rw [hperp]; ring
  have hsd : sectionDepth g.plane pose r = r.radius - |height g.plane (ribCentre pose r)| := by
    unfold sectionDepth; rw [hS, Real.sqrt_one, div_one]
  unfold FlatContact at hc
  dsimp only at hc
  rw [hS, one_mul, div_one] at hc
  obtain ⟨-, hc1, hc2⟩ := hc
  have hfoot : sectionFoot g.plane (ribCentre pose r) pose.linear.c1 =
      along (ribCentre pose r) (-height g.plane (ribCentre pose r)) g.plane.normal := by
    unfold sectionFoot
    rw [hS, hperp, div_one]
    simp only [along, minus]
    congr 1 <;> ring
  rw [hsd, hfoot] at hof
  generalize hH : height g.plane (ribCentre pose r) = H at *
  generalize hρ : Real.sqrt (r.radius ^ 2 - H ^ 2) = ρ at *
  have hρ2 : ρ ^ 2 = r.radius ^ 2 - H ^ 2 := by rw [← hρ, Real.sq_sqrt (by linarith)]
  have hρ0 : 0 < ρ := by rw [← hρ]; exact Real.sqrt_pos.2 (by linarith)
  have hHR : |H| ≤ r.radius := by
    rw [← Real.sqrt_sq hR.le, ← Real.sqrt_sq_eq_abs]
    exact Real.sqrt_le_sqrt (by linarith)
  -- the section frame
  obtain ⟨σ, hσ, hTn⟩ := triangle_normal (T := ⟨p0, p1, p2⟩) hN h0 h1 h2 hT
  have hσ2 : σ ^ 2 = 1 := by rcases hσ with rfl | rfl <;> norm_num
  have hax : (r.diskGrd pose).plane.normal = pose.linear.c1 := Rib.normalGrd_eq hr pose
  have ho : (r.diskGrd pose).plane.origin = ribCentre pose r := r.centerGrd_eq pose
  have hF : SectionFrame (sectionFrame (r.diskGrd pose) ⟨p0, p1, p2⟩) (r.diskGrd pose) ⟨p0, p1, p2⟩ := by
    refine sectionFrame_spec (by rw [hax]; exact hp.unit1) ?_ ?_
    · rw [hTn]; unfold Unit3 at *; dsimp only; linear_combination σ ^ 2 * hN + hσ2
    · rw [hTn, hax]; simp only [dot3] at *; linear_combination σ * hperp
  have hc0 : (sectionFrame (r.diskGrd pose) ⟨p0, p1, p2⟩).linear.c0 =
      ⟨σ * pose.linear.c0.x, σ * pose.linear.c0.y, σ * pose.linear.c0.z⟩ := by
    show V3.cross (r.diskGrd pose).plane.normal (Triangle.normal ⟨p0, p1, p2⟩) = _
    rw [hax, hTn, ← hup, ← hRot.cross12]
    v3; congr 1 <;> ring
  have hc1' : (sectionFrame (r.diskGrd pose) ⟨p0, p1, p2⟩).linear.c1 = pose.linear.c1 := hax
  have hc2' : (sectionFrame (r.diskGrd pose) ⟨p0, p1, p2⟩).linear.c2 =
      ⟨σ * pose.linear.c2.x, σ * pose.linear.c2.y, σ * pose.linear.c2.z⟩ := by
    rw [hup]; exact hTn
  generalize sectionFrame (r.diskGrd pose) ⟨p0, p1, p2⟩ = F at *
  obtain ⟨a, b, hseg, hbetween⟩ := Separates.section hr hF hsep
  -- the centre
  have hcen := hF.center
  rw [ho] at hcen
  have hh : dot3 (minus (ribCentre pose r) (Triangle.centroid ⟨p0, p1, p2⟩)) F.linear.c2 = σ * H := by
    rw [hc2', hup, ← hH]
    simp only [height, OnPlane, dot3, minus, Triangle.centroid] at *
    v3
    simp only [real_lit]
    push_cast
    linear_combination (-σ / 3) * h0 + (-σ / 3) * h1 + (-σ / 3) * h2
  rw [hh] at hcen
  generalize dot3 (ribCentre pose r) F.linear.c0 = k at *
  -- points of the chord line
  have hpt : ∀ s : ℝ, F.apply ⟨k + σ * s, 0, 0⟩ = V3.add (r.centerGrd pose) (M3.mulVec pose.linear ⟨s, 0, -H⟩) := by
    intro s
    rw [r.centerGrd_eq, hcen]
    v3
    rw [hc0, hc2']
    congr 1
    · linear_combination (pose.linear.c0.x * s - pose.linear.c2.x * H) * hσ2
    · linear_combination (pose.linear.c0.y * s - pose.linear.c2.y * H) * hσ2
    · linear_combination (pose.linear.c0.z * s - pose.linear.c2.z * H) * hσ2
  have hsec : ∀ s : ℝ, s ^ 2 = ρ ^ 2 → k + σ * s ∈ Set.uIcc a b := by
    intro s hs
    refine hbetween _ (hin _ ?_)
    rw [hpt]
    refine ⟨?_, s, -H, by rw [hs, hρ2]; ring_nf; exact le_rfl, ?_⟩
    · rw [r.centerGrd_eq]
      have hH' := hH
      unfold OnPlane height at *
      rw [← hup] at *
      have u2 := hRot.unit2
      have o02 := hRot.orth02
      simp only [dot3, minus] at *
      v3
      linear_combination hH' + s * o02 - H * u2
    · simp only [Rib.centerGrd]
      generalize r.center = c
      v3; congr 1 <;> ring
  have hplus := hsec ρ rfl
  have hminus := hsec (-ρ) (by ring)
  -- the length of the section of the triangle
  have hba : 1 ≤ |b - a| := by
    obtain ⟨P, Q, hP, hQ, sP, sQ, hPQ⟩ := hlong
    have hco : ∀ X, NearTriangle 0 ⟨p0, p1, p2⟩ X → side pose r X = 0 → ∃ x, X = F.apply ⟨x, 0, 0⟩ ∧ x ∈ Set.uIcc a b := by
      intro X hX sX
      have hon : OnPlane (Triangle.layingPlane ⟨p0, p1, p2⟩) X := by
        obtain ⟨q0, q1, q2⟩ := onPlane_centroid ⟨p0, p1, p2⟩
        obtain ⟨x, y, z, -, -, -, hsum, rfl⟩ := hX
        unfold OnPlane at *
        generalize (Triangle.layingPlane ⟨p0, p1, p2⟩).origin = c at *
        generalize (Triangle.layingPlane ⟨p0, p1, p2⟩).normal = m at *
        simp only [dot3, minus] at *
        linear_combination x * q0 + y * q1 + z * q2 + (c.x * m.x + c.y * m.y + c.z * m.z) * hsum
      have e := hF.coords hon
      rw [ho, hc1'] at e
      have sX' : dot3 (minus X (ribCentre pose r)) pose.linear.c1 = 0 := sX
      rw [sX'] at e
      exact ⟨_, e, hbetween _ (by rw [← e]; exact hX)⟩
    obtain ⟨x, rfl, hx⟩ := hco P hP sP
    obtain ⟨y, rfl, hy⟩ := hco Q hQ sQ
    rw [Affine.dist_apply hF.rigid] at hPQ
    have e : dist3 (⟨x, 0, 0⟩ : V3 ℝ) ⟨y, 0, 0⟩ = |x - y| := by
      unfold dist3
      dsimp only
      rw [show (x - y) ^ 2 + (0 - 0) ^ 2 + (0 - 0) ^ 2 = (x - y) ^ 2 by ring, Real.sqrt_sq_eq_abs]
    rw [e] at hPQ
    exact hPQ.trans (Set.abs_sub_le_of_uIcc_subset_uIcc (by
      rw [Set.uIcc_subset_uIcc_iff_mem]; exact ⟨hy, hx⟩) |>.trans_eq (by rw [abs_sub_comm]))
  have hdisk : r.diskGrd pose = ⟨r.radius, ⟨F.apply ⟨k, 0, σ * H⟩, F.linear.c1⟩⟩ := by
    rw [hc1', ← hcen, ← hax, ← ho]; rfl
  have hσH : r.radius ^ 2 - (σ * H) ^ 2 = r.radius ^ 2 - H ^ 2 := by linear_combination -H ^ 2 * hσ2
  have hRe : Scalar.eps ≤ r.radius := by nlinarith
  have hD : Scalar.eps ≤ (b - a) ^ 2 * (r.radius ^ 2 - (σ * H) ^ 2) := by
    have : 1 ≤ (b - a) ^ 2 := by rw [← sq_abs]; nlinarith
    rw [hσH]; nlinarith
  have hcov := Inter.segmentDisk_cover (k := k) hF.rigid heps heps1.le hRe (heps1.le.trans hba) hD
  rw [hσH, hρ, ← hdisk] at hcov
  have hpp := hpt ρ
  have hpm := hpt (-ρ)
  have hmm : k + σ * -ρ = k - σ * ρ := by ring
  rw [hmm] at hminus hpm
  obtain ⟨seg, hsg, hends⟩ : ∃ seg, Inter.triangleDisk t.tri (r.diskGrd pose) Scalar.eps = .ok (some seg) ∧
      (seg = ⟨V3.add (r.centerGrd pose) (M3.mulVec pose.linear ⟨ρ, 0, -H⟩),
        V3.add (r.centerGrd pose) (M3.mulVec pose.linear ⟨-ρ, 0, -H⟩)⟩ ∨
      seg = ⟨V3.add (r.centerGrd pose) (M3.mulVec pose.linear ⟨-ρ, 0, -H⟩),
        V3.add (r.centerGrd pose) (M3.mulVec pose.linear ⟨ρ, 0, -H⟩)⟩) := by
    have hk : ∀ s', Inter.segmentDisk ⟨F.apply ⟨a, 0, 0⟩, F.apply ⟨b, 0, 0⟩⟩ (r.diskGrd pose) Scalar.eps = some s' →
        Inter.triangleDisk t.tri (r.diskGrd pose) Scalar.eps = .ok (some s') := by
      intro s' hs'
      unfold Inter.triangleDisk Inter.planeTriangle
      rw [htt.1, Inter.planePlane_section hF heps1.le]
      simp only [hseg, Res.bind_ok, hs', Res.pure_eq]
    have hkk : (k - ρ ∈ Set.uIcc a b) ∧ k + ρ ∈ Set.uIcc a b := by
      rcases hσ with rfl | rfl
      · rw [one_mul] at hminus hplus; exact ⟨hminus, hplus⟩
      · refine ⟨?_, ?_⟩
        · rw [show k - ρ = k + -1 * ρ by ring]; exact hplus
        · rw [show k + ρ = k - -1 * ρ by ring]; exact hminus
    obtain ⟨hm1, hp1⟩ := hkk
    have hseg2 : ∀ x y : ℝ, (x = k - ρ ∧ y = k + ρ ∨ x = k + ρ ∧ y = k - ρ) →
      ((⟨F.apply ⟨x, 0, 0⟩, F.apply ⟨y, 0, 0⟩⟩ : Segment ℝ) = ⟨V3.add (r.centerGrd pose) (M3.mulVec pose.linear ⟨ρ, 0, -H⟩),
        V3.add (r.centerGrd pose) (M3.mulVec pose.linear ⟨-ρ, 0, -H⟩)⟩ ∨
      (⟨F.apply ⟨x, 0, 0⟩, F.apply ⟨y, 0, 0⟩⟩ : Segment ℝ) = ⟨V3.add (r.centerGrd pose) (M3.mulVec pose.linear ⟨-ρ, 0, -H⟩),
        V3.add (r.centerGrd pose) (M3.mulVec pose.linear ⟨ρ, 0, -H⟩)⟩) := by
      rintro x y (⟨rfl, rfl⟩ | ⟨rfl, rfl⟩) <;> rcases hσ with rfl | rfl
      · right; rw [← hpp, ← hpm]; simp
      · left; rw [← hpp, ← hpm]; congr 3 <;> ring
      · left; rw [← hpp, ← hpm]; simp
      · right; rw [← hpp, ← hpm]; congr 3 <;> ring
    rcases le_total a b with hab | hab
    · rw [Set.uIcc_of_le hab] at hm1 hp1
      exact ⟨_, hk _ (hcov.1 hm1.1 hp1.2), hseg2 _ _ (.inl ⟨rfl, rfl⟩)⟩
    · rw [Set.uIcc_of_ge hab] at hm1 hp1
      exact ⟨_, hk _ (hcov.2 hm1.1 hp1.2), hseg2 _ _ (.inr ⟨rfl, rfl⟩)⟩
  -- the contribution
  obtain ⟨c, hcon, cA, cV, cP, cF⟩ := Rib.contrib_chord hp t hρ0 hc2 hR (by rw [neg_sq, hρ2]; ring) seg hends
  rw [abs_neg] at cV
  have hloop : r.geomLoop pose [t] Rib.Acc.init = .ok (Rib.Acc.init.add c) := by
    simp only [Rib.geomLoop, hsg, Res.bind_ok, hcon, Res.pure_eq]
  -- the flat record
  have hsq : Real.sqrt ((r.radius - |H|) * (2 * r.radius - (r.radius - |H|))) = ρ := by
    rw [← hρ]; congr 1
    rw [show (r.radius - |H|) * (2 * r.radius - (r.radius - |H|)) = r.radius ^ 2 - |H| ^ 2 by ring, sq_abs]
  have fA : of.area = c.area := by
    rw [← hof, cA]
    simp only [Rib.depthArea, real_mul, real_two, real_sqrt, real_sub, hsq]
  have fV : of.volume = c.volume := by
    rw [← hof, cV]
    simp only [Rib.depthVolume, real_mul, real_two, real_sqrt, real_sub, real_acos, real_div, hsq]
    rw [show r.radius - (r.radius - |H|) = |H| by ring]; ring
  have fP : of.point = c.point := by
    rw [← hof, cP, r.centerGrd_eq, ← hup]
    simp only [along]; v3; congr 1 <;> ring
  have iA : (Rib.Acc.init.add c).area = c.area := by simp [Rib.Acc.add, Rib.Acc.init]
  have iV : (Rib.Acc.init.add c).volume = c.volume := by simp [Rib.Acc.add, Rib.Acc.init]
  have iH : (Rib.Acc.init.add c).hit = true := rfl
  have iP : (Rib.Acc.init.add c).point = V3.smul c.volume c.point := by
    simp only [Rib.Acc.add, Rib.Acc.init]; v3; simp
  have iF : (Rib.Acc.init.add c).friction = c.volume * c.friction := by simp [Rib.Acc.add, Rib.Acc.init]
  unfold Rib.envelopGeometricMesh
  rw [hloop, Res.bind_ok]
  unfold Rib.geomFinish
  rw [iH, iA, iV, fA, fV]
  by_cases hbig : Scalar.eps < c.area ∨ Scalar.eps < c.volume
  · left
    refine ⟨hbig, ?_⟩
    rw [if_pos (by simpa using hbig)]
    have hw : 0 < r.width := by
      rcases hr.width_nonneg.lt_or_eq with h | h
      · exact h
      · exfalso
        have hw0 : r.width = 0 := h.symm
        rw [cA, cV, hw0, mul_zero, mul_zero] at hbig
        rcases hbig with h | h <;> linarith
    have hVpos : 0 < c.volume := by
      rw [cV]
      refine mul_pos ?_ hw
      exact segment_area_pos hR hρ0 hρ2
    have hpoint : V3.sdiv (V3.smul c.volume c.point) c.volume = c.point := by
      v3; ext <;> dsimp only <;> field_simp
    refine ⟨_, rfl, ?_, ?_, rfl, rfl, ?_⟩
    · dsimp only; rw [iP, hpoint, fP]
    · dsimp only
      rw [iP, hpoint, cP, ← hof]
      simp only [real_sub]
      have e : V3.sub (V3.add (r.centerGrd pose) (M3.mulVec pose.linear ⟨0, 0, -H⟩)) (r.centerGrd pose) =
          M3.mulVec pose.linear ⟨0, 0, -H⟩ := by
        generalize r.centerGrd pose = w
        v3; congr 1 <;> ring
      rw [e, hRot.norm_mulVec, V3.norm_eq, length3]
      dsimp only
      rw [show (0 : ℝ) ^ 2 + 0 ^ 2 + (-H) ^ 2 = H ^ 2 by ring, Real.sqrt_sq_eq_abs]
    · dsimp only
      rw [iF, cF, htt.2, ← hof, hgf, real_div]
      field_simp
  · right
    push Not at hbig
    refine ⟨hbig, ?_⟩
    rw [if_neg (by simpa using hbig)]
    rfl

/-! ### A concrete case -/

/-- A large triangle of the road plane. -/
noncomputable def Demo.field : TriangleGround ℝ :=
  TriangleGround.updateBBox (TriangleGround.updateNormal
    ⟨⟨⟨0, 10, 0⟩, ⟨-30, -10, 0⟩, ⟨30, -10, 0⟩⟩, 0, 1, V3.nan, Box.default⟩)

theorem Demo.field_make :
    TriangleGround.make 0 (1 : ℝ) ⟨0, 10, 0⟩ ⟨-30, -10, 0⟩ ⟨30, -10, 0⟩ = .ok Demo.field := by
  simp [TriangleGround.make, Demo.field]

/-- A rib of radius 1 and the given width. -/
noncomputable def Demo.ribOf (w : ℝ) : Rib ℝ := Rib.make 0 1 0 w 0

theorem Demo.ribOf_isRib {w : ℝ} (hw : 0 ≤ w) : IsRib (Demo.ribOf w) := Rib.make_isRib _ _ _ one_pos hw

theorem Demo.side_eq (w h : ℝ) (p : V3 ℝ) : side (Demo.upright h) (Demo.ribOf w) p = p.y := by
  simp only [side, dot3, minus, ribCentre, Demo.ribOf, Rib.center, Disk.center, Rib.make, Demo.upright]
  v3
  ring

theorem Demo.field_separates (w h : ℝ) :
    Separates (Demo.upright h) (Demo.ribOf w) ⟨0, 10, 0⟩ ⟨-30, -10, 0⟩ ⟨30, -10, 0⟩ := by
  have heps := real_eps_le_half
  have h0 := real_eps_pos
  have e : ∀ x : ℝ, x ^ 2 = 900 → dist3 ⟨0, 10, 0⟩ ⟨x, -10, 0⟩ ≤ 40 := by
    intro x hx
    unfold dist3
    dsimp only
    rw [show (40 : ℝ) = Real.sqrt (40 ^ 2) by rw [Real.sqrt_sq (by norm_num)]]
    apply Real.sqrt_le_sqrt
    nlinarith
  constructor <;> simp only [Demo.side_eq] <;> norm_num
  · have := e (-30) (by norm_num)
    have := dist3_nonneg ⟨0, 10, 0⟩ ⟨-30, -10, 0⟩
    nlinarith
  · have := e 30 (by norm_num)
    have := dist3_nonneg ⟨0, 10, 0⟩ ⟨30, -10, 0⟩
    nlinarith

theorem Demo.field_contains (w : ℝ) (x : V3 ℝ)
    (hx : InSection Demo.road.plane (Demo.upright (1 / 2)) (Demo.ribOf w) x) :
    NearTriangle 0 ⟨⟨0, 10, 0⟩, ⟨-30, -10, 0⟩, ⟨30, -10, 0⟩⟩ x := by
  obtain ⟨h1, a, b, hab, rfl⟩ := hx
  have e : (Demo.upright (1 / 2)).apply ⟨(Demo.ribOf w).center.x + a, (Demo.ribOf w).center.y,
      (Demo.ribOf w).center.z + b⟩ = ⟨a, 0, b + 1 / 2⟩ := by
    simp only [Demo.ribOf, Rib.center, Disk.center, Rib.make, Demo.upright]
    v3
    congr 1 <;> ring
  rw [e] at h1 ⊢
  have hb : b = -(1 / 2) := by
    simp only [OnPlane, dot3, minus, Demo.road] at h1
    linarith
  have hR : (Demo.ribOf w).radius = 1 := rfl
  rw [hR] at hab
  have ha : -1 ≤ a ∧ a ≤ 1 := abs_le.1 (by
    rw [← sq_le_one_iff_abs_le_one]; nlinarith)
  refine ⟨1 / 2, 1 / 4 - a / 60, 1 / 4 + a / 60, by norm_num, by linarith [ha.2], by linarith [ha.1], by ring, ?_⟩
  subst hb
  ext <;> dsimp only <;> ring

theorem Demo.field_long (w h : ℝ) :
    ∃ P Q, NearTriangle 0 ⟨⟨0, 10, 0⟩, ⟨-30, -10, 0⟩, ⟨30, -10, 0⟩⟩ P ∧
      NearTriangle 0 ⟨⟨0, 10, 0⟩, ⟨-30, -10, 0⟩, ⟨30, -10, 0⟩⟩ Q ∧
      side (Demo.upright h) (Demo.ribOf w) P = 0 ∧ side (Demo.upright h) (Demo.ribOf w) Q = 0 ∧ 1 ≤ dist3 P Q := by
  refine ⟨⟨0, 0, 0⟩, ⟨1, 0, 0⟩, ⟨1 / 2, 1 / 4, 1 / 4, by norm_num, by norm_num, by norm_num, by norm_num, ?_⟩,
    ⟨1 / 2, 1 / 4 - 1 / 60, 1 / 4 + 1 / 60, by norm_num, by norm_num, by norm_num, by norm_num, ?_⟩, ?_, ?_, ?_⟩
  · ext <;> norm_num
  · ext <;> norm_num
  · rw [Demo.side_eq]
  · rw [Demo.side_eq]
  · unfold dist3; norm_num

/-- The flat contact of the rib of radius 1 and width `w`, its centre 1/2 above the road. -/
theorem Demo.ribOf_flat {w : ℝ} (hw : 0 ≤ w) : ∃ o : Output ℝ,
    (Demo.ribOf w).envelopGeometricFlat Demo.road (Demo.upright (1 / 2)) = (true, o) ∧
    o.area = 2 * Real.sqrt (3 / 4) * w ∧ o.volume ≤ Real.pi * w ∧ 1 / 6 * w ≤ o.volume := by
  have hS : sinSq Demo.road.plane.normal (Demo.upright (1 / 2)).linear.c1 = 1 := by
    simp [sinSq, dot3, Demo.road, Demo.upright]
  have hH : height Demo.road.plane (ribCentre (Demo.upright (1 / 2)) (Demo.ribOf w)) = 1 / 2 := by
    simp only [height, dot3, minus, ribCentre, Demo.ribOf, Rib.center, Disk.center, Rib.make, Demo.road,
      Demo.upright]
    v3
    ring
  have hR : (Demo.ribOf w).radius = 1 := rfl
  have hW : (Demo.ribOf w).width = w := rfl
  have heps := real_eps_le_half
  have hs : (1 / 2 : ℝ) ≤ Real.sqrt (3 / 4) := by
    rw [show (1 / 2 : ℝ) = Real.sqrt ((1 / 2) ^ 2) by rw [Real.sqrt_sq (by norm_num)]]
    exact Real.sqrt_le_sqrt (by norm_num)
  have hc : FlatContact Demo.road.plane (Demo.upright (1 / 2)) (Demo.ribOf w) := by
    unfold FlatContact
    dsimp only
    rw [hS, hH, hR, div_one, one_pow, mul_one, show (1 - (1 / 2) ^ 2 : ℝ) = 3 / 4 by norm_num]
    exact ⟨by linarith, by linarith, by linarith⟩
  have hsd : sectionDepth Demo.road.plane (Demo.upright (1 / 2)) (Demo.ribOf w) = 1 / 2 := by
    unfold sectionDepth
    rw [hS, hH, hR, Real.sqrt_one, div_one, abs_of_pos (by norm_num)]; norm_num
  rcases Rib.geometricFlat_closed (Demo.ribOf_isRib hw) (Demo.upright_rigid (1 / 2)) (Flat.make_unit Demo.road_make) with
    ⟨-, e⟩ | ⟨e, -⟩
  · refine ⟨_, e, ?_, ?_, ?_⟩
    · dsimp only
      rw [hsd, hR, hW]
      simp only [Rib.depthArea, real_mul, real_two, real_sqrt, real_sub]
      norm_num
    · dsimp only
      rw [hsd, hR, hW]
      simp only [Rib.depthVolume, real_mul, real_two, real_sqrt, real_sub, real_acos, real_div]
      refine mul_le_mul_of_nonneg_right ?_ hw
      have := Real.arccos_le_pi ((1 - 1 / 2) / 1)
      have h2 := Real.sqrt_nonneg (1 / 2 * (2 * 1 - 1 / 2))
      nlinarith
    · dsimp only
      rw [hsd, hR, hW]
      simp only [Rib.depthVolume, real_mul, real_two, real_sqrt, real_sub, real_acos, real_div]
      refine mul_le_mul_of_nonneg_right ?_ hw
      have h1 : Real.arccos ((1 - 1 / 2) / 1) = Real.pi / 3 := by
        rw [show ((1 - 1 / 2) / 1 : ℝ) = Real.cos (Real.pi / 3) by rw [Real.cos_pi_div_three]; norm_num]
        exact Real.arccos_cos (by have := Real.pi_pos; linarith) (by have := Real.pi_pos; linarith)
      have h2 : Real.sqrt (1 / 2 * (2 * 1 - 1 / 2)) ≤ 1 := by
        rw [Real.sqrt_le_one]; norm_num
      have h3 := Real.two_le_pi
      rw [h1]
      linarith
  · exact absurd hc e

/-- The hypotheses of `C59_flat_mesh_partial` are met, with contact on both grounds. -/
theorem Demo.field_agrees : ∃ of om, (Demo.ribOf 1).envelopGeometricFlat Demo.road (Demo.upright (1 / 2)) = (true, of) ∧
    (Demo.ribOf 1).envelopGeometricMesh [Demo.field] (Demo.upright (1 / 2)) = .ok (true, om) ∧
    om.area = of.area ∧ om.area = 2 * Real.sqrt (3 / 4) := by
  obtain ⟨o, ho, hA, -⟩ := Demo.ribOf_flat (w := 1) zero_le_one
  have heps := real_eps_le_half
  have hs : (1 / 2 : ℝ) ≤ Real.sqrt (3 / 4) := by
    rw [show (1 / 2 : ℝ) = Real.sqrt ((1 / 2) ^ 2) by rw [Real.sqrt_sq (by norm_num)]]
    exact Real.sqrt_le_sqrt (by norm_num)
  rcases C59_flat_mesh_partial (Demo.ribOf_isRib zero_le_one) (Demo.upright_rigid (1 / 2)) Demo.road_make rfl
    Demo.field_make (by simp [OnPlane, dot3, minus, Demo.road]) (by simp [OnPlane, dot3, minus, Demo.road])
    (by simp [OnPlane, dot3, minus, Demo.road]) (by rw [V3.real_cross]; norm_num [minus])
    (.inl (Demo.field_separates 1 (1 / 2))) (Demo.field_contains 1) (Demo.field_long 1 (1 / 2)) o ho with
    ⟨-, om, h1, -, -, h4, -, -⟩ | ⟨⟨h1, -⟩, -⟩
  · exact ⟨o, om, ho, h1, h4, by rw [h4, hA, mul_one]⟩
  · rw [hA] at h1; linarith

/-- **C59 is false** for very small contacts: a rib of width `eps / 4` half a radius deep in the ground is
in contact with flat ground, but not with a large triangle of the same plane. -/
theorem C59_small_contact_refuted :
    ∃ (r : Rib ℝ) (pose : Affine ℝ) (g : Flat ℝ) (t : TriangleGround ℝ), IsRib r ∧ IsRigid pose ∧
      Flat.make 1 ⟨0, 0, 0⟩ ⟨0, 0, 1⟩ = .ok g ∧ pose.linear.c2 = g.plane.normal ∧
      TriangleGround.make 0 1 ⟨0, 10, 0⟩ ⟨-30, -10, 0⟩ ⟨30, -10, 0⟩ = .ok t ∧
      Separates pose r t.tri.v0 t.tri.v1 t.tri.v2 ∧
      (∀ x, InSection g.plane pose r x → NearTriangle 0 t.tri x) ∧
      (r.envelopGeometricFlat g pose).1 = true ∧
      r.envelopGeometricMesh [t] pose = .ok (false, r.noContact pose) := by
  have hpos := real_eps_pos
  have hw : (0 : ℝ) ≤ Scalar.eps / 4 := by linarith
  obtain ⟨o, ho, hA, hV, -⟩ := Demo.ribOf_flat hw
  have hs : Real.sqrt (3 / 4) ≤ 1 := by
    rw [show (1 : ℝ) = Real.sqrt 1 by rw [Real.sqrt_one]]
    exact Real.sqrt_le_sqrt (by norm_num)
  have hpi := Real.pi_le_four
  refine ⟨Demo.ribOf (Scalar.eps / 4), Demo.upright (1 / 2), Demo.road, Demo.field, Demo.ribOf_isRib hw,
    Demo.upright_rigid _, Demo.road_make, rfl, Demo.field_make, Demo.field_separates _ _, Demo.field_contains _,
    by rw [ho], ?_⟩
  rcases C59_flat_mesh_partial (Demo.ribOf_isRib hw) (Demo.upright_rigid (1 / 2)) Demo.road_make rfl
    Demo.field_make (by simp [OnPlane, dot3, minus, Demo.road]) (by simp [OnPlane, dot3, minus, Demo.road])
    (by simp [OnPlane, dot3, minus, Demo.road]) (by rw [V3.real_cross]; norm_num [minus])
    (.inl (Demo.field_separates _ (1 / 2))) (Demo.field_contains _) (Demo.field_long _ (1 / 2)) o ho with
    ⟨h1 | h1, -⟩ | ⟨-, h1⟩
  · rw [hA] at h1; nlinarith
  · nlinarith
  · exact h1

end Enve
