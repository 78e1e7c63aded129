import Verif.Props.TyreProps
import Verif.Props.OffAxisProps
import Mathlib.Analysis.SpecialFunctions.Complex.Arg

/-! # Spinning the wheel on a mesh: more of C35

The geometric method measures the ends of a section by their angle in the plane of the rib, counted from the spokes of the wheel.  The angles
jump at one spoke, the seam.  Sections that do not meet the seam are measured in the same way whatever the spin angle. -/

namespace Enve
open Scalar Spec

/-- The seam of the wheel: the half plane from the wheel axis along the negative x axis of the wheel. -/
def Spec.OnSeam (pose : Affine ℝ) (p : V3 ℝ) : Prop := ∃ x y, 0 ≤ x ∧ p = pose.apply ⟨-x, y, 0⟩

/-- A point of the segment. -/
def Spec.OnSeg (s : Segment ℝ) (p : V3 ℝ) : Prop :=
  ∃ k, 0 ≤ k ∧ k ≤ 1 ∧ p = ⟨s.v0.x + k * (s.v1.x - s.v0.x), s.v0.y + k * (s.v1.y - s.v0.y), s.v0.z + k * (s.v1.z - s.v0.z)⟩

/-- Two points whose connection does not meet the negative real axis are seen under an angle less than `π`. -/
theorem Spec.arg_sub_lt {a b : ℂ} (h : ∀ k : ℝ, 0 ≤ k → k ≤ 1 → ¬ (a.im + k * (b.im - a.im) = 0 ∧ a.re + k * (b.re - a.re) ≤ 0)) :
    |Complex.arg b - Complex.arg a| < Real.pi := by
  have ha0 : ¬ (a.im = 0 ∧ a.re ≤ 0) := by simpa using h 0 le_rfl zero_le_one
  have hb0 : ¬ (b.im = 0 ∧ b.re ≤ 0) := by simpa using h 1 zero_le_one le_rfl
  have key : ∀ {a b : ℂ}, (∀ k : ℝ, 0 ≤ k → k ≤ 1 → ¬ (a.im + k * (b.im - a.im) = 0 ∧ a.re + k * (b.re - a.re) ≤ 0)) →
      ¬ (b.im = 0 ∧ b.re ≤ 0) → ¬ (a.im = 0 ∧ a.re ≤ 0) → Complex.arg b - Complex.arg a < Real.pi := by
    intro a b h hb0 ha0
    by_contra hc
    push Not at hc
    have a1 := Complex.neg_pi_lt_arg a
    have a2 := Complex.arg_le_pi a
    have b2 := Complex.arg_le_pi b
    have hbn : Complex.arg b ≠ Real.pi := by
      intro e
      rw [Complex.arg_eq_pi_iff] at e
      exact hb0 ⟨e.2, e.1.le⟩
    have b3 := lt_of_le_of_ne b2 hbn
    have ia : a.im < 0 := by
      rw [← Complex.arg_neg_iff]; linarith
    have hbpos : 0 < Complex.arg b := by linarith
    have ib : 0 < b.im := by
      rcases lt_trichotomy b.im 0 with h0 | h0 | h0
      · have := Complex.arg_neg_iff.2 h0; linarith
      · exfalso
        have : 0 ≤ b.re := by
          by_contra hneg
          exact hb0 ⟨h0, by linarith⟩
        have := Complex.arg_eq_zero_iff.2 ⟨this, h0⟩
        linarith
      · exact h0
    have hden : 0 < b.im - a.im := by linarith
    have hk := h (-a.im / (b.im - a.im)) (div_nonneg (by linarith) hden.le) (by rw [div_le_one hden]; linarith)
    have hcross : 0 < a.re * b.im - a.im * b.re := by
      by_contra hneg
      apply hk
      have e1 : -a.im / (b.im - a.im) * (b.im - a.im) = -a.im := by field_simp
      refine ⟨by rw [e1]; ring, ?_⟩
      have e2 : a.re + -a.im / (b.im - a.im) * (b.re - a.re) = (a.re * b.im - a.im * b.re) / (b.im - a.im) := by
        field_simp; ring
      rw [e2]
      exact div_nonpos_of_nonpos_of_nonneg (by linarith) hden.le
    have hsin : Real.sin (Complex.arg b - Complex.arg a) ≤ 0 := by
      have : Real.sin (Complex.arg b - Complex.arg a) = -Real.sin (Complex.arg b - Complex.arg a - Real.pi) := by
        rw [Real.sin_sub_pi, neg_neg]
      rw [this, neg_nonpos]
      exact Real.sin_nonneg_of_nonneg_of_le_pi (by linarith) (by linarith)
    have ea : a.re = ‖a‖ * Real.cos (Complex.arg a) := (Complex.norm_mul_cos_arg a).symm
    have ea' : a.im = ‖a‖ * Real.sin (Complex.arg a) := (Complex.norm_mul_sin_arg a).symm
    have eb : b.re = ‖b‖ * Real.cos (Complex.arg b) := (Complex.norm_mul_cos_arg b).symm
    have eb' : b.im = ‖b‖ * Real.sin (Complex.arg b) := (Complex.norm_mul_sin_arg b).symm
    have : a.re * b.im - a.im * b.re = ‖a‖ * ‖b‖ * Real.sin (Complex.arg b - Complex.arg a) := by
      rw [Real.sin_sub]
      linear_combination b.im * ea - b.re * ea' + ‖a‖ * Real.cos (Complex.arg a) * eb' - ‖a‖ * Real.sin (Complex.arg a) * eb
    have hn : 0 ≤ ‖a‖ * ‖b‖ := by positivity
    nlinarith
  rw [abs_lt]
  refine ⟨?_, key h hb0 ha0⟩
  have := key (a := b) (b := a) (fun k h0 h1 hc => h (1 - k) (by linarith) (by linarith)
    ⟨by linarith [hc.1], by linarith [hc.2]⟩) ha0 hb0
  linarith

/-- Turning two points of the plane by the same angle changes both arguments by the same amount, if before and after they are seen
under an angle less than `π`. -/
theorem Spec.arg_turn {a b : ℂ} (ha : a ≠ 0) (hb : b ≠ 0) (φ : ℝ) {a' b' : ℂ}
    (ea : a' = (Real.cos φ + Real.sin φ * Complex.I) * a) (eb : b' = (Real.cos φ + Real.sin φ * Complex.I) * b)
    (h : |Complex.arg b - Complex.arg a| < Real.pi) (h' : |Complex.arg b' - Complex.arg a'| < Real.pi) :
    ∃ δ : ℝ, Complex.arg a' = Complex.arg a + δ ∧ Complex.arg b' = Complex.arg b + δ ∧ Real.cos δ = Real.cos φ ∧
      Real.sin δ = Real.sin φ := by
  have hnorm : ‖(Real.cos φ + Real.sin φ * Complex.I : ℂ)‖ = 1 := by
    rw [Complex.ofReal_cos, Complex.ofReal_sin, Complex.norm_cos_add_sin_mul_I]
  have hu : (Real.cos φ + Real.sin φ * Complex.I : ℂ) ≠ 0 := by
    intro h0; rw [h0] at hnorm; simp at hnorm
  have hφ : ((Complex.arg (Real.cos φ + Real.sin φ * Complex.I) : ℝ) : Real.Angle) = (φ : Real.Angle) := by
    have := Complex.arg_cos_add_sin_mul_I_coe_angle (φ : Real.Angle)
    rwa [Real.Angle.cos_coe, Real.Angle.sin_coe] at this
  have h1 : ((Complex.arg a' : ℝ) : Real.Angle) = φ + Complex.arg a := by
    rw [ea, Complex.arg_mul_coe_angle hu ha, hφ]
  have h2 : ((Complex.arg b' : ℝ) : Real.Angle) = φ + Complex.arg b := by
    rw [eb, Complex.arg_mul_coe_angle hu hb, hφ]
  rw [← Real.Angle.coe_add, Real.Angle.angle_eq_iff_two_pi_dvd_sub] at h1 h2
  obtain ⟨k, hk⟩ := h1
  obtain ⟨l, hl⟩ := h2
  have hpi := Real.pi_pos
  rw [abs_lt] at h h'
  have hkl : l = k := by
    have e : Complex.arg b' - Complex.arg a' - (Complex.arg b - Complex.arg a) = 2 * Real.pi * ((l - k : ℤ) : ℝ) := by
      push_cast; linarith
    have u1 : (-1 : ℝ) < ((l - k : ℤ) : ℝ) := by nlinarith
    have u2 : ((l - k : ℤ) : ℝ) < 1 := by nlinarith
    have u1 : (-1 : ℤ) < l - k := by exact_mod_cast u1
    have u2 : l - k < 1 := by exact_mod_cast u2
    omega
  subst hkl
  refine ⟨φ + l * (2 * Real.pi), by linarith, by linarith, Real.cos_add_int_mul_two_pi φ l, Real.sin_add_int_mul_two_pi φ l⟩

/-- The coordinates of a point in the frame of a rib after spinning the wheel. -/
theorem Rib.local_spun {r : Rib ℝ} (hr : IsRib r) (pose : Affine ℝ) (φ : ℝ) (p : V3 ℝ) :
    let v := M3.mulVec (M3.transpose pose.linear) (V3.sub p (r.centerGrd pose))
    M3.mulVec (M3.transpose (spun pose φ).linear) (V3.sub p (r.centerGrd (spun pose φ))) =
      ⟨Real.cos φ * v.x - Real.sin φ * v.z, v.y, Real.sin φ * v.x + Real.cos φ * v.z⟩ := by
  intro v
  have hc : r.centerGrd (spun pose φ) = r.centerGrd pose := by
    rw [Rib.centerGrd_eq, Rib.centerGrd_eq, spun_centre hr]
  rw [hc]
  simp only [v, spun, Affine.rotate, M3.ofAngleAxis, M3.mul, M3.transpose]
  generalize V3.sub p (r.centerGrd pose) = w
  v3
  simp
  ring_nf
  simp

theorem Rib.not_seam {r : Rib ℝ} (hr : IsRib r) {pose : Affine ℝ} (hp : IsRigid pose) {seg : Segment ℝ}
    (h : ∀ p, OnSeg seg p → ¬ OnSeam pose p) :
    let a := M3.mulVec (M3.transpose pose.linear) (V3.sub seg.v0 (r.centerGrd pose))
    let b := M3.mulVec (M3.transpose pose.linear) (V3.sub seg.v1 (r.centerGrd pose))
    ∀ k : ℝ, 0 ≤ k → k ≤ 1 → ¬ (a.z + k * (b.z - a.z) = 0 ∧ a.x + k * (b.x - a.x) ≤ 0) := by
  intro a b k k0 k1 ⟨hz, hx⟩
  refine h _ ⟨k, k0, k1, rfl⟩ ⟨-(a.x + k * (b.x - a.x)), r.y + (a.y + k * (b.y - a.y)), by linarith, ?_⟩
  have hc : r.centerGrd pose = pose.apply ⟨0, r.y, 0⟩ := by
    rw [Rib.centerGrd_eq]; show pose.apply r.disk.plane.origin = _; rw [hr.center]
  have e0 : M3.mulVec pose.linear a = V3.sub seg.v0 (r.centerGrd pose) := hp.mulVec_transpose _
  have e1 : M3.mulVec pose.linear b = V3.sub seg.v1 (r.centerGrd pose) := hp.mulVec_transpose _
  rw [hc] at e0 e1
  simp only [Affine.apply, M3.mulVec, V3.add, V3.sub, real_add, real_mul, real_sub, V3.mk.injEq] at e0 e1 ⊢
  obtain ⟨x0, y0, z0⟩ := e0
  obtain ⟨x1, y1, z1⟩ := e1
  refine ⟨?_, ?_, ?_⟩
  · linear_combination -(1 - k) * x0 - k * x1 + pose.linear.c2.x * hz
  · linear_combination -(1 - k) * y0 - k * y1 + pose.linear.c2.y * hz
  · linear_combination -(1 - k) * z0 - k * z1 + pose.linear.c2.z * hz

/-- A section that does not meet the seam before and after spinning the wheel makes the same contribution. -/
theorem Rib.contrib_spun {r : Rib ℝ} (hr : IsRib r) {pose : Affine ℝ} (hp : IsRigid pose) (φ : ℝ) (t : TriangleGround ℝ)
    {seg : Segment ℝ} (h : ∀ p, OnSeg seg p → ¬ OnSeam pose p) (h' : ∀ p, OnSeg seg p → ¬ OnSeam (spun pose φ) p) :
    r.contrib (spun pose φ) t seg = r.contrib pose t seg := by
  have n1 := Rib.not_seam hr hp h
  have n2 := Rib.not_seam hr (spun_rigid hp φ) h'
  have ea := Rib.local_spun hr pose φ seg.v0
  have eb := Rib.local_spun hr pose φ seg.v1
  have hng : r.normalGrd (spun pose φ) = r.normalGrd pose := by
    rw [Rib.normalGrd_eq hr, Rib.normalGrd_eq hr, spun_c1]
  dsimp only at n1 n2 ea eb
  have hpt : ∀ v : V3 ℝ, V3.add (spun pose φ).trans (M3.mulVec (spun pose φ).linear (V3.add r.center v)) =
      V3.add (r.centerGrd pose) (M3.mulVec (spun pose φ).linear v) := by
    intro v
    have hc : r.centerGrd (spun pose φ) = r.centerGrd pose := by
      rw [Rib.centerGrd_eq, Rib.centerGrd_eq, spun_centre hr]
    rw [← hc, Rib.centerGrd]
    v3
    congr 1 <;> ring
  have hpt0 : ∀ v : V3 ℝ, V3.add pose.trans (M3.mulVec pose.linear (V3.add r.center v)) =
      V3.add (r.centerGrd pose) (M3.mulVec pose.linear v) := by
    intro v
    rw [Rib.centerGrd]
    v3
    congr 1 <;> ring
  unfold Rib.contrib
  dsimp only
  rw [hng]
  simp only [hpt, hpt0]
  rw [ea, eb]
  rw [ea, eb] at n2
  set a := M3.mulVec (M3.transpose pose.linear) (V3.sub seg.v0 (r.centerGrd pose)) with ha
  set b := M3.mulVec (M3.transpose pose.linear) (V3.sub seg.v1 (r.centerGrd pose)) with hb
  have hnorm : ∀ v : V3 ℝ, V3.norm (⟨Real.cos φ * v.x - Real.sin φ * v.z, v.y, Real.sin φ * v.x + Real.cos φ * v.z⟩ : V3 ℝ) =
      V3.norm v := by
    intro v
    rw [V3.norm_eq, V3.norm_eq, length3, length3]
    congr 1
    dsimp only
    linear_combination (v.x ^ 2 + v.z ^ 2) * Real.sin_sq_add_cos_sq φ
  rw [hnorm, hnorm]
  have m1 := Spec.arg_sub_lt (a := ⟨a.x, a.z⟩) (b := ⟨b.x, b.z⟩) n1
  have m2 := Spec.arg_sub_lt (a := ⟨Real.cos φ * a.x - Real.sin φ * a.z, Real.sin φ * a.x + Real.cos φ * a.z⟩)
    (b := ⟨Real.cos φ * b.x - Real.sin φ * b.z, Real.sin φ * b.x + Real.cos φ * b.z⟩) n2
  have a0 : (⟨a.x, a.z⟩ : ℂ) ≠ 0 := by
    intro h0
    rw [Complex.ext_iff] at h0
    have h1 : a.x = 0 := h0.1
    have h2 : a.z = 0 := h0.2
    have := n1 0 le_rfl zero_le_one
    simp [h1, h2] at this
  have b0 : (⟨b.x, b.z⟩ : ℂ) ≠ 0 := by
    intro h0
    rw [Complex.ext_iff] at h0
    have h1 : b.x = 0 := h0.1
    have h2 : b.z = 0 := h0.2
    have := n1 1 zero_le_one le_rfl
    simp [h1, h2] at this
  have turn : ∀ x z : ℝ, (⟨Real.cos φ * x - Real.sin φ * z, Real.sin φ * x + Real.cos φ * z⟩ : ℂ) =
      (Real.cos φ + Real.sin φ * Complex.I) * ⟨x, z⟩ := by
    intro x z
    apply Complex.ext
    · simp [-Complex.ofReal_cos, -Complex.ofReal_sin]
    · simp [-Complex.ofReal_cos, -Complex.ofReal_sin]; ring
  obtain ⟨δ, d1, d2, d3, d4⟩ := Spec.arg_turn a0 b0 φ (turn _ _) (turn _ _) m1 m2
  simp only [real_atan2, real_lt, d1, d2, decide_eq_true_eq, add_lt_add_iff_right]
  generalize Complex.arg ⟨a.x, a.z⟩ = A at *
  generalize Complex.arg ⟨b.x, b.z⟩ = B at *
  have hdir : ∀ (ρ σ θ : ℝ), M3.mulVec (spun pose φ).linear ⟨ρ * Real.cos (θ + δ), σ, ρ * Real.sin (θ + δ)⟩ =
      M3.mulVec pose.linear ⟨ρ * Real.cos θ, σ, ρ * Real.sin θ⟩ := by
    intro ρ σ θ
    rw [Real.cos_add, Real.sin_add, d3, d4]
    simp only [spun, Affine.rotate, M3.ofAngleAxis, M3.mul]
    v3
    simp
    have := Real.sin_sq_add_cos_sq φ
    refine ⟨?_, ?_, ?_⟩
    · linear_combination (ρ * Real.cos θ * pose.linear.c0.x + ρ * Real.sin θ * pose.linear.c2.x) * this
    · linear_combination (ρ * Real.cos θ * pose.linear.c0.y + ρ * Real.sin θ * pose.linear.c2.y) * this
    · linear_combination (ρ * Real.cos θ * pose.linear.c0.z + ρ * Real.sin θ * pose.linear.c2.z) * this
  have hdir1 : ∀ θ : ℝ, M3.mulVec (spun pose φ).linear ⟨-Real.cos (θ + δ), 0, -Real.sin (θ + δ)⟩ =
      M3.mulVec pose.linear ⟨-Real.cos θ, 0, -Real.sin θ⟩ := by
    intro θ
    have := hdir (-1) 0 θ
    simpa using this
  have main : ∀ A B : ℝ, (A + δ + (B + δ)) / 2 = (A + B) / 2 + δ ∧ B + δ - (A + δ) = B - A := by
    intro A B; constructor <;> ring
  by_cases hBA : B < A
  · simp only [if_pos hBA, real_add, real_sub, real_div, real_two, real_cos, real_sin, real_neg, real_zero, V3.smul, real_mul,
      mul_zero, (main _ _).1, (main _ _).2, hdir, hdir1]
  · simp only [if_neg hBA, real_add, real_sub, real_div, real_two, real_cos, real_sin, real_neg, real_zero, V3.smul, real_mul,
      mul_zero, (main _ _).1, (main _ _).2, hdir, hdir1]

theorem Rib.diskGrd_spun {r : Rib ℝ} (hr : IsRib r) (pose : Affine ℝ) (φ : ℝ) : r.diskGrd (spun pose φ) = r.diskGrd pose := by
  unfold Rib.diskGrd
  rw [Rib.centerGrd_eq, Rib.centerGrd_eq, spun_centre hr, Rib.normalGrd_eq hr, Rib.normalGrd_eq hr, spun_c1]

/-- The sections of the triangles by the rib, before and after spinning the wheel, do not meet the seam of the wheel. -/
def Spec.ClearOfSeam (r : Rib ℝ) (pose : Affine ℝ) (angle : ℝ) (t : TriangleGround ℝ) : Prop :=
  ∀ seg, Inter.triangleDisk t.tri (r.diskGrd pose) Scalar.eps = .ok (some seg) →
    ∀ p, OnSeg seg p → ¬ OnSeam pose p ∧ ¬ OnSeam (spun pose angle) p

theorem Rib.geomLoop_spun {r : Rib ℝ} (hr : IsRib r) {pose : Affine ℝ} (hp : IsRigid pose) (φ : ℝ) {ts : List (TriangleGround ℝ)}
    (h : ∀ t ∈ ts, ClearOfSeam r pose φ t) (acc : Rib.Acc ℝ) :
    r.geomLoop (spun pose φ) ts acc = r.geomLoop pose ts acc := by
  induction ts generalizing acc with
  | nil => rfl
  | cons t ts ih =>
    rw [Rib.geomLoop, Rib.geomLoop, Rib.diskGrd_spun hr]
    have ih := fun acc => ih (fun t ht => h t (List.mem_cons_of_mem _ ht)) acc
    have ht := h t List.mem_cons_self
    unfold Spec.ClearOfSeam at ht
    rcases hd : Inter.triangleDisk t.tri (r.diskGrd pose) Scalar.eps with o | e | e
    · rcases o with _ | seg
      · simp only [Res.bind_ok, ih]
      · simp only [Res.bind_ok]
        rw [Rib.contrib_spun hr hp φ t (fun p hp => (ht seg hd p hp).1) (fun p hp => (ht seg hd p hp).2)]
        cases r.contrib pose t seg with
        | none => rfl
        | some c => exact ih _
    · rfl
    · rfl

/-- The record after spinning the wheel: the same contact, or none. -/
structure Spec.SameContact (contact : Prop) (o o' : Output ℝ) : Prop where
  same : contact → o' = o
  depth : o'.depth = o.depth
  friction : o'.friction = o.friction
  area : o'.area = o.area
  volume : o'.volume = o.volume

/-- **C35 on a mesh, geometric method (partial).**  If the sections of the triangles do not meet the seam of the wheel before and after it is
spun, spinning changes neither whether the rib is in contact nor anything in the record of the contact.  Missing: sections across the seam
(`C35_geometric_mesh_refuted`). -/
theorem C35_geometric_mesh_partial {r : Rib ℝ} (hr : IsRib r) {pose : Affine ℝ} (hp : IsRigid pose) (angle : ℝ)
    {ts : List (TriangleGround ℝ)} (h : ∀ t ∈ ts, ClearOfSeam r pose angle t) :
    (∀ flag o, r.envelopGeometricMesh ts pose = .ok (flag, o) →
      ∃ o', r.envelopGeometricMesh ts (spun pose angle) = .ok (flag, o') ∧ SameContact (flag = true) o o') ∧
    ∀ e, r.envelopGeometricMesh ts pose = .throw e → r.envelopGeometricMesh ts (spun pose angle) = .throw e := by
  have hloop := Rib.geomLoop_spun hr hp angle h Rib.Acc.init
  have hc : r.centerGrd (spun pose angle) = r.centerGrd pose := by
    rw [Rib.centerGrd_eq, Rib.centerGrd_eq, spun_centre hr]
  unfold Rib.envelopGeometricMesh
  rw [hloop]
  rcases r.geomLoop pose ts Rib.Acc.init with acc | e | e
  · refine ⟨fun flag o ho => ?_, fun e he => by simp at he⟩
    simp only [Res.bind_ok, Res.pure_eq] at ho ⊢
    have ho := Res.ok.inj ho
    unfold Rib.geomFinish at ho ⊢
    rw [hc]
    split at ho
    · rename_i hcond
      rw [if_pos hcond]
      obtain ⟨rfl, rfl⟩ := Prod.mk.inj ho
      exact ⟨_, rfl, ⟨fun _ => rfl, rfl, rfl, rfl, rfl⟩⟩
    · rename_i hcond
      rw [if_neg hcond]
      obtain ⟨rfl, rfl⟩ := Prod.mk.inj ho
      exact ⟨_, rfl, ⟨fun h => absurd h (by simp), rfl, rfl, rfl, rfl⟩⟩
  · exact ⟨fun _ _ h => (by simp at h), fun e' he => he⟩
  · exact ⟨fun _ _ h => (by simp at h), fun e' he => he⟩

/-- **C35 for the tyre on a mesh (partial).**  Two setups of the same shell on the same mesh with the geometric method, the wheel spun
between them: if no section of a triangle near the tyre meets the seam before and after, the flags are equal and every rib reports the same
contact. -/
theorem C35_setup_mesh_partial {pol : Policy} {s sA sB : Shell ℝ} (hs : s.Reachable pol) {m : Mesh ℝ} {pose : Affine ℝ}
    (hp : IsRigid pose) (angle : ℝ)
    (h : ∀ loc, m.intersection (s.transform pose).updateBBox.bbox = .ok loc → ∀ t ∈ loc, ∀ r ∈ s.ribs, ClearOfSeam r pose angle t)
    {bA bB : Bool} (hA : s.setupMesh pol m pose "geometric" = .ok sA bA)
    (hB : s.setupMesh pol m (spun pose angle) "geometric" = .ok sB bB) :
    bA = bB ∧ ∀ i < s.size, ∃ r o o', Shows pol sA i r o ∧ Shows pol sB i r o' ∧ SameContact (ShowsContact o) o o' := by
  obtain ⟨loc, hloc⟩ : ∃ loc, m.intersection (s.transform pose).updateBBox.bbox = .ok loc := by
    cases hi : m.intersection (s.transform pose).updateBBox.bbox with
    | ok loc => exact ⟨loc, rfl⟩
    | throw m => simp [Shell.setupMesh, hi] at hA
    | ub w => simp [Shell.setupMesh, hi] at hA
  have hloc' : m.intersection (s.transform (spun pose angle)).updateBBox.bbox = .ok loc := hloc
  obtain ⟨f1, r1, a1, c1⟩ := C38_mesh_flag pol s sA hs m pose "geometric" loc bA hloc hA
  obtain ⟨f2, r2, a2, c2⟩ := C38_mesh_flag pol s sB hs m (spun pose angle) "geometric" loc bB hloc' hB
  have e1 := (Shell.setupMesh_rel (.inl ⟨bA, hA⟩)).ribs
  have e2 := (Shell.setupMesh_rel (.inl ⟨bB, hB⟩)).ribs
  have hcand : ∀ r : Rib ℝ, Shell.ribCandidates (spun pose angle) "geometric" loc r =
      Shell.ribCandidates pose "geometric" loc r := by
    intro r
    unfold Shell.ribCandidates
    rw [spun_c1]
    rfl
  have key : ∀ i < s.size, f2 i = f1 i ∧ ∃ r o o', Shows pol sA i r o ∧ Shows pol sB i r o' ∧ SameContact (ShowsContact o) o o' := by
    intro i hi
    obtain ⟨r, g1, g2, g3⟩ := a1 i hi
    obtain ⟨r', g1', g2', g3'⟩ := a2 i hi
    have gA := g1
    have gB := g1'
    rw [e1] at g1
    rw [e2, ← e1, e1, g1] at g1'
    cases g1'
    have hmem : r ∈ s.ribs := List.mem_of_getElem? g1
    have hr : IsRib r := hs.isRib r hmem
    have g2 : (if loc = [] then Res.ok (false, r.noContact pose) else
      r.envelopMesh (Shell.ribCandidates pose "geometric" loc r) pose "geometric") = .ok (f1 i, r1 i) := g2
    have g2' : (if loc = [] then Res.ok (false, r.noContact (spun pose angle)) else
      r.envelopMesh (Shell.ribCandidates (spun pose angle) "geometric" loc r) (spun pose angle) "geometric") =
        .ok (f2 i, r2 i) := g2'
    by_cases hnil : loc = []
    · rw [if_pos hnil] at g2 g2'
      obtain ⟨u1, u2⟩ := Prod.mk.inj (Res.ok.inj g2)
      obtain ⟨v1, v2⟩ := Prod.mk.inj (Res.ok.inj g2')
      refine ⟨by rw [← u1, ← v1], r, _, _, ⟨gA, g3⟩, ⟨gB, g3'⟩, ?_⟩
      rw [← u2, ← v2]
      exact ⟨fun h => absurd h (Rib.noContact_not_shows _ _), rfl, rfl, rfl, rfl⟩
    · rw [if_neg hnil] at g2 g2'
      rw [hcand] at g2'
      have hcl : ∀ t ∈ Shell.ribCandidates pose "geometric" loc r, ClearOfSeam r pose angle t :=
        fun t ht => h loc hloc t (Shell.ribCandidates_sub ht) r hmem
      have hen : ∀ (p : Affine ℝ) (l : List (TriangleGround ℝ)), r.envelopMesh l p "geometric" = r.envelopGeometricMesh l p := by
        intro p l; simp [Rib.envelopMesh]
      rw [hen] at g2 g2'
      obtain ⟨o', ho', hsame⟩ := (C35_geometric_mesh_partial hr hp angle hcl).1 _ _ g2
      rw [ho'] at g2'
      obtain ⟨u1, u2⟩ := Prod.mk.inj (Res.ok.inj g2')
      refine ⟨u1.symm, r, _, _, ⟨gA, g3⟩, ⟨gB, g3'⟩, ?_⟩
      rw [← u2]
      refine ⟨fun hsc => hsame.same ?_, hsame.depth, hsame.friction, hsame.area, hsame.volume⟩
      cases hf : f1 i with
      | true => rfl
      | false =>
        rw [hf, ← hen] at g2
        rw [Rib.envelopMesh_false g2] at hsc
        exact absurd hsc (Rib.noContact_not_shows _ _)
  constructor
  · rw [Bool.eq_iff_iff, c1, c2]
    constructor
    · rintro ⟨i, hi, h⟩; exact ⟨i, hi, by rw [(key i hi).1]; exact h⟩
    · rintro ⟨i, hi, h⟩; exact ⟨i, hi, by rw [← (key i hi).1]; exact h⟩
  · exact fun i hi => (key i hi).2

/-- A wheel half a radius above a field, spun forwards by a quarter: the seam goes up. -/
example : ClearOfSeam (Demo.ribOf 1) (Demo.upright (1 / 2)) (Real.pi / 2) Demo.field ∧
    ∃ seg, Inter.triangleDisk Demo.field.tri ((Demo.ribOf 1).diskGrd (Demo.upright (1 / 2))) Scalar.eps = .ok (some seg) := by
  refine ⟨fun seg hseg p hp => ?_, _, Demo.field_cut⟩
  rw [Demo.field_cut] at hseg
  cases hseg
  obtain ⟨k, -, -, rfl⟩ := hp
  constructor
  · rintro ⟨x, y, hx, h⟩
    have := congrArg V3.z h
    rw [Demo.upright_z] at this
    norm_num at this
  · rintro ⟨x, y, hx, h⟩
    have := congrArg V3.z h
    simp [spun, Affine.rotate, Affine.apply, M3.ofAngleAxis, M3.mul, M3.mulVec, Demo.upright, V3.add] at this
    linarith

end Enve
