import Verif.Spec.Units
import Verif.Props.MirrorProps
import Verif.Lemmas.Rounding

/-! # The unit of length: C133 -/

namespace Enve
open Scalar Spec

/-! ## Vectors -/

namespace Units

theorem add (k : ℝ) (a b : V3 ℝ) : V3.add (rescale k a) (rescale k b) = rescale k (V3.add a b) := by
  simp only [rescale, V3.real_add]; congr 1 <;> ring

theorem sub (k : ℝ) (a b : V3 ℝ) : V3.sub (rescale k a) (rescale k b) = rescale k (V3.sub a b) := by
  simp only [rescale, V3.real_sub]; congr 1 <;> ring

theorem neg (k : ℝ) (a : V3 ℝ) : V3.neg (rescale k a) = rescale k (V3.neg a) := by
  simp only [rescale, V3.real_neg]; congr 1 <;> ring

theorem smul (k c : ℝ) (a : V3 ℝ) : V3.smul (k * c) a = rescale k (V3.smul c a) := by
  simp only [rescale, V3.real_smul]; congr 1 <;> ring

theorem smul' (k c : ℝ) (a : V3 ℝ) : V3.smul c (rescale k a) = rescale k (V3.smul c a) := by
  simp only [rescale, V3.real_smul]; congr 1 <;> ring

theorem sdiv (k c : ℝ) (a : V3 ℝ) : V3.sdiv (rescale k a) c = rescale k (V3.sdiv a c) := by
  simp only [rescale, V3.real_sdiv]; congr 1 <;> ring

theorem dot (k : ℝ) (a b : V3 ℝ) : V3.dot (rescale k a) b = k * V3.dot a b := by
  simp only [rescale, V3.real_dot]; ring

theorem dot' (k : ℝ) (a b : V3 ℝ) : V3.dot a (rescale k b) = k * V3.dot a b := by
  simp only [rescale, V3.real_dot]; ring

theorem cross (k : ℝ) (a b : V3 ℝ) : V3.cross (rescale k a) b = rescale k (V3.cross a b) := by
  simp only [rescale, V3.real_cross]; congr 1 <;> ring

theorem cross' (k : ℝ) (a b : V3 ℝ) : V3.cross a (rescale k b) = rescale k (V3.cross a b) := by
  simp only [rescale, V3.real_cross]; congr 1 <;> ring

theorem mulVec (k : ℝ) (m : M3 ℝ) (a : V3 ℝ) : M3.mulVec m (rescale k a) = rescale k (M3.mulVec m a) := by
  unfold rescale; v3; congr 1 <;> ring

theorem sqNorm (k : ℝ) (a : V3 ℝ) : V3.sqNorm (rescale k a) = k ^ 2 * V3.sqNorm a := by
  simp only [rescale, V3.real_sqNorm]; ring

theorem norm {k : ℝ} (hk : 0 < k) (a : V3 ℝ) : V3.norm (rescale k a) = k * V3.norm a := by
  have e : V3.norm (rescale k a) = √(k ^ 2 * V3.sqNorm a) := by
    rw [← sqNorm]; rfl
  rw [e, Real.sqrt_mul (sq_nonneg k), Real.sqrt_sq hk.le]; rfl

theorem normalized {k : ℝ} (hk : 0 < k) (a : V3 ℝ) : V3.normalized (rescale k a) = V3.normalized a := by
  have hk2 : 0 < k ^ 2 := by positivity
  have hs := sqNorm k a
  unfold V3.normalized
  rw [hs]
  by_cases h : (0 : ℝ) < V3.sqNorm a
  · rw [if_pos (by rw [real_lt, real_zero]; exact decide_eq_true (mul_pos hk2 h)),
      if_pos (by rw [real_lt, real_zero]; exact decide_eq_true h)]
    rw [real_sqrt, Real.sqrt_mul hk2.le, Real.sqrt_sq hk.le]
    simp only [rescale, V3.real_sdiv, real_sqrt]
    congr 1 <;> exact mul_div_mul_left _ _ hk.ne'
  · rw [if_neg (by rw [real_lt, real_zero, decide_eq_true_eq]; intro h'; exact h (by nlinarith)),
      if_neg (by rw [real_lt, real_zero, decide_eq_true_eq]; exact h)]
    have h0 : V3.sqNorm a = 0 := le_antisymm (not_lt.1 h) (by rw [V3.real_sqNorm]; nlinarith [sq_nonneg a.x, sq_nonneg a.y, sq_nonneg a.z])
    rw [V3.real_sqNorm] at h0
    have hx : a.x = 0 := by nlinarith [sq_nonneg a.x, sq_nonneg a.y, sq_nonneg a.z]
    have hy : a.y = 0 := by nlinarith [sq_nonneg a.x, sq_nonneg a.y, sq_nonneg a.z]
    have hz : a.z = 0 := by nlinarith [sq_nonneg a.x, sq_nonneg a.y, sq_nonneg a.z]
    cases a
    simp only at hx hy hz
    subst hx hy hz
    simp [rescale]

theorem min {k : ℝ} (hk : 0 < k) (a b : ℝ) : Scalar.min (k * a) (k * b) = k * Scalar.min a b := by
  rw [real_min, real_min, mul_min_of_nonneg _ _ hk.le]

theorem max {k : ℝ} (hk : 0 < k) (a b : ℝ) : Scalar.max (k * a) (k * b) = k * Scalar.max a b := by
  rw [real_max, real_max, mul_max_of_nonneg _ _ hk.le]

theorem quot {k : ℝ} (hk : 0 < k) (a b : ℝ) : k * a / (k * b) = a / b := mul_div_mul_left _ _ hk.ne'

/-- Area and volume of a segment. -/
theorem depthArea {k : ℝ} (hk : 0 < k) (R w d : ℝ) : Rib.depthArea (k * R) (k * w) (k * d) = k ^ 2 * Rib.depthArea R w d := by
  simp only [Rib.depthArea, real_mul, real_sub, real_sqrt, real_two]
  rw [show k * d * (2 * (k * R) - k * d) = k ^ 2 * (d * (2 * R - d)) by ring, Real.sqrt_mul (sq_nonneg k), Real.sqrt_sq hk.le]
  ring

theorem depthVolume {k : ℝ} (hk : 0 < k) (R w d : ℝ) : Rib.depthVolume (k * R) (k * w) (k * d) = k ^ 3 * Rib.depthVolume R w d := by
  simp only [Rib.depthVolume, real_mul, real_sub, real_sqrt, real_two, real_div, real_acos]
  rw [show k * d * (2 * (k * R) - k * d) = k ^ 2 * (d * (2 * R - d)) by ring, Real.sqrt_mul (sq_nonneg k), Real.sqrt_sq hk.le,
    show k * R - k * d = k * (R - d) by ring, quot hk]
  ring

end Units

/-! ## Ribs -/

theorem Spec.RescaledRib.center {k : ℝ} {r r' : Rib ℝ} (h : RescaledRib k r r') (hr : IsRib r) (hr' : IsRib r') :
    r'.center = rescale k r.center := by
  have e : r.center = ⟨0, r.y, 0⟩ := hr.center
  have e' : r'.center = ⟨0, r'.y, 0⟩ := hr'.center
  rw [e, e', h.y]; simp [rescale]

theorem Spec.RescaledRib.place {k : ℝ} (pose : Affine ℝ) (x : V3 ℝ) :
    V3.add (rescalePose k pose).trans (M3.mulVec (rescalePose k pose).linear (rescale k x)) =
      rescale k (V3.add pose.trans (M3.mulVec pose.linear x)) := by
  rw [← Units.add, ← Units.mulVec]; rfl

theorem Spec.RescaledRib.centerGrd {k : ℝ} {r r' : Rib ℝ} (h : RescaledRib k r r') (hr : IsRib r) (hr' : IsRib r') (pose : Affine ℝ) :
    r'.centerGrd (rescalePose k pose) = rescale k (r.centerGrd pose) := by
  unfold Rib.centerGrd
  rw [h.center hr hr', RescaledRib.place]

theorem Spec.RescaledRib.noContact {k : ℝ} {r r' : Rib ℝ} (h : RescaledRib k r r') (hr : IsRib r) (hr' : IsRib r') (pose : Affine ℝ) :
    r'.noContact (rescalePose k pose) = rescaleRecord k (r.noContact pose) := by
  unfold Rib.noContact rescaleRecord
  simp only [Output.mk.injEq, real_zero, mul_zero, and_true]
  constructor
  · rw [h.center hr hr', h.radius, Units.smul, Units.sub, RescaledRib.place]
  · rfl

/-! ## The sampling method -/

/-- Evaluation by sampling, when the samples of the lines in the new unit are the samples in the new unit. -/
theorem Rib.envelopSampling_rescale {k : ℝ} (hk : 0 < k) {r r' : Rib ℝ} (hr : IsRib r) (hr' : IsRib r') (h : RescaledRib k r r')
    (pose : Affine ℝ) (f f' : Line ℝ → Option (V3 ℝ × ℝ))
    (hf : ∀ o : V3 ℝ, f' ⟨rescale k o, V3.neg V3.ez⟩ = (f ⟨o, V3.neg V3.ez⟩).map fun h => (rescale k h.1, h.2)) :
    (r'.envelopSampling f' (rescalePose k pose)) =
      ((r.envelopSampling f pose).1, rescaleRecord k (r.envelopSampling f pose).2) := by
  have hl : ∀ x : V3 ℝ, f' ⟨V3.add (rescalePose k pose).trans (M3.mulVec (rescalePose k pose).linear (rescale k x)), V3.neg V3.ez⟩ =
      (f ⟨V3.add pose.trans (M3.mulVec pose.linear x), V3.neg V3.ez⟩).map fun h => (rescale k h.1, h.2) := by
    intro x
    rw [RescaledRib.place, hf]
  have hs : ∀ (c a : ℝ) (e : V3 ℝ), V3.smul (c *. (k * a)) e = rescale k (V3.smul (c *. a) e) := by
    intro c a e
    rw [← Units.smul, real_mul, real_mul]; congr 1; ring
  unfold Rib.envelopSampling
  simp only [Rib.lineXp, Rib.lineXm, Rib.lineYp, Rib.lineYm, h.center hr hr', h.radius, h.width, hs, Units.add, Units.sub, hl,
    h.noContact hr hr']
  rcases f ⟨V3.add pose.trans (M3.mulVec pose.linear (V3.add r.center (V3.smul (lit 1 10 *. r.radius) V3.ex))),
    V3.neg V3.ez⟩ with _ | ⟨p0, f0⟩
  · simp only [Option.map_none]
  rcases f ⟨V3.add pose.trans (M3.mulVec pose.linear (V3.sub r.center (V3.smul (lit 1 10 *. r.radius) V3.ex))),
    V3.neg V3.ez⟩ with _ | ⟨p1, f1⟩
  · simp only [Option.map_none, Option.map_some]
  rcases f ⟨V3.add pose.trans (M3.mulVec pose.linear (V3.add r.center (V3.smul (lit 3 10 *. r.width) V3.ey))),
    V3.neg V3.ez⟩ with _ | ⟨p2, f2⟩
  · rcases f ⟨V3.add pose.trans (M3.mulVec pose.linear (V3.sub r.center (V3.smul (lit 3 10 *. r.width) V3.ey))),
      V3.neg V3.ez⟩ with _ | ⟨p3, f3⟩ <;> simp only [Option.map_none, Option.map_some]
  rcases f ⟨V3.add pose.trans (M3.mulVec pose.linear (V3.sub r.center (V3.smul (lit 3 10 *. r.width) V3.ey))),
    V3.neg V3.ez⟩ with _ | ⟨p3, f3⟩
  · simp only [Option.map_none, Option.map_some]
  have hcg := h.centerGrd hr hr' pose
  have hlin : (rescalePose k pose).linear = pose.linear := rfl
  simp only [Option.map_some, Units.add, Units.sub, Units.sdiv, Units.cross, Units.cross', Units.normalized hk, hcg, hlin, Units.norm hk]
  generalize V3.normalized (V3.cross (V3.sub p0 p1) (V3.sub p2 p3)) = N
  generalize V3.sdiv (V3.add (V3.add (V3.add p0 p1) p2) p3) (lit 4 1) = P
  generalize Scalar.abs (V3.dot N (V3.normalized (V3.cross (V3.normalized pose.linear.c1)
        (V3.normalized (V3.cross N (V3.normalized pose.linear.c1)))))) = q
  have hd : k * r.radius *. q -. k * V3.norm (V3.sub P (r.centerGrd pose)) = k * (r.radius *. q -. V3.norm (V3.sub P (r.centerGrd pose))) := by
    simp only [real_mul, real_sub]; ring
  rw [hd]
  generalize r.radius *. q -. V3.norm (V3.sub P (r.centerGrd pose)) = d
  have hc : ((zero : ℝ) <. k * d) = (zero <. d) := by
    simp only [real_lt, real_zero, decide_eq_decide]
    exact mul_pos_iff_of_pos_left hk
  rw [hc]
  split
  · simp only [rescaleRecord, Units.depthArea hk, Units.depthVolume hk]
  · rfl

theorem Rib.samplingLineFlat_rescale (k : ℝ) (g : Flat ℝ) (o d : V3 ℝ) :
    Rib.samplingLineFlat (rescaleFlat k g) ⟨rescale k o, d⟩ =
      (Rib.samplingLineFlat g ⟨o, d⟩).map fun h => (rescale k h.1, h.2) := by
  unfold Rib.samplingLineFlat Inter.linePlane
  simp only [rescaleFlat, Units.sub, Units.dot]
  split
  · simp only [Option.map_some]
    congr 2
    rw [real_div, real_div, mul_div_assoc, Units.smul, Units.add]
  · rfl

/-- Twice the area of the vertical projection of a triangle. -/
def Spec.shadow (T : Triangle ℝ) : ℝ := (T.v1.x - T.v0.x) * (T.v2.y - T.v0.y) - (T.v1.y - T.v0.y) * (T.v2.x - T.v0.x)

/-- A triangle that the sampling lines can meet: its projection has an area above the tolerance, or none. -/
def Spec.Sampled (t : TriangleGround ℝ) : Prop := Scalar.eps ≤ |shadow t.tri| ∨ shadow t.tri = 0

theorem Inter.lineTriangle_rescale {k : ℝ} (hk : 1 ≤ k) (o : V3 ℝ) {T T' : Triangle ℝ} (h0 : T'.v0 = rescale k T.v0)
    (h1 : T'.v1 = rescale k T.v1) (h2 : T'.v2 = rescale k T.v2) (h : Scalar.eps ≤ |shadow T| ∨ shadow T = 0) :
    Inter.lineTriangle ⟨rescale k o, V3.neg V3.ez⟩ T' Scalar.eps = (Inter.lineTriangle ⟨o, V3.neg V3.ez⟩ T Scalar.eps).map (rescale k) := by
  have k0 : 0 < k := by linarith
  have k2 : 0 < k * k := by positivity
  have heps := real_eps_pos
  have ha : V3.dot (V3.sub T.v1 T.v0) (V3.cross (V3.neg V3.ez) (V3.sub T.v2 T.v0)) = shadow T := by
    simp only [shadow]
    v3
    ring
  unfold Inter.lineTriangle
  rw [h0, h1, h2]
  simp only [Units.sub, Units.cross, Units.cross', Units.dot, Units.dot', ha]
  generalize shadow T = a at *
  have e1 : ((-. (Scalar.eps : ℝ)) <. k * (k * a) && k * (k * a) <. Scalar.eps) = ((-. (Scalar.eps : ℝ)) <. a && a <. Scalar.eps) := by
    simp only [real_lt, real_neg]
    rcases h with h | h
    · have hl : ¬ (-(Scalar.eps : ℝ) < a ∧ a < Scalar.eps) := by
        intro hc; exact absurd (abs_lt.2 hc) (not_lt.2 h)
      have hl' : ¬ (-(Scalar.eps : ℝ) < k * (k * a) ∧ k * (k * a) < Scalar.eps) := by
        intro hc
        have := abs_lt.2 hc
        rw [← mul_assoc, abs_mul, abs_of_pos k2] at this
        have := le_mul_of_one_le_left (abs_nonneg a) (show 1 ≤ k * k by nlinarith)
        linarith
      rw [← Bool.decide_and, ← Bool.decide_and, decide_eq_decide]
      exact ⟨fun hc => absurd hc hl', fun hc => absurd hc hl⟩
    · rw [h, mul_zero, mul_zero]
  have e2 : ∀ x : ℝ, one /. (k * (k * a)) *. (k * (k * x)) = one /. a *. x := by
    intro x
    simp only [real_div, real_mul, real_one]
    rw [← mul_assoc k k a, ← mul_assoc k k x, one_div_mul_eq_div, one_div_mul_eq_div, mul_div_mul_left _ _ k2.ne']
  have e3 : ∀ x : ℝ, one /. a *. (k * x) = k * (one /. a *. x) := by
    intro x
    rw [real_mul, real_mul]; ring
  rw [e1]
  simp only [e2, e3, Units.smul, Units.add]
  split
  · rfl
  split
  · rfl
  split <;> rfl

theorem Rib.samplingLineMesh_rescale {k : ℝ} (hk : 1 ≤ k) {ts ts' : List (TriangleGround ℝ)}
    (h : List.Forall₂ (RescaledTriangle k) ts ts') (hs : ∀ t ∈ ts, Sampled t) (o : V3 ℝ) :
    Rib.samplingLineMesh ts' ⟨rescale k o, V3.neg V3.ez⟩ = (Rib.samplingLineMesh ts ⟨o, V3.neg V3.ez⟩).map fun h => (rescale k h.1, h.2) := by
  have k0 : 0 < k := by linarith
  have hhits : Rib.samplingHits ts' ⟨rescale k o, V3.neg V3.ez⟩ =
      (Rib.samplingHits ts ⟨o, V3.neg V3.ez⟩).map fun h => (rescale k h.1, h.2) := by
    unfold Rib.samplingHits
    induction h with
    | nil => rfl
    | @cons t t' ts ts' ht hts ih =>
      rw [List.filterMap_cons, List.filterMap_cons, Inter.lineTriangle_rescale hk o ht.v0 ht.v1 ht.v2 (hs t (by simp)), ht.friction,
        ih fun u hu => hs u (by simp [hu])]
      rcases Inter.lineTriangle ⟨o, V3.neg V3.ez⟩ t.tri Scalar.eps with _ | p <;> rfl
  have hhigh : ∀ (h : V3 ℝ × ℝ) (hs : List (V3 ℝ × ℝ)),
      Rib.highest (rescale k h.1, h.2) (hs.map fun h => (rescale k h.1, h.2)) =
        (rescale k (Rib.highest h hs).1, (Rib.highest h hs).2) := by
    intro h hs
    unfold Rib.highest
    induction hs generalizing h with
    | nil => rfl
    | cons a as ih =>
      simp only [List.map_cons, List.foldl_cons]
      have : ((rescale k h.1).z <. (rescale k a.1).z) = (h.1.z <. a.1.z) := by
        simp only [rescale, real_lt, decide_eq_decide]
        exact mul_lt_mul_iff_right₀ k0
      rw [this]
      split
      · exact ih a
      · exact ih h
  unfold Rib.samplingLineMesh
  rw [hhits]
  rcases Rib.samplingHits ts ⟨o, V3.neg V3.ez⟩ with _ | ⟨a, as⟩
  · rfl
  · simp only [List.map_cons, hhigh, Option.map_some]

/-- **C133, sampling method on flat ground**: in any unit of length the same contact is found, and the record is the same up to the unit. -/
theorem C133_sampling_flat {k : ℝ} (hk : 0 < k) {r r' : Rib ℝ} (hr : IsRib r) (hr' : IsRib r') (h : RescaledRib k r r') (pose : Affine ℝ)
    (g : Flat ℝ) : r'.envelopSamplingFlat (rescaleFlat k g) (rescalePose k pose) =
      ((r.envelopSamplingFlat g pose).1, rescaleRecord k (r.envelopSamplingFlat g pose).2) :=
  Rib.envelopSampling_rescale hk hr hr' h pose _ _ fun o => Rib.samplingLineFlat_rescale k g o _

/-- **C133, sampling method on a mesh**: the same from one unit to every smaller one, if in the first unit the vertical projection of every
triangle has an area of at least half the tolerance, or none. -/
theorem C133_sampling_mesh_partial {k : ℝ} (hk : 1 ≤ k) {r r' : Rib ℝ} (hr : IsRib r) (hr' : IsRib r') (h : RescaledRib k r r')
    (pose : Affine ℝ) {ts ts' : List (TriangleGround ℝ)} (ht : List.Forall₂ (RescaledTriangle k) ts ts') (hs : ∀ t ∈ ts, Sampled t) :
    r'.envelopSamplingMesh ts' (rescalePose k pose) =
      ((r.envelopSamplingMesh ts pose).1, rescaleRecord k (r.envelopSamplingMesh ts pose).2) :=
  Rib.envelopSampling_rescale (by linarith) hr hr' h pose _ _ fun o => Rib.samplingLineMesh_rescale hk ht hs o

/-! ## The geometric method on flat ground -/

theorem Spec.RescaledRib.ribCentre {k : ℝ} {r r' : Rib ℝ} (h : RescaledRib k r r') (hr : IsRib r) (hr' : IsRib r') (pose : Affine ℝ) :
    ribCentre (rescalePose k pose) r' = rescale k (ribCentre pose r) := by
  rw [← Rib.centerGrd_eq, ← Rib.centerGrd_eq, h.centerGrd hr hr']

/-- **C133, geometric method on flat ground**: a contact found in one unit is found in every smaller unit, and the record is the same up to
the unit. -/
theorem C133_geometric_flat_partial {k : ℝ} (hk : 1 ≤ k) {r r' : Rib ℝ} (hr : IsRib r) (hr' : IsRib r') (h : RescaledRib k r r')
    {pose : Affine ℝ} (hp : IsRigid pose) {f : ℝ} {o n : V3 ℝ} {g : Flat ℝ} (hg : Flat.make f o n = .ok g) {out : Output ℝ}
    (he : r.envelopGeometricFlat g pose = (true, out)) :
    r'.envelopGeometricFlat (rescaleFlat k g) (rescalePose k pose) = (true, rescaleRecord k out) := by
  have k0 : 0 < k := by linarith
  have k1 : 1 ≤ k ^ 2 := by nlinarith
  have heps := real_eps_pos
  have hn := Flat.make_unit hg
  have hn' : Unit3 (rescaleFlat k g).plane.normal := hn
  have hS : sinSq (rescaleFlat k g).plane.normal (rescalePose k pose).linear.c1 = sinSq g.plane.normal pose.linear.c1 := rfl
  have hH : height (rescaleFlat k g).plane (ribCentre (rescalePose k pose) r') = k * height g.plane (ribCentre pose r) := by
    rw [h.ribCentre hr hr']
    simp only [height, dot3, minus, rescaleFlat, rescale]; ring
  have hD : sectionDepth (rescaleFlat k g).plane (rescalePose k pose) r' = k * sectionDepth g.plane pose r := by
    unfold sectionDepth; rw [hS, hH, h.radius, abs_mul, abs_of_pos k0]; ring
  have hF : sectionFoot (rescaleFlat k g).plane (ribCentre (rescalePose k pose) r') (rescalePose k pose).linear.c1 =
      rescale k (sectionFoot g.plane (ribCentre pose r) pose.linear.c1) := by
    unfold sectionFoot
    rw [hS, hH, h.ribCentre hr hr']
    simp only [along, minus, dot3, rescaleFlat, rescalePose, rescale]
    congr 1 <;> ring
  rcases Rib.geometricFlat_closed hr hp hn with ⟨a1, a2⟩ | ⟨a1, a2⟩
  · rw [a2] at he
    have ho := (Prod.mk.inj he).2
    have hC : FlatContact (rescaleFlat k g).plane (rescalePose k pose) r' := by
      obtain ⟨c1, c2, c3⟩ := a1
      refine ⟨c1, ?_, ?_⟩
      · rw [hS, hH, h.radius]
        rw [show sinSq g.plane.normal pose.linear.c1 * (k * r.radius) ^ 2 - (k * height g.plane (Spec.ribCentre pose r)) ^ 2 =
          k ^ 2 * (sinSq g.plane.normal pose.linear.c1 * r.radius ^ 2 - height g.plane (Spec.ribCentre pose r) ^ 2) by ring]
        exact c2.trans (le_mul_of_one_le_left (heps.le.trans c2) k1)
      · rw [hS, hH, h.radius]
        rw [show (k * r.radius) ^ 2 - (k * height g.plane (Spec.ribCentre pose r)) ^ 2 / sinSq g.plane.normal pose.linear.c1 =
          k ^ 2 * (r.radius ^ 2 - height g.plane (Spec.ribCentre pose r) ^ 2 / sinSq g.plane.normal pose.linear.c1) by ring,
          Real.sqrt_mul (sq_nonneg k), Real.sqrt_sq k0.le]
        have := le_mul_of_one_le_left (Real.sqrt_nonneg (r.radius ^ 2 - height g.plane (Spec.ribCentre pose r) ^ 2 /
          sinSq g.plane.normal pose.linear.c1)) hk
        linarith
    rcases Rib.geometricFlat_closed hr' (show IsRigid (rescalePose k pose) from hp) hn' with ⟨b1, b2⟩ | ⟨b1, b2⟩
    · rw [b2, hD, hF, h.radius, h.width, Units.depthArea k0, Units.depthVolume k0, ← ho]; rfl
    · exact absurd hC b1
  · rw [a2] at he; cases (Prod.mk.inj he).1

/-! ## The geometric method on a mesh -/

namespace Units

/-- A segment in the new unit. -/
def seg (k : ℝ) (s : Segment ℝ) : Segment ℝ := ⟨rescale k s.v0, rescale k s.v1⟩

theorem seg_length {k : ℝ} (hk : 0 < k) (s : Segment ℝ) : (seg k s).length = k * s.length := by
  show V3.norm (V3.sub _ _) = _
  unfold seg
  rw [sub, norm hk]; rfl

theorem isApprox {k : ℝ} (hk : 0 < k) (a b : V3 ℝ) (tol : ℝ) : V3.isApprox (rescale k a) (rescale k b) tol = V3.isApprox a b tol := by
  have hk2 : 0 < k ^ 2 := by positivity
  unfold V3.isApprox
  rw [sub, sqNorm, sqNorm, sqNorm, min hk2, real_le, real_le, real_mul, real_mul, real_mul, decide_eq_decide,
    show tol * tol * (k ^ 2 * Scalar.min (V3.sqNorm a) (V3.sqNorm b)) = k ^ 2 * (tol * tol * Scalar.min (V3.sqNorm a) (V3.sqNorm b)) by ring]
  exact mul_le_mul_iff_right₀ hk2

theorem lineSegment {k : ℝ} (hk : 0 < k) (o d : V3 ℝ) (s : Segment ℝ) (tol : ℝ) :
    Inter.lineSegment ⟨rescale k o, d⟩ (seg k s) tol = (Inter.lineSegment ⟨o, d⟩ s tol).map (rescale k) := by
  have hu : (seg k s).toUnitVector = s.toUnitVector := by
    show V3.normalized (V3.sub _ _) = V3.normalized (V3.sub _ _)
    unfold seg
    rw [sub, normalized hk]
  have hv : (seg k s).toVector = rescale k s.toVector := by
    show V3.sub _ _ = _
    unfold seg
    rw [sub]; rfl
  have h0 : (seg k s).v0 = rescale k s.v0 := rfl
  unfold Inter.lineSegment
  simp only [hu, hv, h0, sub, cross, cross', neg, dot, dot', real_div]
  have e1 : ∀ a b : ℝ, k * (k * a) / (k * (k * b)) = a / b := fun a b => by rw [quot hk, quot hk]
  simp only [e1]
  simp only [mul_div_assoc, smul, add]
  split
  · rfl
  split <;> rfl

theorem planePlane {k : ℝ} (p q : Plane ℝ) (tol : ℝ) :
    Inter.planePlane ⟨rescale k p.origin, p.normal⟩ ⟨rescale k q.origin, q.normal⟩ tol =
      (Inter.planePlane p q tol).map fun l => ⟨rescale k l.origin, l.direction⟩ := by
  have hd : ∀ p : Plane ℝ, (⟨rescale k p.origin, p.normal⟩ : Plane ℝ).d = k * p.d := by
    intro p
    simp only [Plane.d, dot, real_neg]; ring
  unfold Inter.planePlane
  simp only [hd]
  split
  · rfl
  · simp only [Option.map_some, Option.some.injEq, Line.mk.injEq, and_true, ← add, ← smul]
    congr 2 <;> simp only [real_neg, real_mul, real_sub] <;> ring

theorem planeTriangle {k : ℝ} (hk : 0 < k) (p : Plane ℝ) {T T' : Triangle ℝ} (h0 : T'.v0 = rescale k T.v0)
    (h1 : T'.v1 = rescale k T.v1) (h2 : T'.v2 = rescale k T.v2) (tol : ℝ) :
    Inter.planeTriangle ⟨rescale k p.origin, p.normal⟩ T' tol =
      match Inter.planeTriangle p T tol with
      | .ok o => .ok (o.map (seg k))
      | .throw m => .throw m
      | .ub w => .ub w := by
  have hpl : T'.layingPlane = ⟨rescale k T.layingPlane.origin, T.layingPlane.normal⟩ := by
    have hn : T'.normal = T.normal := by
      unfold Triangle.normal
      rw [h0, h1, h2, sub, sub, cross, cross', normalized hk, normalized hk]
    unfold Triangle.layingPlane
    rw [hn]
    simp only [h0, h1, h2]
    try simp only [Triangle.centroid, h0, h1, h2, add, sdiv]
  have hs0 : T'.edge0 = seg k T.edge0 := by simp [Triangle.edge0, seg, h0, h1, h2]
  have hs1 : T'.edge1 = seg k T.edge1 := by simp [Triangle.edge1, seg, h0, h1, h2]
  have hs2 : T'.edge2 = seg k T.edge2 := by simp [Triangle.edge2, seg, h0, h1, h2]
  unfold Inter.planeTriangle
  rw [hpl, planePlane]
  rcases Inter.planePlane p T.layingPlane tol with _ | l
  · rfl
  simp only [Option.map_some]
  unfold Inter.lineTriangleSeg
  rw [hs0, hs1, hs2, lineSegment hk, lineSegment hk, lineSegment hk]
  have hl : (⟨l.origin, l.direction⟩ : Line ℝ) = l := rfl
  rw [hl]
  rcases Inter.lineSegment l T.edge0 tol with _ | p0 <;> rcases Inter.lineSegment l T.edge1 tol with _ | p1 <;>
    rcases Inter.lineSegment l T.edge2 tol with _ | p2 <;> simp only [Option.map_some, Option.map_none] <;> try rfl
  simp only [isApprox hk]
  split
  · rfl
  split
  · rfl
  split <;> rfl

end Units

/-- The number by which the code decides whether the line of a segment meets a disk: the square of half the length of the part of the line in
the disk, times the square of the length of the segment. -/
def Spec.sectionDisc (s : Segment ℝ) (c : V3 ℝ) (R : ℝ) : ℝ :=
  dot3 (minus s.v0 c) (minus s.v1 s.v0) ^ 2 - (dot3 (minus s.v0 c) (minus s.v0 c) - R ^ 2) * dot3 (minus s.v1 s.v0) (minus s.v1 s.v0)

/-- A scene that the geometric method resolves: radius and sections are above the tolerance. -/
structure Spec.Resolved (r : Rib ℝ) (pose : Affine ℝ) (ts : List (TriangleGround ℝ)) : Prop where
  radius : Scalar.eps ≤ r.radius
  cut : ∀ t ∈ ts, ∀ s, Inter.planeTriangle (r.diskGrd pose).layingPlane t.tri Scalar.eps = .ok (some s) →
    Scalar.eps ≤ dist3 s.v0 s.v1 ∧ Scalar.eps < |sectionDisc s (ribCentre pose r) r.radius|
  section_ : ∀ t ∈ ts, ∀ s, Inter.triangleDisk t.tri (r.diskGrd pose) Scalar.eps = .ok (some s) → Scalar.eps ≤ dist3 s.v0 s.v1

namespace Units

theorem length_eq (s : Segment ℝ) : s.length = dist3 s.v0 s.v1 := by
  show V3.norm (V3.sub s.v0 s.v1) = _
  rw [V3.norm_eq]; v3; rfl

theorem segmentDisk {k : ℝ} (hk : 1 ≤ k) (s : Segment ℝ) (R : ℝ) (c n : V3 ℝ) (hs : Scalar.eps ≤ dist3 s.v0 s.v1) (hR : Scalar.eps ≤ R)
    (hd : Scalar.eps < |sectionDisc s c R|) :
    Inter.segmentDisk (seg k s) ⟨k * R, ⟨rescale k c, n⟩⟩ Scalar.eps =
      (Inter.segmentDisk s ⟨R, ⟨c, n⟩⟩ Scalar.eps).map (seg k) := by
  have k0 : 0 < k := by linarith
  have heps := real_eps_pos
  have k4 : 1 ≤ k ^ 4 := one_le_pow₀ hk
  have d1 : (seg k s).isDegenerated (Scalar.eps : ℝ) = false := by
    show Scalar.isApprox (seg k s).length zero Scalar.eps = false
    rw [seg_length k0, length_eq]
    simp only [Scalar.isApprox, real_lt, real_abs, real_sub, real_zero, sub_zero, decide_eq_false_iff_not, not_lt]
    refine (hs.trans (le_mul_of_one_le_left (heps.le.trans hs) hk)).trans (le_abs_self _)
  have d2 : s.isDegenerated (Scalar.eps : ℝ) = false := by
    show Scalar.isApprox s.length zero Scalar.eps = false
    rw [length_eq]
    simp only [Scalar.isApprox, real_lt, real_abs, real_sub, real_zero, sub_zero, decide_eq_false_iff_not, not_lt]
    exact hs.trans (le_abs_self _)
  have d3 : (⟨k * R, ⟨rescale k c, n⟩⟩ : Disk ℝ).isDegenerated Scalar.eps = (⟨R, ⟨c, n⟩⟩ : Disk ℝ).isDegenerated Scalar.eps := by
    unfold Disk.isDegenerated
    congr 1
    simp only [Scalar.isApprox, real_lt, real_abs, real_sub, real_zero, sub_zero, decide_eq_decide]
    have a1 : Scalar.eps ≤ |R| := hR.trans (le_abs_self _)
    have a2 : Scalar.eps ≤ |k * R| := (hR.trans (le_mul_of_one_le_left (heps.le.trans hR) hk)).trans (le_abs_self _)
    exact ⟨fun h => absurd h (not_lt.2 a2), fun h => absurd h (not_lt.2 a1)⟩
  have hv : (seg k s).toVector = rescale k s.toVector := by
    show V3.sub _ _ = _
    unfold seg
    rw [sub]; rfl
  have h0 : (seg k s).v0 = rescale k s.v0 := rfl
  have hc : (⟨k * R, ⟨rescale k c, n⟩⟩ : Disk ℝ).center = rescale k c := rfl
  have hc' : (⟨R, ⟨c, n⟩⟩ : Disk ℝ).center = c := rfl
  unfold Inter.segmentDisk
  rw [d1, d2, d3]
  simp only [hv, h0, hc, hc', sub, dot, dot', real_mul, real_sub, real_neg, real_one, real_div, real_lt, real_abs, real_sqrt, real_add]
  have hdisc : V3.dot (V3.sub s.v0 c) s.toVector * V3.dot (V3.sub s.v0 c) s.toVector -
      (V3.dot (V3.sub s.v0 c) (V3.sub s.v0 c) - R * R) * V3.dot s.toVector s.toVector = sectionDisc s c R := by
    simp only [sectionDisc, Segment.toVector, minus, dot3]
    v3
    ring
  have hdisc' : k * (k * V3.dot (V3.sub s.v0 c) s.toVector) * (k * (k * V3.dot (V3.sub s.v0 c) s.toVector)) -
      (k * (k * V3.dot (V3.sub s.v0 c) (V3.sub s.v0 c)) - k * R * (k * R)) * (k * (k * V3.dot s.toVector s.toVector)) =
        k ^ 4 * sectionDisc s c R := by
    rw [← hdisc]; ring
  rw [hdisc, hdisc']
  generalize sectionDisc s c R = D at *
  generalize V3.dot (V3.sub s.v0 c) s.toVector = a1
  generalize V3.dot s.toVector s.toVector = a2
  have hsq : √(k ^ 4 * D) = k ^ 2 * √D := by
    rw [show k ^ 4 * D = (k ^ 2) ^ 2 * D by ring, Real.sqrt_mul (sq_nonneg _), Real.sqrt_sq (by positivity)]
  have hAbs : |k ^ 4 * D| = k ^ 4 * |D| := by rw [abs_mul, abs_of_nonneg (by positivity)]
  have n1 : ¬ |D| < Scalar.eps := not_lt.2 hd.le
  have n2 : ¬ |k ^ 4 * D| < Scalar.eps := by
    rw [hAbs, not_lt]; exact hd.le.trans (le_mul_of_one_le_left (abs_nonneg D) k4)
  have iff1 : k ^ 4 * D < -Scalar.eps ↔ D < -Scalar.eps := by
    rcases le_or_gt 0 D with hD | hD
    · have : 0 ≤ k ^ 4 * D := by positivity
      constructor <;> intro h <;> linarith
    · rw [abs_of_neg hD] at hd
      have h1 : k ^ 4 * D ≤ D := by nlinarith
      exact ⟨fun _ => by linarith, fun _ => by linarith⟩
  have hk2 : k ^ 2 ≠ 0 := by positivity
  have ht : ∀ x : ℝ, -(k * (k * a1) + x * (k ^ 2 * √D)) * (1 / (k * (k * a2))) = -(a1 + x * √D) * (1 / a2) := by
    intro x
    rw [show -(k * (k * a1) + x * (k ^ 2 * √D)) = k ^ 2 * -(a1 + x * √D) by ring, show k * (k * a2) = k ^ 2 * a2 by ring, mul_one_div,
      mul_one_div, mul_div_mul_left _ _ hk2]
  have ht1 : -(k * (k * a1) + k ^ 2 * √D) * (1 / (k * (k * a2))) = -(a1 + √D) * (1 / a2) := by simpa using ht 1
  have ht2 : -(k * (k * a1) - k ^ 2 * √D) * (1 / (k * (k * a2))) = -(a1 - √D) * (1 / a2) := by
    have := ht (-1)
    rwa [show k * (k * a1) + -1 * (k ^ 2 * √D) = k * (k * a1) - k ^ 2 * √D by ring, show a1 + -1 * √D = a1 - √D by ring] at this
  simp only [decide_eq_true_eq, iff1, if_neg n1, if_neg n2, hsq, ht1, ht2, smul', add]
  split
  · rfl
  split
  · rfl
  split <;> rfl

end Units

theorem Spec.RescaledRib.normalGrd {k : ℝ} {r r' : Rib ℝ} (hr : IsRib r) (hr' : IsRib r') (pose : Affine ℝ) :
    r'.normalGrd (rescalePose k pose) = r.normalGrd pose := by
  rw [Rib.normalGrd_eq hr', Rib.normalGrd_eq hr]; rfl

theorem Spec.RescaledRib.triangleDisk {k : ℝ} (hk : 1 ≤ k) {r r' : Rib ℝ} (hr : IsRib r) (hr' : IsRib r') (h : RescaledRib k r r')
    (pose : Affine ℝ) {t t' : TriangleGround ℝ} (ht : RescaledTriangle k t t') (hR : Scalar.eps ≤ r.radius)
    (hcut : ∀ s, Inter.planeTriangle (r.diskGrd pose).layingPlane t.tri Scalar.eps = .ok (some s) →
      Scalar.eps ≤ dist3 s.v0 s.v1 ∧ Scalar.eps < |sectionDisc s (Spec.ribCentre pose r) r.radius|) :
    Inter.triangleDisk t'.tri (r'.diskGrd (rescalePose k pose)) Scalar.eps =
      match Inter.triangleDisk t.tri (r.diskGrd pose) Scalar.eps with
      | .ok o => .ok (o.map (Units.seg k))
      | .throw m => .throw m
      | .ub w => .ub w := by
  have hD : r'.diskGrd (rescalePose k pose) = ⟨k * r.radius, ⟨rescale k (r.centerGrd pose), r.normalGrd pose⟩⟩ := by
    unfold Rib.diskGrd
    rw [h.radius, h.centerGrd hr hr', RescaledRib.normalGrd hr hr']
  unfold Inter.triangleDisk
  rw [hD]
  have hpt := Units.planeTriangle (k := k) (by linarith) ⟨r.centerGrd pose, r.normalGrd pose⟩ ht.v0 ht.v1 ht.v2 (Scalar.eps : ℝ)
  have e1 : (⟨k * r.radius, ⟨rescale k (r.centerGrd pose), r.normalGrd pose⟩⟩ : Disk ℝ).layingPlane =
      ⟨rescale k (r.centerGrd pose), r.normalGrd pose⟩ := rfl
  have e2 : (r.diskGrd pose).layingPlane = ⟨r.centerGrd pose, r.normalGrd pose⟩ := rfl
  rw [e2] at hcut ⊢
  rw [e1, hpt]
  rcases hs : Inter.planeTriangle ⟨r.centerGrd pose, r.normalGrd pose⟩ t.tri (Scalar.eps : ℝ) with o | m | w
  · rcases o with _ | s
    · rfl
    · obtain ⟨c1, c2⟩ := hcut s hs
      have := Units.segmentDisk hk s r.radius (r.centerGrd pose) (r.normalGrd pose) c1 hR (by rw [Rib.centerGrd_eq]; exact c2)
      show Res.ok (Inter.segmentDisk (Units.seg k s) _ _) = _
      rw [this]; rfl
  · rfl
  · rfl

namespace Units

theorem arg {k : ℝ} (hk : 0 < k) (x z : ℝ) : Complex.arg ⟨k * x, k * z⟩ = Complex.arg ⟨x, z⟩ := by
  have := Complex.arg_real_mul ⟨x, z⟩ hk
  rwa [show ((k : ℂ) * ⟨x, z⟩ : ℂ) = ⟨k * x, k * z⟩ by apply Complex.ext <;> simp] at this

/-- The contribution of a triangle in the new unit. -/
def contribution (k : ℝ) (c : Rib.Contrib ℝ) : Rib.Contrib ℝ :=
  ⟨k ^ 2 * c.area, k ^ 3 * c.volume, rescale k c.point, c.normal, c.friction⟩

/-- The accumulators in the new unit. -/
def accumulated (k : ℝ) (a : Rib.Acc ℝ) : Rib.Acc ℝ :=
  ⟨a.hit, k ^ 2 * a.area, k ^ 3 * a.volume, rescale (k ^ 4) a.point, rescale (k ^ 3) a.normal, k ^ 3 * a.friction⟩

theorem acc_add (k : ℝ) (a : Rib.Acc ℝ) (c : Rib.Contrib ℝ) :
    (accumulated k a).add (contribution k c) = accumulated k (a.add c) := by
  simp only [Rib.Acc.add, accumulated, contribution, real_add, real_mul, rescale, V3.real_add, V3.real_smul, Rib.Acc.mk.injEq, V3.mk.injEq,
    true_and]
  refine ⟨?_, ?_, ⟨?_, ?_, ?_⟩, ⟨?_, ?_, ?_⟩, ?_⟩ <;> ring

theorem acc_init (k : ℝ) : accumulated k Rib.Acc.init = Rib.Acc.init := by
  simp [accumulated, Rib.Acc.init, rescale, V3.zeros]

theorem contrib {k : ℝ} (hk : 1 ≤ k) {r r' : Rib ℝ} (hr : IsRib r) (hr' : IsRib r') (h : RescaledRib k r r') {pose : Affine ℝ}
    (hp : IsRigid pose) {t t' : TriangleGround ℝ} (ht : RescaledTriangle k t t') (hR : Scalar.eps ≤ r.radius) (s : Segment ℝ)
    (hs : Scalar.eps ≤ dist3 s.v0 s.v1) :
    r'.contrib (rescalePose k pose) t' (seg k s) = (r.contrib pose t s).map (contribution k) := by
  have k0 : 0 < k := by linarith
  have heps := real_eps_pos
  have hl : (seg k s).length = k * s.length := seg_length k0 s
  have hs' : Scalar.eps ≤ s.length := by rw [length_eq]; exact hs
  have hsk : Scalar.eps ≤ k * s.length := hs'.trans (le_mul_of_one_le_left (heps.le.trans hs') hk)
  have hlin : (rescalePose k pose).linear = pose.linear := rfl
  have htr : (rescalePose k pose).trans = rescale k pose.trans := rfl
  have hpa : ∀ v, M3.mulVec (M3.transpose pose.linear) (V3.sub (rescale k v) (r'.centerGrd (rescalePose k pose))) =
      rescale k (M3.mulVec (M3.transpose pose.linear) (V3.sub v (r.centerGrd pose))) := by
    intro v
    rw [h.centerGrd hr hr', sub, mulVec]
  have hseg : V3.norm (M3.mulVec (M3.transpose pose.linear) (V3.sub s.v0 (r.centerGrd pose))) +
      V3.norm (M3.mulVec (M3.transpose pose.linear) (V3.sub s.v1 (r.centerGrd pose))) ≥ s.length := by
    rw [IsRotation.norm_mulVec (IsRotation.transpose hp), IsRotation.norm_mulVec (IsRotation.transpose hp)]
    have := V3.norm_add_le (V3.sub s.v0 (r.centerGrd pose)) (V3.neg (V3.sub s.v1 (r.centerGrd pose)))
    have e1 : V3.add (V3.sub s.v0 (r.centerGrd pose)) (V3.neg (V3.sub s.v1 (r.centerGrd pose))) = V3.sub s.v0 s.v1 := by
      simp only [V3.real_add, V3.real_sub, V3.real_neg]; congr 1 <;> ring
    have e2 : V3.norm (V3.neg (V3.sub s.v1 (r.centerGrd pose))) = V3.norm (V3.sub s.v1 (r.centerGrd pose)) := by
      show √(V3.sqNorm _) = √(V3.sqNorm _)
      rw [show ∀ v : V3 ℝ, V3.sqNorm (V3.neg v) = V3.sqNorm v from fun v => by simp only [V3.real_sqNorm, V3.real_neg]; ring]
    rw [e1, e2] at this
    exact this
  unfold Rib.contrib
  simp only [hlin, htr, show (seg k s).v0 = rescale k s.v0 from rfl, show (seg k s).v1 = rescale k s.v1 from rfl, hpa, hl, h.radius, h.width,
    h.center hr hr', RescaledRib.normalGrd hr hr', ht.normal, ht.friction, norm k0]
  generalize M3.mulVec (M3.transpose pose.linear) (V3.sub s.v0 (r.centerGrd pose)) = pa at *
  generalize M3.mulVec (M3.transpose pose.linear) (V3.sub s.v1 (r.centerGrd pose)) = pb at *
  simp only [real_atan2, show ∀ v : V3 ℝ, (rescale k v).x = k * v.x from fun _ => rfl,
    show ∀ v : V3 ℝ, (rescale k v).z = k * v.z from fun _ => rfl, arg k0]
  generalize Complex.arg ⟨pa.x, pa.z⟩ = ta
  generalize Complex.arg ⟨pb.x, pb.z⟩ = tb
  have l1 : (s.length <. (Scalar.eps : ℝ)) = false := by rw [real_lt]; exact decide_eq_false (not_lt.2 hs')
  have l2 : (k * s.length <. (Scalar.eps : ℝ)) = false := by rw [real_lt]; exact decide_eq_false (not_lt.2 hsk)
  simp only [l1, l2, Bool.and_false, min k0]
  generalize hra : Scalar.min r.radius (V3.norm pa) = ra
  generalize hrb : Scalar.min r.radius (V3.norm pb) = rb
  have hna : 0 ≤ V3.norm pa := V3.norm_nonneg _
  have hnb : 0 ≤ V3.norm pb := V3.norm_nonneg _
  have hsum : Scalar.eps ≤ ra + rb := by
    rw [← hra, ← hrb, real_min, real_min]
    rcases le_total r.radius (V3.norm pa) with h1 | h1 <;> rcases le_total r.radius (V3.norm pb) with h2 | h2 <;>
      simp only [min_eq_left, min_eq_right, h1, h2] <;> linarith
  have m1 : Scalar.max (Scalar.eps : ℝ) (ra +. rb) = ra + rb := by rw [real_max, real_add]; exact max_eq_right hsum
  have m2 : Scalar.max (Scalar.eps : ℝ) (k * ra +. k * rb) = k * (ra + rb) := by
    rw [real_max, real_add, ← mul_add]
    exact max_eq_right (hsum.trans (le_mul_of_one_le_left (heps.le.trans hsum) hk))
  rw [m1, m2]
  generalize (if tb <. ta then tb else ta) = u
  generalize (if tb <. ta then ta else tb) = w
  have e1 : ∀ td : ℝ, two *. (k * ra) *. (k * rb) /. (k * (ra + rb)) *. Scalar.cos td = k * (two *. ra *. rb /. (ra + rb) *. Scalar.cos td) := by
    intro td
    simp only [real_mul, real_div, real_two]
    rw [show 2 * (k * ra) * (k * rb) = k * (k * (2 * ra * rb)) by ring, mul_div_mul_left _ _ k0.ne']; ring
  have e2 : ∀ x : ℝ, Scalar.min (k * r.radius) (Scalar.max zero (k * x)) = k * Scalar.min r.radius (Scalar.max zero x) := by
    intro x
    rw [← min k0, ← max k0, real_zero, mul_zero]
  simp only [e1, e2, smul, add, mulVec, Bool.false_eq_true, if_false, Option.map_some, contribution]
  simp only [Option.some.injEq, Rib.Contrib.mk.injEq, real_mul, real_sub, real_div, real_two, and_true]
  exact ⟨by ring, by ring⟩

theorem geomLoop {k : ℝ} (hk : 1 ≤ k) {r r' : Rib ℝ} (hr : IsRib r) (hr' : IsRib r') (h : RescaledRib k r r') {pose : Affine ℝ}
    (hp : IsRigid pose) {ts ts' : List (TriangleGround ℝ)} (ht : List.Forall₂ (RescaledTriangle k) ts ts') (hres : Resolved r pose ts)
    {acc a : Rib.Acc ℝ} (hl : r.geomLoop pose ts acc = .ok a) :
    r'.geomLoop (rescalePose k pose) ts' (accumulated k acc) = .ok (accumulated k a) := by
  induction ht generalizing acc with
  | nil => rw [Rib.geomLoop] at hl; cases hl; rfl
  | @cons t t' ts ts' h1 h2 ih =>
    have hres' : Resolved r pose ts := ⟨hres.radius, fun t ht => hres.cut t (List.mem_cons_of_mem _ ht),
      fun t ht => hres.section_ t (List.mem_cons_of_mem _ ht)⟩
    have htd := h.triangleDisk hk hr hr' pose h1 hres.radius (hres.cut t (by simp))
    rw [Rib.geomLoop] at hl ⊢
    rw [htd]
    rcases hd : Inter.triangleDisk t.tri (r.diskGrd pose) (Scalar.eps : ℝ) with o | m | w
    · rw [hd] at hl
      rcases o with _ | s
      · exact ih hres' hl
      · have hc := contrib hk hr hr' h hp h1 hres.radius s (hres.section_ t (by simp) s hd)
        simp only [Res.bind_ok, Option.map_some] at hl ⊢
        rw [hc]
        rcases hcc : r.contrib pose t s with _ | c
        · rw [hcc] at hl
          cases hl; rfl
        · rw [hcc] at hl
          simp only [Option.map_some, acc_add]
          exact ih hres' hl
    · rw [hd] at hl; cases hl
    · rw [hd] at hl; cases hl

end Units

/-- **C133, geometric method on a mesh**: a contact on sections above the tolerance is found in every smaller unit, and the record is the same
up to the unit. -/
theorem C133_geometric_mesh_partial {k : ℝ} (hk : 1 ≤ k) {r r' : Rib ℝ} (hr : IsRib r) (hr' : IsRib r') (h : RescaledRib k r r')
    {pose : Affine ℝ} (hp : IsRigid pose) {ts ts' : List (TriangleGround ℝ)} (ht : List.Forall₂ (RescaledTriangle k) ts ts')
    (hres : Resolved r pose ts) {out : Output ℝ} (he : r.envelopGeometricMesh ts pose = .ok (true, out)) :
    r'.envelopGeometricMesh ts' (rescalePose k pose) = .ok (true, rescaleRecord k out) := by
  have k0 : 0 < k := by linarith
  have heps := real_eps_pos
  unfold Rib.envelopGeometricMesh at he ⊢
  obtain ⟨a, hl, he⟩ := Res.bind_eq_ok.1 he
  have hl' := Units.geomLoop hk hr hr' h hp ht hres hl
  rw [Units.acc_init] at hl'
  rw [hl']
  simp only [Res.pure_eq, Res.bind_ok, Res.ok.injEq] at he ⊢
  unfold Rib.geomFinish at he ⊢
  by_cases hc : (a.hit && (Scalar.eps <. a.area || Scalar.eps <. a.volume)) = true
  · rw [if_pos hc] at he
    rw [if_pos]
    · have ho := (Prod.mk.inj he).2
      rw [← ho]
      have e1 : V3.sdiv (rescale (k ^ 4) a.point) (k ^ 3 * a.volume) = rescale k (V3.sdiv a.point a.volume) := by
        have e : ∀ x : ℝ, k ^ 4 * x / (k ^ 3 * a.volume) = k * (x / a.volume) := fun x => by
          rw [show k ^ 4 * x = k ^ 3 * (k * x) by ring, mul_div_mul_left _ _ (by positivity), mul_div_assoc]
        simp only [rescale, V3.real_sdiv, e]
      have e2 : V3.sdiv (rescale (k ^ 3) a.normal) (k ^ 3 * a.volume) = V3.sdiv a.normal a.volume := by
        have e : ∀ x : ℝ, k ^ 3 * x / (k ^ 3 * a.volume) = x / a.volume := fun x => mul_div_mul_left _ _ (by positivity)
        simp only [rescale, V3.real_sdiv, e]
      simp only [Units.accumulated, e1, e2, h.centerGrd hr hr', h.radius, Units.sub, Units.norm k0, rescaleRecord, real_sub, real_div,
        Prod.mk.injEq, Output.mk.injEq, true_and, and_true]
      exact ⟨mul_div_mul_left _ _ (by positivity), by ring⟩
    · simp only [Units.accumulated, Bool.and_eq_true, Bool.or_eq_true, real_lt, decide_eq_true_eq] at hc ⊢
      refine ⟨hc.1, hc.2.imp (fun h => ?_) fun h => ?_⟩
      · exact h.trans_le (le_mul_of_one_le_left (heps.le.trans h.le) (one_le_pow₀ hk))
      · exact h.trans_le (le_mul_of_one_le_left (heps.le.trans h.le) (one_le_pow₀ hk))
  · rw [if_neg hc] at he; cases (Prod.mk.inj he).1

end Enve
