import Verif.Props.MovedProps
import Verif.Props.TyreProps
import Verif.Props.RunProps
import Verif.Spec.Mirror

/-! # C99: the mirror image of a scene has the mirror image of the contact -/

namespace Enve

open Scalar Spec

theorem Spec.mirrorPose_apply (pose : Affine ℝ) (p : V3 ℝ) :
    (mirrorPose pose).apply p = mirror (pose.apply (mirror p)) := by
  simp only [mirrorPose, mirror, Affine.apply, M3.mulVec, V3.real_add, real_add, real_mul]
  congr 1 <;> ring

theorem Spec.mirrorPose_linear (pose : Affine ℝ) (p : V3 ℝ) :
    M3.mulVec (mirrorPose pose).linear p = mirror (M3.mulVec pose.linear (mirror p)) := by
  simp only [mirrorPose, mirror, M3.mulVec, real_add, real_mul]
  congr 1 <;> ring

theorem Spec.mirrorPose_rigid {pose : Affine ℝ} (h : IsRigid pose) : IsRigid (mirrorPose pose) := by
  have h0 := h.unit0
  have h1 : pose.linear.c1.x ^ 2 + pose.linear.c1.y ^ 2 + pose.linear.c1.z ^ 2 = 1 := IsRotation.unit1 h
  have h2 := h.unit2
  have h3 := h.orth01
  have h4 := h.orth02
  have h5 := h.orth12
  have h6 := h.det
  constructor <;> simp only [mirrorPose, mirror] <;> linarith

theorem Spec.mirror_mirror (v : V3 ℝ) : mirror (mirror v) = v := by simp [mirror]

theorem Spec.mirrorPose_mirrorPose (pose : Affine ℝ) : mirrorPose (mirrorPose pose) = pose := by
  simp [mirrorPose, mirror]

theorem Spec.mirror_add (a b : V3 ℝ) : V3.add (mirror a) (mirror b) = mirror (V3.add a b) := by
  simp only [mirror, V3.real_add]; congr 1; ring

theorem Spec.mirror_sub (a b : V3 ℝ) : V3.sub (mirror a) (mirror b) = mirror (V3.sub a b) := by
  simp only [mirror, V3.real_sub]; congr 1; ring

theorem Spec.mirror_smul (k : ℝ) (a : V3 ℝ) : V3.smul k (mirror a) = mirror (V3.smul k a) := by
  simp only [mirror, V3.real_smul]; congr 1; ring

theorem Spec.mirror_sdiv (k : ℝ) (a : V3 ℝ) : V3.sdiv (mirror a) k = mirror (V3.sdiv a k) := by
  simp only [mirror, V3.real_sdiv]; congr 1; ring

theorem Spec.mirror_dot (a b : V3 ℝ) : V3.dot (mirror a) (mirror b) = V3.dot a b := by
  simp only [mirror, V3.real_dot]; ring

theorem Spec.mirror_norm (a : V3 ℝ) : V3.norm (mirror a) = V3.norm a := by
  simp only [mirror, V3.real_norm]; congr 1; ring

theorem Spec.mirror_cross (a b : V3 ℝ) : V3.cross (mirror a) (mirror b) = mirror (V3.neg (V3.cross a b)) := by
  simp only [mirror, V3.real_cross, V3.real_neg]; congr 1 <;> ring

theorem Spec.mirror_normalized (a : V3 ℝ) : V3.normalized (mirror a) = mirror (V3.normalized a) := by
  have e : V3.sqNorm (mirror a) = V3.sqNorm a := by simp only [mirror, V3.real_sqNorm]; ring
  unfold V3.normalized
  rw [e]
  split
  · exact mirror_sdiv _ _
  · rfl

theorem Spec.neg_normalized (a : V3 ℝ) : V3.normalized (V3.neg a) = V3.neg (V3.normalized a) := by
  have e : V3.sqNorm (V3.neg a) = V3.sqNorm a := by simp only [V3.real_neg, V3.real_sqNorm]; ring
  unfold V3.normalized
  rw [e]
  split
  · simp only [V3.real_neg, V3.real_sdiv]; congr 1 <;> ring
  · rfl

theorem Spec.neg_cross_left (a b : V3 ℝ) : V3.cross (V3.neg a) b = V3.neg (V3.cross a b) := by
  simp only [V3.real_cross, V3.real_neg]; congr 1 <;> ring

theorem Spec.neg_cross_right (a b : V3 ℝ) : V3.cross a (V3.neg b) = V3.neg (V3.cross a b) := by
  simp only [V3.real_cross, V3.real_neg]; congr 1 <;> ring

theorem Spec.neg_neg3 (a : V3 ℝ) : V3.neg (V3.neg a) = a := by simp [V3.real_neg]

theorem Spec.MirrorRib.center {r r' : Rib ℝ} (h : MirrorRib r r') (hr : IsRib r) (hr' : IsRib r') :
    r'.center = mirror r.center := by
  have e : r.center = ⟨0, r.y, 0⟩ := hr.center
  have e' : r'.center = ⟨0, r'.y, 0⟩ := hr'.center
  rw [e, e', h.y]; rfl

theorem Spec.MirrorRib.centerGrd {r r' : Rib ℝ} (h : MirrorRib r r') (hr : IsRib r) (hr' : IsRib r') (pose : Affine ℝ) :
    r'.centerGrd (mirrorPose pose) = mirror (r.centerGrd pose) := by
  unfold Rib.centerGrd
  rw [h.center hr hr', mirrorPose_linear, mirror_mirror, ← mirror_add]
  rfl

theorem Spec.MirrorRib.noContact {r r' : Rib ℝ} (h : MirrorRib r r') (hr : IsRib r) (hr' : IsRib r') (pose : Affine ℝ) :
    r'.noContact (mirrorPose pose) = mirrorRecord (r.noContact pose) := by
  have hz : V3.smul r.radius (V3.ez : V3 ℝ) = mirror (V3.smul r.radius V3.ez) := by
    simp [mirror, V3.real_smul, V3.ez]
  have hz' : (V3.ez : V3 ℝ) = mirror V3.ez := by simp [mirror, V3.ez]
  unfold Rib.noContact mirrorRecord
  simp only [Output.mk.injEq, and_true]
  constructor
  · rw [h.center hr hr', h.radius, hz, mirror_sub, mirrorPose_linear, mirror_mirror, ← mirror_add, ← hz]
    rfl
  · rw [mirrorPose_linear, ← hz']

/-! ## The geometric method on flat ground -/

/-- **C99, one rib, geometric method on flat ground.** -/
theorem C99_geometric_flat {r r' : Rib ℝ} (hr : IsRib r) (hr' : IsRib r') (h : MirrorRib r r') {pose : Affine ℝ}
    (hp : IsRigid pose) {f : ℝ} {o n : V3 ℝ} {g : Flat ℝ} (hg : Flat.make f o n = .ok g) :
    r'.envelopGeometricFlat (mirrorFlat g) (mirrorPose pose) =
      ((r.envelopGeometricFlat g pose).1, mirrorRecord (r.envelopGeometricFlat g pose).2) := by
  have hn := Flat.make_unit hg
  have hn' : Unit3 (mirrorFlat g).plane.normal := by
    unfold Unit3 at *
    simp only [mirrorFlat, mirror]; linarith
  have hcen : ribCentre (mirrorPose pose) r' = mirror (ribCentre pose r) := by
    unfold ribCentre
    rw [h.center hr hr', mirrorPose_apply, mirror_mirror]
  have hS : sinSq (mirrorFlat g).plane.normal (mirrorPose pose).linear.c1 = sinSq g.plane.normal pose.linear.c1 := by
    simp only [sinSq, dot3, mirrorFlat, mirrorPose, mirror]; ring
  have hH : height (mirrorFlat g).plane (ribCentre (mirrorPose pose) r') = height g.plane (ribCentre pose r) := by
    rw [hcen]
    simp only [height, dot3, minus, mirrorFlat, mirror]; ring
  have hC : FlatContact (mirrorFlat g).plane (mirrorPose pose) r' ↔ FlatContact g.plane pose r := by
    unfold FlatContact; rw [hS, hH, h.radius]
  have hD : sectionDepth (mirrorFlat g).plane (mirrorPose pose) r' = sectionDepth g.plane pose r := by
    unfold sectionDepth; rw [hS, hH, h.radius]
  have hF : sectionFoot (mirrorFlat g).plane (ribCentre (mirrorPose pose) r') (mirrorPose pose).linear.c1 =
      mirror (sectionFoot g.plane (ribCentre pose r) pose.linear.c1) := by
    unfold sectionFoot
    rw [hS, hH, hcen]
    simp only [along, minus, dot3, mirrorFlat, mirrorPose, mirror]
    congr 1 <;> ring
  rcases Rib.geometricFlat_closed hr hp hn with ⟨a1, a2⟩ | ⟨a1, a2⟩ <;>
  rcases Rib.geometricFlat_closed hr' (mirrorPose_rigid hp) hn' with ⟨b1, b2⟩ | ⟨b1, b2⟩
  · rw [a2, b2, hD, hF, h.radius, h.width]; rfl
  · exact absurd (hC.2 a1) b1
  · exact absurd (hC.1 b1) a1
  · rw [a2, b2, h.noContact hr hr']

/-! ## The sampling method -/

/-- The mirror image of a vertical line. -/
def Spec.mirrorLine (l : Line ℝ) : Line ℝ := ⟨mirror l.origin, mirror l.direction⟩

/-- Evaluation by sampling, when the samples of the mirrored lines are the mirrored samples. -/
theorem Rib.envelopSampling_mirror {r r' : Rib ℝ} (hr : IsRib r) (hr' : IsRib r') (h : MirrorRib r r') (pose : Affine ℝ)
    (f f' : Line ℝ → Option (V3 ℝ × ℝ))
    (hf : ∀ l : Line ℝ, f' (mirrorLine l) = (f l).map fun h => (mirror h.1, h.2)) :
    (r'.envelopSampling f' (mirrorPose pose)) =
      ((r.envelopSampling f pose).1, mirrorRecord (r.envelopSampling f pose).2) := by
  have hd : V3.neg (V3.ez : V3 ℝ) = mirror (V3.neg V3.ez) := by simp [mirror, V3.real_neg, V3.ez]
  have hplace : ∀ x : V3 ℝ, V3.add (mirrorPose pose).trans (M3.mulVec (mirrorPose pose).linear x) =
      mirror (V3.add pose.trans (M3.mulVec pose.linear (mirror x))) := by
    intro x
    rw [mirrorPose_linear, ← mirror_add]; rfl
  have hl : ∀ x : V3 ℝ, f' ⟨V3.add (mirrorPose pose).trans (M3.mulVec (mirrorPose pose).linear x), V3.neg V3.ez⟩ =
      (f ⟨V3.add pose.trans (M3.mulVec pose.linear (mirror x)), V3.neg V3.ez⟩).map fun h => (mirror h.1, h.2) := by
    intro x
    rw [← hf, hplace]
    conv_lhs => rw [hd]
    rfl
  have x1 : mirror (V3.add r'.center (V3.smul (lit 1 10 *. r'.radius) V3.ex)) =
      V3.add r.center (V3.smul (lit 1 10 *. r.radius) V3.ex) := by
    rw [h.center hr hr', h.radius]; simp [mirror, V3.real_add, V3.real_smul, V3.ex]
  have x2 : mirror (V3.sub r'.center (V3.smul (lit 1 10 *. r'.radius) V3.ex)) =
      V3.sub r.center (V3.smul (lit 1 10 *. r.radius) V3.ex) := by
    rw [h.center hr hr', h.radius]; simp [mirror, V3.real_sub, V3.real_smul, V3.ex]
  have x3 : mirror (V3.add r'.center (V3.smul (lit 3 10 *. r'.width) V3.ey)) =
      V3.sub r.center (V3.smul (lit 3 10 *. r.width) V3.ey) := by
    rw [h.center hr hr', h.width]; simp [mirror, V3.real_add, V3.real_sub, V3.real_smul, V3.ey]; ring
  have x4 : mirror (V3.sub r'.center (V3.smul (lit 3 10 *. r'.width) V3.ey)) =
      V3.add r.center (V3.smul (lit 3 10 *. r.width) V3.ey) := by
    rw [h.center hr hr', h.width]; simp [mirror, V3.real_add, V3.real_sub, V3.real_smul, V3.ey]; ring
  have hc1 : (mirrorPose pose).linear.c1 = mirror (V3.neg pose.linear.c1) := by
    simp [mirrorPose, mirror, V3.real_neg]
  unfold Rib.envelopSampling
  simp only [Rib.lineXp, Rib.lineXm, Rib.lineYp, Rib.lineYm, hl, x1, x2, x3, x4, h.noContact hr hr']
  rcases f ⟨V3.add pose.trans (M3.mulVec pose.linear (V3.add r.center (V3.smul (lit 1 10 *. r.radius) V3.ex))),
    V3.neg V3.ez⟩ with _ | ⟨p0, f0⟩
  · simp only [Option.map_none]
  rcases f ⟨V3.add pose.trans (M3.mulVec pose.linear (V3.sub r.center (V3.smul (lit 1 10 *. r.radius) V3.ex))),
    V3.neg V3.ez⟩ with _ | ⟨p1, f1⟩
  · simp only [Option.map_none, Option.map_some]
  rcases f ⟨V3.add pose.trans (M3.mulVec pose.linear (V3.add r.center (V3.smul (lit 3 10 *. r.width) V3.ey))),
    V3.neg V3.ez⟩ with _ | ⟨p2, f2⟩
  · rcases f ⟨V3.add pose.trans (M3.mulVec pose.linear (V3.sub r.center (V3.smul (lit 3 10 *. r.width) V3.ey))),
      V3.neg V3.ez⟩ with _ | ⟨p3, f3⟩ <;> simp only [Option.map_none, Option.map_some]
  rcases f ⟨V3.add pose.trans (M3.mulVec pose.linear (V3.sub r.center (V3.smul (lit 3 10 *. r.width) V3.ey))),
    V3.neg V3.ez⟩ with _ | ⟨p3, f3⟩
  · simp only [Option.map_none, Option.map_some]
  have hmean : V3.sdiv (V3.add (V3.add (V3.add (mirror p0) (mirror p1)) (mirror p3)) (mirror p2)) (lit 4 1) =
      mirror (V3.sdiv (V3.add (V3.add (V3.add p0 p1) p2) p3) (lit 4 1)) := by
    simp only [mirror, V3.real_add, V3.real_sdiv]
    congr 1 <;> ring
  have hnorm : V3.normalized (V3.cross (V3.sub (mirror p0) (mirror p1)) (V3.sub (mirror p3) (mirror p2))) =
      mirror (V3.normalized (V3.cross (V3.sub p0 p1) (V3.sub p2 p3))) := by
    have e : V3.sub p3 p2 = V3.neg (V3.sub p2 p3) := by
      simp only [V3.real_sub, V3.real_neg]; congr 1 <;> ring
    rw [mirror_sub, mirror_sub, mirror_cross, e, neg_cross_right, neg_neg3, mirror_normalized]
  have hfr : (f0 +. f1 +. f3 +. f2) /. lit 4 1 = (f0 +. f1 +. f2 +. f3) /. lit 4 1 := by
    simp only [real_add, real_div]; congr 1; ring
  have hcg := h.centerGrd hr hr' pose
  simp only [Option.map_some, hmean, hnorm, hc1, hcg, hfr, h.radius, h.width]
  generalize V3.normalized (V3.cross (V3.sub p0 p1) (V3.sub p2 p3)) = N
  have hez : V3.normalized (V3.cross (V3.normalized (mirror (V3.neg pose.linear.c1)))
      (V3.normalized (V3.cross (mirror N) (V3.normalized (mirror (V3.neg pose.linear.c1)))))) =
      mirror (V3.normalized (V3.cross (V3.normalized pose.linear.c1)
        (V3.normalized (V3.cross N (V3.normalized pose.linear.c1))))) := by
    simp only [mirror_normalized, neg_normalized, mirror_cross, neg_cross_left, neg_cross_right, neg_neg3]
  simp only [hez, mirror_dot, mirror_sub, mirror_norm]
  split <;> rfl

theorem Rib.samplingLineFlat_mirror (g : Flat ℝ) (l : Line ℝ) :
    Rib.samplingLineFlat (mirrorFlat g) (mirrorLine l) =
      (Rib.samplingLineFlat g l).map fun h => (mirror h.1, h.2) := by
  unfold Rib.samplingLineFlat Inter.linePlane
  simp only [mirrorFlat, mirrorLine, mirror_dot, mirror_sub, mirror_smul, mirror_add]
  split <;> rfl

theorem Inter.lineTriangle_mirror (l : Line ℝ) (T : Triangle ℝ) (tol : ℝ) :
    Inter.lineTriangle (mirrorLine l) ⟨mirror T.v0, mirror T.v1, mirror T.v2⟩ tol =
      (Inter.lineTriangle l T tol).map mirror := by
  have h1 : ∀ a b c : V3 ℝ, V3.dot (mirror a) (V3.cross (mirror b) (mirror c)) = -V3.dot a (V3.cross b c) := by
    intro a b c
    simp only [mirror, V3.real_dot, V3.real_cross]; ring
  unfold Inter.lineTriangle
  simp only [mirrorLine, mirror_sub, h1]
  have e : ∀ a : ℝ, ((-. tol) <. -a && -a <. tol) = ((-. tol) <. a && a <. tol) := by
    intro a
    simp only [real_lt, real_neg]
    rw [Bool.and_comm]
    congr 1 <;> rw [decide_eq_decide] <;> constructor <;> intro h <;> linarith
  have e2 : ∀ a b : ℝ, one /. -a *. -b = one /. a *. b := by
    intro a b
    simp only [real_div, real_mul, real_one]
    rw [div_neg, neg_mul_neg]
  simp only [e, e2, mirror_smul, mirror_add]
  split
  · rfl
  split
  · rfl
  split <;> rfl

theorem Rib.samplingLineMesh_mirror {ts ts' : List (TriangleGround ℝ)} (h : List.Forall₂ MirrorTriangle ts ts')
    (l : Line ℝ) :
    Rib.samplingLineMesh ts' (mirrorLine l) = (Rib.samplingLineMesh ts l).map fun h => (mirror h.1, h.2) := by
  have hhits : Rib.samplingHits ts' (mirrorLine l) = (Rib.samplingHits ts l).map fun h => (mirror h.1, h.2) := by
    unfold Rib.samplingHits
    induction h with
    | nil => rfl
    | @cons t t' ts ts' ht hts ih =>
      have e : t'.tri = ⟨mirror t.tri.v0, mirror t.tri.v1, mirror t.tri.v2⟩ := by
        rw [← ht.v0, ← ht.v1, ← ht.v2]
      rw [List.filterMap_cons, List.filterMap_cons, e, Inter.lineTriangle_mirror, ht.friction, ih]
      rcases Inter.lineTriangle l t.tri Scalar.eps with _ | p <;> rfl
  have hhigh : ∀ (h : V3 ℝ × ℝ) (hs : List (V3 ℝ × ℝ)),
      Rib.highest (mirror h.1, h.2) (hs.map fun h => (mirror h.1, h.2)) =
        (mirror (Rib.highest h hs).1, (Rib.highest h hs).2) := by
    intro h hs
    unfold Rib.highest
    induction hs generalizing h with
    | nil => rfl
    | cons a as ih =>
      simp only [List.map_cons, List.foldl_cons]
      have : ((mirror h.1).z <. (mirror a.1).z) = (h.1.z <. a.1.z) := rfl
      rw [this]
      split
      · exact ih a
      · exact ih h
  unfold Rib.samplingLineMesh
  rw [hhits]
  rcases Rib.samplingHits ts l with _ | ⟨a, as⟩
  · rfl
  · simp only [List.map_cons, hhigh, Option.map_some]

/-- **C99, one rib, sampling method**, on flat ground and on every mesh. -/
theorem C99_sampling {r r' : Rib ℝ} (hr : IsRib r) (hr' : IsRib r') (h : MirrorRib r r') (pose : Affine ℝ) :
    (∀ g : Flat ℝ, r'.envelopSamplingFlat (mirrorFlat g) (mirrorPose pose) =
      ((r.envelopSamplingFlat g pose).1, mirrorRecord (r.envelopSamplingFlat g pose).2)) ∧
    ∀ ts ts' : List (TriangleGround ℝ), List.Forall₂ MirrorTriangle ts ts' →
      r'.envelopSamplingMesh ts' (mirrorPose pose) =
        ((r.envelopSamplingMesh ts pose).1, mirrorRecord (r.envelopSamplingMesh ts pose).2) :=
  ⟨fun g => Rib.envelopSampling_mirror hr hr' h pose _ _ (Rib.samplingLineFlat_mirror g),
    fun _ _ ht => Rib.envelopSampling_mirror hr hr' h pose _ _ (Rib.samplingLineMesh_mirror ht)⟩

/-! ## The whole tyre -/

/-- The ribs of the shell are symmetric to its middle: rib `n - 1 - i` is the mirror image of rib `i`. -/
def Spec.SymmetricTyre (s : Shell ℝ) : Prop :=
  ∀ (i : Nat) (r : Rib ℝ), s.ribs[i]? = some r → ∃ r', s.ribs[s.size - 1 - i]? = some r' ∧ MirrorRib r r'

theorem Spec.SymmetricTyre.of_ribs {s s' : Shell ℝ} (h : SymmetricTyre s) (e : s'.ribs = s.ribs) : SymmetricTyre s' := by
  unfold SymmetricTyre Shell.size at *
  rw [e]; exact h

/-- **C99, tyres are symmetric**: every shell that is resized on a valid profile, and every new one. -/
theorem C99_symmetric (fresh : Nat → Output ℝ) {n : Nat} (hn : 1 ≤ n) :
    (∀ (pol : Policy) (s s' : Shell ℝ), s.Reachable pol → s.shape.Valid → s.resize fresh n = .ok s' () →
      SymmetricTyre s') ∧
    ∀ (rx mx ry my ly : ℝ) (s : Shell ℝ), ValidProfile rx mx ry my ly → Shell.make fresh n rx mx ry my ly = .ok s →
      SymmetricTyre s := by
  have key : ∀ s s' : Shell ℝ, (∀ r ∈ s'.ribs, IsRib r) → s.shape.Valid → s.resize fresh n = .ok s' () →
      SymmetricTyre s' := by
    intro s s' hisr hv hs
    obtain ⟨s1, y, w, rad, h1, h2, h3, -, -, -, h4⟩ := C04_ribs_tile_width fresh s hv n hn
    rw [hs] at h1
    cases h1
    intro i r hr
    have hi : i < n := by rw [← h2]; exact (List.getElem?_eq_some_iff.1 hr).1
    have hj : n - 1 - i < n := by omega
    obtain ⟨r', hr'⟩ : ∃ r', s'.ribs[n - 1 - i]? = some r' := by
      have : n - 1 - i < s'.ribs.length := by rw [show s'.ribs.length = n from h2]; exact hj
      exact ⟨_, List.getElem?_eq_getElem this⟩
    obtain ⟨c1, c2, c3⟩ := h3 i hi
    obtain ⟨d1, d2, d3⟩ := h3 _ hj
    obtain ⟨m1, m2, m3⟩ := h4 i hi
    simp only [Shell.ribCenter, Shell.ribWidth, Shell.ribRadius, Shell.ribAt, hr, hr', Res.bind_ok, Res.pure_eq,
      Res.ok.injEq] at c1 c2 c3 d1 d2 d3
    have e1 : r.center = ⟨0, r.y, 0⟩ := (hisr r (List.mem_of_getElem? hr)).center
    have e2 : r'.center = ⟨0, r'.y, 0⟩ := (hisr r' (List.mem_of_getElem? hr')).center
    rw [c1] at e1
    rw [d1] at e2
    refine ⟨r', by rw [h2]; exact hr', ?_, by rw [d3, c3, m3], by rw [d2, c2, m2]⟩
    have e1 := congrArg V3.y e1
    have e2 := congrArg V3.y e2
    dsimp only at e1 e2
    rw [← e1, ← e2, m1]
  refine ⟨fun pol s s' hreach hv hs => key s s' (Shell.Reachable.resize hreach (.inl hs)).isRib hv hs,
    fun rx mx ry my ly s hv hs => ?_⟩
  have hisr := (Shell.Reachable.make (pol := .raw) hs).isRib
  obtain ⟨s0, s1, rfl, hr, rfl⟩ := Shell.make_ok hs
  refine SymmetricTyre.of_ribs (s := s1) (key _ s1 hisr ?_ hr) rfl
  exact hv

/-- The reports of `s'` are the mirror image of those of `s`: the wheel is in the mirrored pose, and rib `n - 1 - i`
reports the mirror image of what rib `i` reports (up to the friction). -/
structure Spec.MirrorShell (pol : Policy) (s s' : Shell ℝ) : Prop where
  size : s'.size = s.size
  pose : s'.pose = mirrorPose s.pose
  records : ∀ i < s.size, ∃ o o', s.out.read pol i = .ok o ∧ s'.out.read pol (s.size - 1 - i) = .ok o' ∧
    MirrorGeometry o o'

/-- The frictions are the same, too. -/
def Spec.MirrorFriction (pol : Policy) (s s' : Shell ℝ) : Prop :=
  ∀ i < s.size, ∃ o o', s.out.read pol i = .ok o ∧ s'.out.read pol (s.size - 1 - i) = .ok o' ∧ o'.friction = o.friction

/-- **C99, the tyre on flat ground**, both methods. -/
theorem C99_setup_flat {pol : Policy} {s sA sB : Shell ℝ} (hreach : s.Reachable pol) (hsym : SymmetricTyre s)
    {pose : Affine ℝ} (hp : IsRigid pose) {f : ℝ} {o n : V3 ℝ} {g : Flat ℝ} (hg : Flat.make f o n = .ok g)
    {method : String} {b b' : Bool} (hA : s.setupFlat pol g pose method = .ok sA b)
    (hB : s.setupFlat pol (mirrorFlat g) (mirrorPose pose) method = .ok sB b') :
    MirrorShell pol sA sB ∧ MirrorFriction pol sA sB := by
  have e1 := Shell.setupFlat_rel (.inl ⟨b, hA⟩)
  have e2 := Shell.setupFlat_rel (.inl ⟨b', hB⟩)
  have z1 : sA.size = s.size := by unfold Shell.size; rw [e1.ribs]
  have z2 : sB.size = s.size := by unfold Shell.size; rw [e2.ribs]
  have hpA : sA.pose = pose := by rw [e1.pose]
  have hpB : sB.pose = mirrorPose pose := by rw [e2.pose]
  obtain ⟨f1, r1, a1, -⟩ := C38_flat_flag_partial pol s sA g pose method b hA
  obtain ⟨f2, r2, a2, -⟩ := C38_flat_flag_partial pol s sB _ _ method b' hB
  have key : ∀ i < s.size, sA.out.read pol i = .ok (r1 i) ∧ sB.out.read pol (s.size - 1 - i) = .ok (r2 (s.size - 1 - i)) ∧
      r2 (s.size - 1 - i) = mirrorRecord (r1 i) := by
    intro i hi
    obtain ⟨r, g1, g2, g3⟩ := a1 i hi
    obtain ⟨r', g1', g2', g3'⟩ := a2 (s.size - 1 - i) (by omega)
    refine ⟨g3, g3', ?_⟩
    have q1 : s.ribs[i]? = some r := by rw [← g1]; exact congrArg (·[i]?) e1.ribs.symm
    have q2 : s.ribs[s.size - 1 - i]? = some r' := by rw [← g1']; exact congrArg (·[s.size - 1 - i]?) e2.ribs.symm
    obtain ⟨r'', q3, hmr⟩ := hsym i r q1
    rw [q2] at q3
    cases q3
    have hr := hreach.isRib r (List.mem_of_getElem? q1)
    have hr' := hreach.isRib r' (List.mem_of_getElem? q2)
    have g2 : r.envelopFlat g pose method = .ok (f1 i, r1 i) := g2
    have g2' : r'.envelopFlat (mirrorFlat g) (mirrorPose pose) method = .ok (f2 _, r2 _) := g2'
    unfold Rib.envelopFlat at g2 g2'
    by_cases h1 : method = "geometric"
    · rw [if_pos h1] at g2 g2'
      rw [C99_geometric_flat hr hr' hmr hp hg, Res.ok.inj g2] at g2'
      exact (Prod.mk.inj (Res.ok.inj g2')).2.symm
    · rw [if_neg h1] at g2 g2'
      by_cases h2 : method = "sampling"
      · rw [if_pos h2] at g2 g2'
        rw [(C99_sampling hr hr' hmr pose).1 g, Res.ok.inj g2] at g2'
        exact (Prod.mk.inj (Res.ok.inj g2')).2.symm
      · rw [if_neg h2] at g2; cases g2
  refine ⟨⟨by rw [z1, z2], by rw [hpA, hpB], ?_⟩, ?_⟩
  · intro i hi
    rw [z1] at hi ⊢
    obtain ⟨k1, k2, k3⟩ := key i hi
    exact ⟨_, _, k1, k2, by rw [k3]; exact ⟨rfl, rfl, rfl, rfl, rfl⟩⟩
  · intro i hi
    rw [z1] at hi ⊢
    obtain ⟨k1, k2, k3⟩ := key i hi
    exact ⟨_, _, k1, k2, by rw [k3]; rfl⟩

theorem Spec.mirror_filter {ts ts' : List (TriangleGround ℝ)} (h : List.Forall₂ MirrorTriangle ts ts')
    (p p' : TriangleGround ℝ → Bool) (hp : ∀ t ∈ ts, ∀ t' ∈ ts', MirrorTriangle t t' → p' t' = p t) :
    List.Forall₂ MirrorTriangle (ts.filter p) (ts'.filter p') := by
  induction h with
  | nil => exact .nil
  | @cons a b l l' hab _ ih =>
    have e := hp a (by simp) b (by simp) hab
    have ih := ih fun t ht t' ht' => hp t (by simp [ht]) t' (by simp [ht'])
    cases hc : p a
    · rw [List.filter_cons_of_neg (by simp [hc]), List.filter_cons_of_neg (by simp [e, hc])]; exact ih
    · rw [List.filter_cons_of_pos hc, List.filter_cons_of_pos (by rw [e]; exact hc)]; exact .cons hab ih

theorem Shell.near_mirror {s : Shell ℝ} (pose : Affine ℝ) {t t' : TriangleGround ℝ} (h : MirrorTriangle t t')
    (ht : t.Constructed) (ht' : t'.Constructed) (hx : 0 ≤ s.shape.rx) :
    t'.bbox.intersects (s.transform (mirrorPose pose)).updateBBox.bbox =
      t.bbox.intersects (s.transform pose).updateBBox.bbox := by
  have f1 := Shell.updateBBox_follows (s.transform pose) hx
  have f2 := Shell.updateBBox_follows (s.transform (mirrorPose pose)) hx
  have hb : ∀ (u : TriangleGround ℝ), u.Constructed → u.bbox.min = ⟨Min.min u.tri.v0.x (Min.min u.tri.v1.x u.tri.v2.x),
      Min.min u.tri.v0.y (Min.min u.tri.v1.y u.tri.v2.y), Min.min u.tri.v0.z (Min.min u.tri.v1.z u.tri.v2.z)⟩ ∧
      u.bbox.max = ⟨Max.max u.tri.v0.x (Max.max u.tri.v1.x u.tri.v2.x),
      Max.max u.tri.v0.y (Max.max u.tri.v1.y u.tri.v2.y), Max.max u.tri.v0.z (Max.max u.tri.v1.z u.tri.v2.z)⟩ := by
    rintro u ⟨i, f, p0, p1, p2, hu⟩
    by_cases hf : 0 ≤ f
    · simp [TriangleGround.make, hf] at hu
      subst hu
      simp [TriangleGround.updateBBox, TriangleGround.updateNormal, Box.clamp]
    · simp [TriangleGround.make, hf] at hu
  obtain ⟨m1, M1⟩ := hb t ht
  obtain ⟨m2, M2⟩ := hb t' ht'
  rw [h.v0, h.v1, h.v2] at m2 M2
  simp only [mirror, min_neg_neg, max_neg_neg] at m2 M2
  obtain ⟨p1, P1⟩ := f1
  obtain ⟨p2, P2⟩ := f2
  have e1 : (s.transform pose).updateBBox.pose.trans = pose.trans := rfl
  have e2 : (s.transform (mirrorPose pose)).updateBBox.pose.trans = ⟨pose.trans.x, -pose.trans.y, pose.trans.z⟩ := rfl
  have r1 : (s.transform pose).updateBBox.shape.rx = s.shape.rx := rfl
  have r2 : (s.transform (mirrorPose pose)).updateBBox.shape.rx = s.shape.rx := rfl
  rw [e1, r1] at p1 P1
  rw [e2, r2] at p2 P2
  simp only [Box.intersects, m1, M1, m2, M2, p1, P1, p2, P2, real_le]
  have key : ∀ a b c : ℝ, (-a ≤ -b + c ↔ b - c ≤ a) ∧ (-b - c ≤ -a ↔ a ≤ b + c) := by
    intro a b c
    constructor <;> constructor <;> intro h <;> linarith
  simp only [(key _ _ _).1, (key _ _ _).2]
  rw [Bool.eq_iff_iff]
  simp only [Bool.and_eq_true]
  tauto

/-- **C99, the tyre on a mesh, sampling method**: the flag is the same and the reports are mirrored. -/
theorem C99_setup_mesh_sampling {pol : Policy} {s sA sB : Shell ℝ} (hs : s.Reachable pol) (hsym : SymmetricTyre s)
    (hx : 0 ≤ s.shape.rx) {M M' : Mesh ℝ} (hM : BuiltMesh M) (hM' : BuiltMesh M') {pose : Affine ℝ}
    (h : List.Forall₂ MirrorTriangle M.triangles M'.triangles) {b b' : Bool}
    (hA : s.setupMesh pol M pose "sampling" = .ok sA b)
    (hB : s.setupMesh pol M' (mirrorPose pose) "sampling" = .ok sB b') :
    b' = b ∧ MirrorShell pol sA sB := by
  obtain ⟨loc, hl1, q1⟩ := hM.query _ (Shell.updateBBox_WF (s.transform pose))
  obtain ⟨loc', hl2, q2⟩ := hM'.query _ (Shell.updateBBox_WF (s.transform (mirrorPose pose)))
  obtain ⟨f1, r1, a1, c1⟩ := C38_mesh_flag pol s sA hs M pose "sampling" loc b hl1 hA
  obtain ⟨f2, r2, a2, c2⟩ := C38_mesh_flag pol s sB hs M' _ "sampling" loc' b' hl2 hB
  have e1 := Shell.setupMesh_rel (.inl ⟨b, hA⟩)
  have e2 := Shell.setupMesh_rel (.inl ⟨b', hB⟩)
  have z1 : sA.size = s.size := by unfold Shell.size; rw [e1.ribs]
  have z2 : sB.size = s.size := by unfold Shell.size; rw [e2.ribs]
  have hpA : sA.pose = pose := by rw [e1.pose]
  have hpB : sB.pose = mirrorPose pose := by rw [e2.pose]
  have hfil := mirror_filter h (fun t => t.bbox.intersects (s.transform pose).updateBBox.bbox)
    (fun t => t.bbox.intersects (s.transform (mirrorPose pose)).updateBBox.bbox)
    (fun t ht t' ht' hmt => Shell.near_mirror pose hmt (hM.constructed t ht) (hM'.constructed t' ht') hx)
  generalize (M.triangles.filter fun t => t.bbox.intersects (s.transform pose).updateBBox.bbox) = F at q1 hfil
  generalize (M'.triangles.filter fun t =>
    t.bbox.intersects (s.transform (mirrorPose pose)).updateBBox.bbox) = F' at q2 hfil
  have hcand : ∀ (P : Affine ℝ) (l : List (TriangleGround ℝ)) (r : Rib ℝ), Shell.ribCandidates P "sampling" l r = l := by
    intro P l r
    unfold Shell.ribCandidates
    rw [List.filter_eq_self]
    intro t _
    simp [Shell.refines, Shell.isCandidate]
  have hen : ∀ (r : Rib ℝ) (P : Affine ℝ) (l : List (TriangleGround ℝ)),
      r.envelopMesh l P "sampling" = .ok (r.envelopSamplingMesh l P) := by
    intro r P l; simp [Rib.envelopMesh]
  have hsame : ∀ i < s.size, f2 (s.size - 1 - i) = f1 i ∧ MirrorGeometry (r1 i) (r2 (s.size - 1 - i)) := by
    intro i hi
    obtain ⟨r, g1, g2, -⟩ := a1 i hi
    obtain ⟨r', g1', g2', -⟩ := a2 (s.size - 1 - i) (by omega)
    have k1 : s.ribs[i]? = some r := by rw [← g1]; exact congrArg (·[i]?) e1.ribs.symm
    have k2 : s.ribs[s.size - 1 - i]? = some r' := by rw [← g1']; exact congrArg (·[s.size - 1 - i]?) e2.ribs.symm
    obtain ⟨r'', k3, hmr⟩ := hsym i r k1
    rw [k2] at k3
    cases k3
    have hr := hs.isRib r (List.mem_of_getElem? k1)
    have hr' := hs.isRib r' (List.mem_of_getElem? k2)
    have g2 : (if loc = [] then Res.ok (false, r.noContact pose) else
      r.envelopMesh (Shell.ribCandidates pose "sampling" loc r) pose "sampling") = .ok (f1 i, r1 i) := g2
    have g2' : (if loc' = [] then Res.ok (false, r'.noContact (mirrorPose pose)) else
      r'.envelopMesh (Shell.ribCandidates (mirrorPose pose) "sampling" loc' r')
        (mirrorPose pose) "sampling") = .ok (f2 _, r2 _) := g2'
    rw [hcand, hen] at g2 g2'
    by_cases hnil : loc = []
    · have hF : F = [] := by rw [hnil] at q1; exact q1.symm.eq_nil
      have hF' : F' = [] := by rw [hF] at hfil; cases hfil; rfl
      have hnil' : loc' = [] := by rw [hF'] at q2; exact q2.eq_nil
      rw [if_pos hnil] at g2
      rw [if_pos hnil', hmr.noContact hr hr'] at g2'
      obtain ⟨k1, k2⟩ := Prod.mk.inj (Res.ok.inj g2)
      obtain ⟨k1', k2'⟩ := Prod.mk.inj (Res.ok.inj g2')
      rw [← k1, ← k1', ← k2, ← k2']
      exact ⟨rfl, rfl, rfl, rfl, rfl, rfl⟩
    · have hnil' : loc' ≠ [] := by
        intro hc
        have hF' : F' = [] := by rw [hc] at q2; exact q2.symm.eq_nil
        have hF : F = [] := by rw [hF'] at hfil; cases hfil; rfl
        rw [hF] at q1
        exact hnil q1.eq_nil
      rw [if_neg hnil] at g2
      rw [if_neg hnil'] at g2'
      have hmv := (C99_sampling hr hr' hmr pose).2 F F' hfil
      have t1 := C29_order_independent r pose q1
      have t2 := C29_order_independent r' (mirrorPose pose) q2
      dsimp only at t1 t2
      rw [Res.ok.inj g2] at t1
      rw [Res.ok.inj g2', hmv] at t2
      obtain ⟨u1, u2, u3, u4, u5, u6, -⟩ := t1
      obtain ⟨w1, w2, w3, w4, w5, w6, -⟩ := t2
      dsimp only at u1 u2 u3 u4 u5 u6 w1 w2 w3 w4 w5 w6
      refine ⟨by rw [w1, u1], ?_, ?_, ?_, ?_, ?_⟩
      · rw [w2]; simp only [mirrorRecord, u2]
      · rw [w3]; simp only [mirrorRecord, u3]
      · rw [w4]; simp only [mirrorRecord, u4]
      · rw [w5]; simp only [mirrorRecord, u5]
      · rw [w6]; simp only [mirrorRecord, u6]
  refine ⟨?_, by rw [z1, z2], by rw [hpA, hpB], ?_⟩
  · rw [Bool.eq_iff_iff, c1, c2]
    constructor
    · rintro ⟨i, hi, hf⟩
      refine ⟨s.size - 1 - i, by omega, ?_⟩
      rw [← (hsame (s.size - 1 - i) (by omega)).1, show s.size - 1 - (s.size - 1 - i) = i by omega]
      exact hf
    · rintro ⟨i, hi, hf⟩
      exact ⟨s.size - 1 - i, by omega, by rw [(hsame i hi).1]; exact hf⟩
  · intro i hi
    rw [z1] at hi ⊢
    obtain ⟨_, _, _, g⟩ := a1 i hi
    obtain ⟨_, _, _, g'⟩ := a2 (s.size - 1 - i) (by omega)
    exact ⟨_, _, g, g', (hsame i hi).2⟩

theorem Spec.sum_mirror {n : Nat} {a b : Nat → ℝ} (h : ∀ i < n, b (n - 1 - i) = a i) :
    ∑ i ∈ Finset.range n, b i = ∑ i ∈ Finset.range n, a i := by
  rw [← Finset.sum_range_reflect]
  exact Finset.sum_congr rfl fun i hi => h i (Finset.mem_range.1 hi)

/-- **C99, the values of the whole tyre.**  Volume and depth are the same for the mirrored scene, the contact point,
the normal and the contact frame are mirrored, for the whole tyre and rib by rib; with equal frictions the friction of
the tyre is the same, too. -/
theorem C99_values {pol : Policy} {s s' : Shell ℝ} (h : MirrorShell pol s s') :
    s'.contactVolume pol = s.contactVolume pol ∧ s'.contactDepth pol = s.contactDepth pol ∧
    (∃ p, s.contactPoint pol = .ok p ∧ s'.contactPoint pol = .ok (mirror p)) ∧
    (∃ m, s.contactNormal pol = .ok m ∧ s'.contactNormal pol = .ok (mirror m)) ∧
    (∃ F, s.contactPointAffine pol = .ok F ∧ s'.contactPointAffine pol = .ok (mirrorPose F)) ∧
    (∀ i < s.size, ∃ F, s.contactPointAffineAt pol i = .ok F ∧
      s'.contactPointAffineAt pol (s.size - 1 - i) = .ok (mirrorPose F)) ∧
    (MirrorFriction pol s s' → s'.contactFriction pol = s.contactFriction pol) := by
  have hframe : ∀ m p : V3 ℝ, Shell.contactFrame s'.yAxis (mirror m) (mirror p) =
      mirrorPose (Shell.contactFrame s.yAxis m p) := by
    intro m p
    have hy : s'.yAxis = mirror (V3.neg s.yAxis) := by
      unfold Shell.yAxis
      rw [h.pose]
      simp [mirrorPose, mirror, V3.real_neg]
    unfold Shell.contactFrame
    rw [hy]
    simp only [mirror_cross, neg_cross_left, neg_neg3, mirror_normalized, neg_normalized, mirrorPose]
    congr 2
    simp [mirror, V3.real_neg]
  obtain ⟨o, ho⟩ : ∃ o : Nat → Output ℝ, ∀ i < s.size, s.out.read pol i = .ok (o i) := by
    have : ∀ i, ∃ x, i < s.size → s.out.read pol i = .ok x := by
      intro i
      by_cases hi : i < s.size
      · obtain ⟨x, -, hx, -⟩ := h.records i hi
        exact ⟨x, fun _ => hx⟩
      · exact ⟨Output.default, fun hc => absurd hc hi⟩
    choose o ho using this
    exact ⟨o, ho⟩
  obtain ⟨o', ho'⟩ : ∃ o' : Nat → Output ℝ, ∀ i < s.size, s'.out.read pol i = .ok (o' i) := by
    have : ∀ i, ∃ x, i < s.size → s'.out.read pol i = .ok x := by
      intro i
      by_cases hi : i < s.size
      · obtain ⟨-, x, -, hx, -⟩ := h.records (s.size - 1 - i) (by omega)
        rw [show s.size - 1 - (s.size - 1 - i) = i by omega] at hx
        exact ⟨x, fun _ => hx⟩
      · exact ⟨Output.default, fun hc => absurd hc hi⟩
    choose o ho using this
    exact ⟨o, ho⟩
  have hm : ∀ i < s.size, MirrorGeometry (o i) (o' (s.size - 1 - i)) := by
    intro i hi
    obtain ⟨x, x', h1, h2, h3⟩ := h.records i hi
    rw [ho i hi] at h1
    rw [ho' _ (by omega)] at h2
    cases h1; cases h2
    exact h3
  have hrep : Reports pol s o := Shell.reports_iff.2 ho
  have hrep' : Reports pol s' o' := Shell.reports_iff.2 (by rw [h.size]; exact ho')
  have hV := C42_total_real hrep
  have hV' := C42_total_real hrep'
  have hr := Shell.records_of_reports hrep
  have hr' := Shell.records_of_reports hrep'
  rw [h.size] at hV' hr'
  have sv : ∑ i ∈ Finset.range s.size, (o' i).volume = ∑ i ∈ Finset.range s.size, (o i).volume :=
    sum_mirror fun i hi => (hm i hi).2.2.2.2
  rw [sv] at hV'
  -- a sum of mirrored vectors
  have vec : ∀ (w : ℝ) (a a' : Nat → V3 ℝ), (∀ i < s.size, a' (s.size - 1 - i) = mirror (a i)) →
      V3.sdiv (⟨∑ i ∈ Finset.range s.size, (a' i).x, ∑ i ∈ Finset.range s.size, (a' i).y,
        ∑ i ∈ Finset.range s.size, (a' i).z⟩ : V3 ℝ) w =
      mirror (V3.sdiv ⟨∑ i ∈ Finset.range s.size, (a i).x, ∑ i ∈ Finset.range s.size, (a i).y,
        ∑ i ∈ Finset.range s.size, (a i).z⟩ w) := by
    intro w a a' ha
    rw [sum_mirror (a := fun i => (a i).x) (b := fun i => (a' i).x) fun i hi => by rw [ha i hi]; rfl,
      sum_mirror (a := fun i => -(a i).y) (b := fun i => (a' i).y) fun i hi => by rw [ha i hi]; rfl,
      sum_mirror (a := fun i => (a i).z) (b := fun i => (a' i).z) fun i hi => by rw [ha i hi]; rfl,
      Finset.sum_neg_distrib, ← mirror_sdiv]
    rfl
  have hpt : ∃ p, s.contactPoint pol = .ok p ∧ s'.contactPoint pol = .ok (mirror p) := by
    rw [Shell.contactPoint, hV, hr, Res.bind_ok, Res.bind_ok, Shell.contactPoint, hV', hr', Res.bind_ok, Res.bind_ok,
      h.size]
    by_cases hl : (∑ i ∈ Finset.range s.size, (o i).volume <. (Scalar.eps : ℝ)) = true
    · rw [if_pos hl, if_pos hl]
      refine ⟨_, rfl, ?_⟩
      rw [Res.pure_eq, Shell.foldl_range3 o' (·.point), Shell.foldl_range3 o (·.point)]
      simp only [ribSum_real]
      rw [vec _ (fun i => (o i).point) (fun i => (o' i).point) fun i hi => (hm i hi).1]
    · rw [if_neg hl, if_neg hl]
      refine ⟨_, rfl, ?_⟩
      rw [Res.pure_eq, Shell.foldl_range3 o' (fun r => V3.smul r.volume r.point),
        Shell.foldl_range3 o (fun r => V3.smul r.volume r.point)]
      simp only [ribSum_real]
      rw [vec _ (fun i => V3.smul (o i).volume (o i).point) (fun i => V3.smul (o' i).volume (o' i).point) fun i hi => by
        rw [(hm i hi).1, (hm i hi).2.2.2.2, mirror_smul]]
  have hno : ∃ m, s.contactNormal pol = .ok m ∧ s'.contactNormal pol = .ok (mirror m) := by
    rw [Shell.contactNormal, hV, hr, Res.bind_ok, Res.bind_ok, Shell.contactNormal, hV', hr', Res.bind_ok, Res.bind_ok,
      h.size]
    by_cases hl : (∑ i ∈ Finset.range s.size, (o i).volume <. (Scalar.eps : ℝ)) = true
    · rw [if_pos hl, if_pos hl]
      refine ⟨_, rfl, ?_⟩
      rw [Res.pure_eq, Shell.foldl_range3 o' (·.normal), Shell.foldl_range3 o (·.normal)]
      simp only [ribSum_real]
      rw [vec _ (fun i => (o i).normal) (fun i => (o' i).normal) fun i hi => (hm i hi).2.1, mirror_normalized]
    · rw [if_neg hl, if_neg hl]
      refine ⟨_, rfl, ?_⟩
      rw [Res.pure_eq, Shell.foldl_range3 o' (fun r => V3.smul r.volume r.normal),
        Shell.foldl_range3 o (fun r => V3.smul r.volume r.normal)]
      simp only [ribSum_real]
      rw [vec _ (fun i => V3.smul (o i).volume (o i).normal) (fun i => V3.smul (o' i).volume (o' i).normal)
        fun i hi => by
          rw [(hm i hi).2.1, (hm i hi).2.2.2.2, mirror_smul], mirror_normalized]
  refine ⟨by rw [hV, hV'], ?_, hpt, hno, ?_, ?_, ?_⟩
  · rw [Shell.contactDepth, hV', hr', Res.bind_ok, Res.bind_ok, Shell.contactDepth, hV, hr, Res.bind_ok, Res.bind_ok,
      h.size]
    rw [Shell.foldl_range o' (fun r => r.depth *. r.volume), Shell.foldl_range o (fun r => r.depth *. r.volume),
      ribSum_real, ribSum_real, sum_mirror (a := fun i => (o i).depth *. (o i).volume)
        (b := fun i => (o' i).depth *. (o' i).volume) fun i hi => by rw [(hm i hi).2.2.1, (hm i hi).2.2.2.2]]
  · obtain ⟨p, p1, p2⟩ := hpt
    obtain ⟨m, m1, m2⟩ := hno
    refine ⟨_, by rw [Shell.contactPointAffine, p1, m1, Res.bind_ok, Res.bind_ok, Res.pure_eq], ?_⟩
    rw [Shell.contactPointAffine, p2, m2, Res.bind_ok, Res.bind_ok, Res.pure_eq, hframe]
  · intro i hi
    refine ⟨_, by rw [Shell.contactPointAffineAt, ho i hi, Res.bind_ok, Res.pure_eq], ?_⟩
    rw [Shell.contactPointAffineAt, ho' _ (by omega), Res.bind_ok, Res.pure_eq, (hm i hi).1, (hm i hi).2.1, hframe]
  · intro hf
    have hf : ∀ i < s.size, (o' (s.size - 1 - i)).friction = (o i).friction := by
      intro i hi
      obtain ⟨x, x', h1, h2, h3⟩ := hf i hi
      rw [ho i hi] at h1
      rw [ho' _ (by omega)] at h2
      cases h1; cases h2
      exact h3
    rw [Shell.contactFriction, hV', hr', Res.bind_ok, Res.bind_ok, Shell.contactFriction, hV, hr, Res.bind_ok,
      Res.bind_ok, h.size]
    rw [Shell.foldl_range o' (fun r => r.friction *. r.volume), Shell.foldl_range o (fun r => r.friction *. r.volume),
      Shell.foldl_range o' (·.friction), Shell.foldl_range o (·.friction), ribSum_real, ribSum_real, ribSum_real,
      ribSum_real, sum_mirror (a := fun i => (o i).friction) (b := fun i => (o' i).friction) hf,
      sum_mirror (a := fun i => (o i).friction *. (o i).volume) (b := fun i => (o' i).friction *. (o' i).volume)
        fun i hi => by rw [hf i hi, (hm i hi).2.2.2.2]]

/-! ### Examples -/

/-- A tyre with 25 ribs on the flat road; the mirrored setup returns, too, and reports the mirror image. -/
example (fresh : Nat → Output ℝ) (method : String) (hmeth : method = "geometric" ∨ method = "sampling") :
    ∃ (s sA sB : Shell ℝ) (b b' : Bool), SymmetricTyre s ∧ s.size = 25 ∧
      s.setupFlat .raw Demo.road ⟨Demo.turn.linear, ⟨3, -2, 1 / 4⟩⟩ method = .ok sA b ∧
      s.setupFlat .raw (mirrorFlat Demo.road) (mirrorPose ⟨Demo.turn.linear, ⟨3, -2, 1 / 4⟩⟩) method = .ok sB b' ∧
      MirrorShell .raw sA sB ∧ MirrorFriction .raw sA sB := by
  have hv : ValidProfile (1/2 : ℝ) 4 (1/4) 2 (1/8) :=
    ⟨by norm_num, by norm_num, by norm_num, by norm_num, by norm_num, by norm_num⟩
  obtain ⟨s, h1, h2, -⟩ := C04_construct fresh 25 (by norm_num) (1/2) 4 (1/4) 2 (1/8) hv
  have hreach : s.Reachable .raw := .make h1
  have hsym := (C99_symmetric fresh (by norm_num)).2 _ _ _ _ _ s hv h1
  obtain ⟨sA, b, hA⟩ := Shell.setupFlat_total hreach (by omega) Demo.road ⟨Demo.turn.linear, ⟨3, -2, 1 / 4⟩⟩ hmeth
  obtain ⟨sB, b', hB⟩ := Shell.setupFlat_total hreach (by omega) (mirrorFlat Demo.road)
    (mirrorPose ⟨Demo.turn.linear, ⟨3, -2, 1 / 4⟩⟩) hmeth
  obtain ⟨k1, k2⟩ := C99_setup_flat hreach hsym (pose := ⟨Demo.turn.linear, ⟨3, -2, 1 / 4⟩⟩) Demo.turn_rigid Demo.road_make hA hB
  exact ⟨s, sA, sB, b, b', hsym, h2, hA, hB, k1, k2⟩

/-- The mirror image of the field. -/
noncomputable def Demo.mirrorField : TriangleGround ℝ :=
  TriangleGround.updateBBox (TriangleGround.updateNormal
    ⟨⟨⟨0, -10, 0⟩, ⟨-30, 10, 0⟩, ⟨30, 10, 0⟩⟩, 0, 1, V3.nan, Box.default⟩)

theorem Demo.mirrorField_make :
    TriangleGround.make 0 (1 : ℝ) ⟨0, -10, 0⟩ ⟨-30, 10, 0⟩ ⟨30, 10, 0⟩ = .ok Demo.mirrorField := by
  simp [TriangleGround.make, Demo.mirrorField]

theorem Demo.mirrorField_mirror : MirrorTriangle Demo.field Demo.mirrorField := by
  constructor <;> simp [Demo.field, Demo.mirrorField, TriangleGround.updateBBox, TriangleGround.updateNormal, mirror]

/-- The same tyre on a mesh and on its mirror image, by sampling. -/
example (fresh : Nat → Output ℝ) : ∃ (s sA sB : Shell ℝ) (b : Bool), SymmetricTyre s ∧ s.size = 25 ∧
    s.setupMesh .raw (Mesh.ofTriangles [Demo.field]) (Demo.upright (1 / 4)) "sampling" = .ok sA b ∧
    s.setupMesh .raw (Mesh.ofTriangles [Demo.mirrorField]) (mirrorPose (Demo.upright (1 / 4))) "sampling" = .ok sB b ∧
    MirrorShell .raw sA sB := by
  have hv : ValidProfile (1/2 : ℝ) 4 (1/4) 2 (1/8) :=
    ⟨by norm_num, by norm_num, by norm_num, by norm_num, by norm_num, by norm_num⟩
  obtain ⟨s, h1, h2, -, hsh, -⟩ := C04_construct fresh 25 (by norm_num) (1/2) 4 (1/4) 2 (1/8) hv
  have hreach : s.Reachable .raw := .make h1
  have hsym := (C99_symmetric fresh (by norm_num)).2 _ _ _ _ _ s hv h1
  have hbuilt : BuiltMesh (Mesh.ofTriangles [Demo.mirrorField]) := by
    refine .inr ⟨_, by simp, ?_, ?_, rfl⟩
    · simp only [List.mem_singleton, forall_eq]; exact ⟨_, _, _, _, _, Demo.mirrorField_make⟩
    · intro i t ht
      match i, ht with
      | 0, ht => simp at ht; subst ht; rfl
      | n + 1, ht => simp at ht
  obtain ⟨sA, b, hA⟩ := Shell.setupMesh_sampling_total hreach (by omega) Demo.field_built (Demo.upright (1 / 4))
  obtain ⟨sB, b', hB⟩ := Shell.setupMesh_sampling_total hreach (by omega) hbuilt (mirrorPose (Demo.upright (1 / 4)))
  obtain ⟨rfl, k⟩ := C99_setup_mesh_sampling hreach hsym (by rw [hsh]; norm_num) Demo.field_built hbuilt
    (.cons Demo.mirrorField_mirror .nil) hA hB
  exact ⟨s, sA, sB, _, hsym, h2, hA, hB, k⟩

end Enve
