import Verif.Props.MovedProps
import Verif.Props.TyreProps
import Verif.Props.RunProps

/-!
# C138: rolling at constant height and inclination over flat ground

A motion that maps the plane of the ground to itself (sliding along the ground, turning about its normal) and spinning the wheel about its
axis change neither the height of the hub over the ground nor the inclination of the axis.
-/

namespace Enve
open Scalar Spec

/-- The motion maps the plane of the ground to itself, and its upper side to the upper side. -/
structure Spec.KeepsGround (m : Affine ℝ) (g : Flat ℝ) : Prop where
  normal : M3.mulVec m.linear g.plane.normal = g.plane.normal
  plane : OnPlane g.plane (m.apply g.plane.origin)

namespace Rolling

theorem geometric_plane (r : Rib ℝ) (pose : Affine ℝ) {g g' : Flat ℝ} (hn : g'.plane.normal = g.plane.normal)
    (ho : V3.dot g'.plane.origin g.plane.normal = V3.dot g.plane.origin g.plane.normal) (hf : g'.friction = g.friction) :
    r.envelopGeometricFlat g' pose = r.envelopGeometricFlat g pose := by
  have h1 : Inter.planeDisk g'.plane (r.diskGrd pose) Scalar.eps = Inter.planeDisk g.plane (r.diskGrd pose) Scalar.eps := by
    unfold Inter.planeDisk Inter.planePlane Plane.d
    rw [hn, ho]
  have h2 : g'.normal = g.normal := hn
  unfold Rib.envelopGeometricFlat
  rw [h1, h2, hf]

theorem sampling_plane (r : Rib ℝ) (pose : Affine ℝ) {g g' : Flat ℝ} (hn : g'.plane.normal = g.plane.normal)
    (ho : V3.dot g'.plane.origin g.plane.normal = V3.dot g.plane.origin g.plane.normal) (hf : g'.friction = g.friction) :
    r.envelopSamplingFlat g' pose = r.envelopSamplingFlat g pose := by
  have h1 : Rib.samplingLineFlat g' = Rib.samplingLineFlat g := by
    funext l
    have : V3.dot (V3.sub g'.plane.origin l.origin) g.plane.normal = V3.dot (V3.sub g.plane.origin l.origin) g.plane.normal := by
      have e : ∀ a b c : V3 ℝ, V3.dot (V3.sub a b) c = V3.dot a c - V3.dot b c := by
        intro a b c; v3; ring
      rw [e, e, ho]
    unfold Rib.samplingLineFlat Inter.linePlane
    rw [hn, this, hf]
  unfold Rib.envelopSamplingFlat
  rw [h1]

theorem keeps {m : Affine ℝ} {g : Flat ℝ} (h : KeepsGround m g) : (movedFlat m g).plane.normal = g.plane.normal ∧
    V3.dot (movedFlat m g).plane.origin g.plane.normal = V3.dot g.plane.origin g.plane.normal ∧
    (movedFlat m g).friction = g.friction := by
  refine ⟨h.normal, ?_, rfl⟩
  have := h.plane
  simp only [OnPlane, dot3, minus] at this
  show V3.dot (m.apply g.plane.origin) g.plane.normal = _
  generalize m.apply g.plane.origin = p at *
  v3
  linarith

end Rolling

/-- **C138, one rib, geometric method**: a rib in contact that is slid and turned along the ground and spun about its axis by any angle
reports the moved contact: its depth, area, volume and friction stay, its point and normal move along.  A rib without contact stays
without contact. -/
theorem C138_geometric {r : Rib ℝ} (hr : IsRib r) {pose m : Affine ℝ} (hp : IsRigid pose) (hm : IsRigid m) {f : ℝ} {o n : V3 ℝ} {g : Flat ℝ}
    (hg : Flat.make f o n = .ok g) (hk : KeepsGround m g) (angle : ℝ) :
    let before := r.envelopGeometricFlat g pose
    let after := r.envelopGeometricFlat g (movedPose m (spun pose angle))
    after.1 = before.1 ∧ (before.1 = true → after.2 = movedRecord m before.2) ∧
      after.2.depth = before.2.depth ∧ after.2.friction = before.2.friction ∧
      after.2.area = before.2.area ∧ after.2.volume = before.2.volume := by
  intro before after
  have hn := Flat.make_unit hg
  obtain ⟨k1, k2, k3, k4, k5, k6⟩ := C35_geometric_flat_partial hr hp hg angle
  have e := C89_geometric_flat hr (spun_rigid hp angle) hm g hn
  obtain ⟨a1, a2, a3⟩ := Rolling.keeps hk
  rw [Rolling.geometric_plane r _ a1 a2 a3] at e
  have e : after = ((r.envelopGeometricFlat g (spun pose angle)).1, movedRecord m (r.envelopGeometricFlat g (spun pose angle)).2) := e
  rw [e]
  exact ⟨k1, fun h => by rw [k2 h], k3, k4, k5, k6⟩

/-- **C138, one rib, sampling method**: a rib that is slid along the ground, or turned about the vertical on level ground, reports the moved
record. -/
theorem C138_sampling_partial (r : Rib ℝ) {pose m : Affine ℝ} (hm : IsRigid m) (hv : KeepsVertical m) {g : Flat ℝ} (hk : KeepsGround m g) :
    r.envelopSamplingFlat g (movedPose m pose) = ((r.envelopSamplingFlat g pose).1, movedRecord m (r.envelopSamplingFlat g pose).2) := by
  have e := (C89_sampling r (pose := pose) hm hv).1 g
  obtain ⟨a1, a2, a3⟩ := Rolling.keeps hk
  rwa [Rolling.sampling_plane r _ a1 a2 a3] at e

/-- **C138, whole tyres, geometric method**: two setups of a tyre on a flat ground, the second after rolling at constant height and
inclination, return the same flag; every rib in contact before is in contact after and reports the moved record, and depth,
friction, area and volume of every rib are the same. -/
theorem C138_tyre {pol : Policy} {s sA sB : Shell ℝ} (hs : s.Reachable pol) {pose m : Affine ℝ} (hp : IsRigid pose) (hm : IsRigid m)
    {f : ℝ} {o n : V3 ℝ} {g : Flat ℝ} (hg : Flat.make f o n = .ok g) (hk : KeepsGround m g) (angle : ℝ) {bA bB : Bool}
    (hA : s.setupFlat pol g pose "geometric" = .ok sA bA)
    (hB : s.setupFlat pol g (movedPose m (spun pose angle)) "geometric" = .ok sB bB) :
    bA = bB ∧ ∀ i < s.size, ∃ r oA oB, Shows pol sA i r oA ∧ Shows pol sB i r oB ∧ (ShowsContact oA → oB = movedRecord m oA) ∧
      oB.depth = oA.depth ∧ oB.friction = oA.friction ∧ oB.area = oA.area ∧ oB.volume = oA.volume := by
  obtain ⟨f1, r1, a1, c1, -⟩ := C38_flat_flag_partial pol s sA g pose "geometric" bA hA
  obtain ⟨f2, r2, a2, c2, -⟩ := C38_flat_flag_partial pol s sB g _ "geometric" bB hB
  have e1 : sA.ribs = s.ribs := (Shell.setupFlat_rel (.inl ⟨bA, hA⟩)).ribs
  have e2 : sB.ribs = s.ribs := (Shell.setupFlat_rel (.inl ⟨bB, hB⟩)).ribs
  have key : ∀ i < s.size, f2 i = f1 i ∧ ∃ r oA oB, Shows pol sA i r oA ∧ Shows pol sB i r oB ∧ (ShowsContact oA → oB = movedRecord m oA) ∧
      oB.depth = oA.depth ∧ oB.friction = oA.friction ∧ oB.area = oA.area ∧ oB.volume = oA.volume := by
    intro i hi
    obtain ⟨r, g1, g2, g3⟩ := a1 i hi
    obtain ⟨r', g1', g2', g3'⟩ := a2 i hi
    have hr' : r' = r := by
      rw [e1] at g1
      rw [e2, g1] at g1'
      exact (Option.some.inj g1').symm
    subst hr'
    have hmem : r' ∈ s.ribs := by rw [e1] at g1; exact List.mem_of_getElem? g1
    have hr := hs.isRib r' hmem
    obtain ⟨k1, k2, k3, k4, k5, k6⟩ := C138_geometric hr hp hm hg hk angle
    have h1 := Rib.envelopFlat_geometric_eq g2
    have h2 := Rib.envelopFlat_geometric_eq g2'
    rw [h1, h2] at k1 k2 k3 k4 k5 k6
    refine ⟨k1, r', r1 i, r2 i, ⟨g1, g3⟩, ⟨g1', g3'⟩, fun hc => k2 ?_, k3, k4, k5, k6⟩
    by_contra hf
    have hf : f1 i = false := by simpa using hf
    have : r1 i = r'.noContact pose := by
      rw [hf] at h1
      unfold Rib.envelopGeometricFlat at h1
      split at h1
      · exact (Prod.mk.inj h1).2.symm
      · split at h1
        · simp at h1
        · exact (Prod.mk.inj h1).2.symm
    rw [this] at hc
    exact Rib.noContact_not_shows _ _ hc
  refine ⟨?_, fun i hi => (key i hi).2⟩
  rw [c1, c2]
  by_cases h1 : 1 ≤ s.size
  · rw [(key (s.size - 1) (by omega)).1]
  · simp [h1]

/-- **C138, whole tyres, all values**: after sliding and turning along the ground (for the sampling method: motions that keep the vertical),
setup returns the same flag, and the contact point, normal and frame of the tyre and of its ribs move along; friction, depth, area, volume
and the relative angles stay. -/
theorem C138_values {pol : Policy} {s sA : Shell ℝ} (hs : s.Reachable pol) (hn : 1 ≤ s.size) {pose m : Affine ℝ} (hp : IsRigid pose)
    (hm : IsRigid m) {f : ℝ} {o n : V3 ℝ} {g : Flat ℝ} (hg : Flat.make f o n = .ok g) (hk : KeepsGround m g) {method : String}
    (hv : method = "sampling" → KeepsVertical m) {b : Bool} (hA : s.setupFlat pol g pose method = .ok sA b) :
    ∃ sB, s.setupFlat pol g (movedPose m pose) method = .ok sB b ∧ MovedShell m pol sA sB ∧
      (∃ p n fr d ar v, sA.contactPoint pol = .ok p ∧ sB.contactPoint pol = .ok (m.apply p) ∧
        sA.contactNormal pol = .ok n ∧ sB.contactNormal pol = .ok (M3.mulVec m.linear n) ∧
        sA.contactFriction pol = .ok fr ∧ sB.contactFriction pol = .ok fr ∧
        sA.contactDepth pol = .ok d ∧ sB.contactDepth pol = .ok d ∧
        sA.contactArea pol = .ok ar ∧ sB.contactArea pol = .ok ar ∧
        sA.contactVolume pol = .ok v ∧ sB.contactVolume pol = .ok v) ∧
      ∃ F a, sA.contactPointAffine pol = .ok F ∧ sB.contactPointAffine pol = .ok (movedPose m F) ∧
        sA.relativeAngles pol = .ok a ∧ sB.relativeAngles pol = .ok a := by
  obtain ⟨sB, hB, hmoved⟩ := C89_setup_flat hs hp hm hg hv hA
  obtain ⟨a1, a2, a3⟩ := Rolling.keeps hk
  have hsz : sA.size = s.size := by
    unfold Shell.size
    rw [(Shell.setupFlat_rel (.inl ⟨b, hA⟩)).ribs]
  have heq : ∀ P, s.setupFlat pol (movedFlat m g) P method = s.setupFlat pol g P method := by
    intro P
    rw [Shell.setupFlat_eq, Shell.setupFlat_eq]
    have : (fun r : Rib ℝ => r.envelopFlat (movedFlat m g) P method) = fun r => r.envelopFlat g P method := by
      funext r
      unfold Rib.envelopFlat
      rw [Rolling.geometric_plane r P a1 a2 a3, Rolling.sampling_plane r P a1 a2 a3]
    rw [this]
  rw [heq] at hB
  obtain ⟨h1, h2, -⟩ := C89_getters hm hmoved (by rw [hsz]; exact hn)
  exact ⟨sB, hB, hmoved, h1, h2⟩

/-- Sliding by 7 along a level road while turning about the vertical, with sine 3/5 and cosine 4/5. -/
noncomputable def Demo.steer : Affine ℝ := ⟨⟨⟨4 / 5, 3 / 5, 0⟩, ⟨-(3 / 5), 4 / 5, 0⟩, ⟨0, 0, 1⟩⟩, ⟨7, 2, 0⟩⟩

/-- The hypotheses of `C138_tyre` and `C138_values` can be met, with a contact. -/
example (fresh : Nat → Output ℝ) : ∃ (s sA sB : Shell ℝ) (r : Rib ℝ) (oA oB : Output ℝ) (b : Bool), s.Reachable .raw ∧ s.size = 1 ∧
    IsRigid Demo.steer ∧ KeepsVertical Demo.steer ∧ KeepsGround Demo.steer Demo.road ∧
    s.setupFlat .raw Demo.road (Demo.upright (1 / 2)) "geometric" = .ok sA b ∧
    s.setupFlat .raw Demo.road (movedPose Demo.steer (spun (Demo.upright (1 / 2)) 1)) "geometric" = .ok sB b ∧
    Shows .raw sA 0 r oA ∧ Shows .raw sB 0 r oB ∧ oA.depth = 1 / 2 ∧ oB.depth = 1 / 2 := by
  have heps := real_eps_le_half
  obtain ⟨s, a, h1, -, hab, ha, hac, haR, haw⟩ := Demo.oneRib fresh
  have hreach : s.Reachable .raw := .make h1
  have hsz : s.size = 1 := by simp [Shell.size, hab]
  have hrig : IsRigid Demo.steer := by constructor <;> (simp only [Demo.steer, dot3]; norm_num)
  have hk : KeepsGround Demo.steer Demo.road := by
    constructor
    · simp only [Demo.steer, Demo.road]; v3; norm_num
    · simp only [OnPlane, dot3, minus, Demo.steer, Demo.road, Affine.apply]; v3; norm_num
  have hv : KeepsVertical Demo.steer := by simp only [KeepsVertical, Demo.steer]
  have h0 : s.ribs[0]? = some a := by simp [hab]
  obtain ⟨sA, bA, hA, kA⟩ := Shell.flat_shows hreach (by omega) Demo.road (Demo.upright (1 / 2)) (.inl rfl)
  obtain ⟨sB, bB, hB, kB⟩ := Shell.flat_shows hreach (by omega) Demo.road (movedPose Demo.steer (spun (Demo.upright (1 / 2)) 1)) (.inl rfl)
  obtain ⟨hb, key⟩ := C138_tyre hreach (Demo.upright_rigid (1 / 2)) hrig Demo.road_make hk 1 hA hB
  subst hb
  obtain ⟨r, oA, oB, gA, gB, -, hd, -⟩ := key 0 (by omega)
  obtain ⟨e1, -, fA, eA⟩ := gA.flat hA
  have : a = r := by rw [hab] at e1; exact (List.mem_singleton.1 e1).symm
  subst this
  have eA := Rib.envelopFlat_geometric_eq eA
  rw [Demo.oneRib_eval ha hac haR (by norm_num) (by norm_num; linarith)] at eA
  have hdA : oA.depth = 1 / 2 := by rw [← (Prod.mk.inj eA).2]; norm_num
  exact ⟨s, sA, sB, a, oA, oB, bA, hreach, hsz, hrig, hv, hk, hA, hB, gA, gB, hdA, hd.trans hdA⟩

end Enve
