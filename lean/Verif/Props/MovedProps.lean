import Verif.Spec.Moved
import Verif.Props.ShiftProps
import Verif.Props.TyreProps
import Verif.Props.RunProps
import Verif.Props.SearchProps

/-! # C89: the contact does not depend on where the scene is -/

namespace Enve
open Scalar Spec

theorem M3.mul_mulVec (a b : M3 ℝ) (v : V3 ℝ) : M3.mulVec (M3.mul a b) v = M3.mulVec a (M3.mulVec b v) := by
  simp only [M3.mul, M3.mulVec, real_add, real_mul]; congr 1 <;> ring

namespace Spec

theorem movedPose_place (m pose : Affine ℝ) (v : V3 ℝ) :
    V3.add (movedPose m pose).trans (M3.mulVec (movedPose m pose).linear v) =
      m.apply (V3.add pose.trans (M3.mulVec pose.linear v)) := by
  simp only [movedPose, M3.mul_mulVec, Affine.apply_add]

theorem movedPose_linear (m pose : Affine ℝ) (v : V3 ℝ) :
    M3.mulVec (movedPose m pose).linear v = M3.mulVec m.linear (M3.mulVec pose.linear v) :=
  M3.mul_mulVec _ _ _

theorem movedPose_apply (m pose : Affine ℝ) (v : V3 ℝ) : (movedPose m pose).apply v = m.apply (pose.apply v) := by
  simp only [Affine.apply, movedPose, M3.mul, M3.mulVec, V3.real_add, real_add, real_mul]
  congr 1 <;> ring

theorem movedPose_rigid {m pose : Affine ℝ} (hm : IsRigid m) (hp : IsRigid pose) : IsRigid (movedPose m pose) :=
  IsRotation.mul hm hp

theorem MovedTriangle.tri {m : Affine ℝ} {t t' : TriangleGround ℝ} (h : MovedTriangle m t t') :
    t'.tri = t.tri.transform m := by
  ext <;> simp [Triangle.transform, h.v0, h.v1, h.v2]

end Spec

namespace Rib

theorem centerGrd_moved (r : Rib ℝ) (m pose : Affine ℝ) :
    r.centerGrd (movedPose m pose) = m.apply (r.centerGrd pose) := movedPose_place _ _ _

theorem normalGrd_moved (r : Rib ℝ) (m pose : Affine ℝ) :
    r.normalGrd (movedPose m pose) = M3.mulVec m.linear (r.normalGrd pose) := movedPose_linear _ _ _

theorem diskGrd_moved (r : Rib ℝ) (m pose : Affine ℝ) :
    r.diskGrd (movedPose m pose) = (r.diskGrd pose).transform m := by
  simp only [diskGrd, centerGrd_moved, normalGrd_moved]; rfl

theorem noContact_moved (r : Rib ℝ) (m pose : Affine ℝ) :
    r.noContact (movedPose m pose) = movedRecord m (r.noContact pose) := by
  simp only [noContact, movedPose_place, movedRecord]
  rw [movedPose_linear]

theorem normalGrd_unit {r : Rib ℝ} (hr : IsRib r) {pose : Affine ℝ} (hp : IsRigid pose) :
    Unit3 (r.diskGrd pose).plane.normal := by
  have : (r.diskGrd pose).plane.normal = pose.linear.c1 := by
    show M3.mulVec pose.linear r.disk.plane.normal = _
    rw [hr.normal, M3.mulVec_e1]
  rw [this]; exact IsRotation.unit1 hp

end Rib

theorem Segment.length_move {m : Affine ℝ} (hm : IsRigid m) (s : Segment ℝ) : (s.transform m).length = s.length := by
  simp only [Segment.length, Segment.transform, Affine.apply_sub, IsRotation.norm_mulVec hm]

theorem Segment.centroid_move (m : Affine ℝ) (s : Segment ℝ) : (s.transform m).centroid = m.apply s.centroid := by
  simp only [Segment.centroid, Segment.transform, Affine.apply, M3.mulVec, V3.real_add, V3.real_sdiv, real_add,
    real_mul, real_two]
  congr 1 <;> ring

/-- **C89, one rib on flat ground, geometric method.**  When ground and tyre are moved by one rigid motion, the
evaluation has the same flag and the moved record. -/
theorem C89_geometric_flat {r : Rib ℝ} (hr : IsRib r) {pose m : Affine ℝ} (hp : IsRigid pose) (hm : IsRigid m)
    (g : Flat ℝ) (hg : Unit3 g.plane.normal) :
    r.envelopGeometricFlat (movedFlat m g) (movedPose m pose) =
      ((r.envelopGeometricFlat g pose).1, movedRecord m (r.envelopGeometricFlat g pose).2) := by
  have hpl : (movedFlat m g).plane = g.plane.transform m := rfl
  have hno : (movedFlat m g).normal = M3.mulVec m.linear g.normal := rfl
  have hfr : (movedFlat m g).friction = g.friction := rfl
  unfold Rib.envelopGeometricFlat
  rw [hpl, Rib.diskGrd_moved, Inter.planeDisk_move hm real_eps_pos _ _ hg (Rib.normalGrd_unit hr hp)]
  rcases Inter.planeDisk g.plane (r.diskGrd pose) Scalar.eps with _ | seg
  · simp only [Option.map_none, Rib.noContact_moved]
  · simp only [Option.map_some, Segment.length_move hm]
    by_cases hlen : (Scalar.eps <. seg.length) = true
    · simp only [hlen, if_true, Segment.centroid_move, Rib.centerGrd_moved, Rib.normalGrd_moved, hno, hfr,
        Affine.apply_sub, IsRotation.crossV hm, IsRotation.normalizedV hm, IsRotation.norm_mulVec hm,
        IsRotation.dotV hm, M3.mulVec_smul, M3.mulVec_sub, movedRecord]
    · simp only [hlen, Bool.false_eq_true, if_false, Rib.noContact_moved]


/-! ## The sampling method -/

theorem Spec.KeepsVertical.flat {m : Affine ℝ} (hm : IsRigid m) (hv : KeepsVertical m) :
    m.linear.c0.z = 0 ∧ m.linear.c1.z = 0 := by
  have h0 := hm.orth02
  have h1 := hm.orth12
  unfold KeepsVertical at hv
  rw [hv] at h0 h1
  exact ⟨by linarith, by linarith⟩

theorem Spec.KeepsVertical.height {m : Affine ℝ} (hm : IsRigid m) (hv : KeepsVertical m) (p : V3 ℝ) :
    (m.apply p).z = p.z + m.trans.z := by
  obtain ⟨h0, h1⟩ := hv.flat hm
  unfold KeepsVertical at hv
  simp only [Affine.apply, M3.mulVec, V3.real_add, real_add, real_mul, h0, h1, hv]
  ring

theorem Spec.KeepsVertical.down {m : Affine ℝ} (hv : KeepsVertical m) :
    M3.mulVec m.linear (V3.neg V3.ez) = V3.neg (V3.ez : V3 ℝ) := by
  unfold KeepsVertical at hv
  simp [M3.mulVec, V3.real_neg, V3.ez, hv]

namespace Rib

/-- Evaluation by sampling, when the samples of the moved lines are the moved samples. -/
theorem envelopSampling_moved (r : Rib ℝ) {pose m : Affine ℝ} (hm : IsRigid m) (hv : KeepsVertical m)
    (f f' : Line ℝ → Option (V3 ℝ × ℝ))
    (hf : ∀ l : Line ℝ, f' (l.transform m) = (f l).map fun h => (m.apply h.1, h.2)) :
    r.envelopSampling f' (movedPose m pose) =
      ((r.envelopSampling f pose).1, movedRecord m (r.envelopSampling f pose).2) := by
  have hl : r.lineXp (movedPose m pose) = (r.lineXp pose).transform m ∧
      r.lineXm (movedPose m pose) = (r.lineXm pose).transform m ∧
      r.lineYp (movedPose m pose) = (r.lineYp pose).transform m ∧
      r.lineYm (movedPose m pose) = (r.lineYm pose).transform m := by
    simp only [lineXp, lineXm, lineYp, lineYm, Line.transform, V3.transform, hv.down, movedPose_place, and_self]
  have hc1 : (movedPose m pose).linear.c1 = M3.mulVec m.linear pose.linear.c1 := rfl
  unfold envelopSampling
  rw [hl.1, hl.2.1, hl.2.2.1, hl.2.2.2, hf, hf, hf, hf]
  rcases f (r.lineXp pose) with _ | ⟨p0, f0⟩
  · simp only [Option.map_none, noContact_moved]
  rcases f (r.lineXm pose) with _ | ⟨p1, f1⟩
  · simp only [Option.map_none, Option.map_some, noContact_moved]
  rcases f (r.lineYp pose) with _ | ⟨p2, f2⟩
  · simp only [Option.map_none, Option.map_some, noContact_moved]
  rcases f (r.lineYm pose) with _ | ⟨p3, f3⟩
  · simp only [Option.map_none, Option.map_some, noContact_moved]
  have hmean : V3.sdiv (V3.add (V3.add (V3.add (m.apply p0) (m.apply p1)) (m.apply p2)) (m.apply p3)) (lit 4 1) =
      m.apply (V3.sdiv (V3.add (V3.add (V3.add p0 p1) p2) p3) (lit 4 1)) := by
    simp only [Affine.apply, M3.mulVec, V3.real_add, V3.real_sdiv, real_add, real_mul, real_lit]
    congr 1 <;> ring
  simp only [Option.map_some, hmean, hc1, Affine.apply_sub, IsRotation.crossV hm, IsRotation.normalizedV hm,
    IsRotation.norm_mulVec hm, IsRotation.dotV hm, centerGrd_moved, noContact_moved]
  split <;> rfl

theorem samplingLineFlat_moved {m : Affine ℝ} (hm : IsRigid m) (g : Flat ℝ) (l : Line ℝ) :
    samplingLineFlat (movedFlat m g) (l.transform m) = (samplingLineFlat g l).map fun h => (m.apply h.1, h.2) := by
  have hpl : (movedFlat m g).plane = g.plane.transform m := rfl
  unfold samplingLineFlat
  rw [hpl, Inter.linePlane_move hm, Option.map_map, Option.map_map]
  rfl

theorem highest_moved {m : Affine ℝ} (hm : IsRigid m) (hv : KeepsVertical m) (h : V3 ℝ × ℝ) (hs : List (V3 ℝ × ℝ)) :
    highest (m.apply h.1, h.2) (hs.map fun h => (m.apply h.1, h.2)) =
      (m.apply (highest h hs).1, (highest h hs).2) := by
  unfold highest
  induction hs generalizing h with
  | nil => rfl
  | cons a as ih =>
    simp only [List.map_cons, List.foldl_cons, hv.height hm, real_lt, add_lt_add_iff_right]
    split
    · exact ih a
    · exact ih h

theorem samplingHits_moved {m : Affine ℝ} (hm : IsRigid m) {ts ts' : List (TriangleGround ℝ)}
    (h : List.Forall₂ (MovedTriangle m) ts ts') (l : Line ℝ) :
    samplingHits ts' (l.transform m) = (samplingHits ts l).map fun h => (m.apply h.1, h.2) := by
  unfold samplingHits
  induction h with
  | nil => rfl
  | @cons t t' ts ts' ht hts ih =>
    rw [List.filterMap_cons, List.filterMap_cons, ht.tri, Inter.lineTriangle_move hm, ht.friction, ih]
    rcases Inter.lineTriangle l t.tri Scalar.eps with _ | p <;> rfl

theorem samplingLineMesh_moved {m : Affine ℝ} (hm : IsRigid m) (hv : KeepsVertical m)
    {ts ts' : List (TriangleGround ℝ)} (h : List.Forall₂ (MovedTriangle m) ts ts') (l : Line ℝ) :
    samplingLineMesh ts' (l.transform m) = (samplingLineMesh ts l).map fun h => (m.apply h.1, h.2) := by
  unfold samplingLineMesh
  rw [samplingHits_moved hm h]
  rcases samplingHits ts l with _ | ⟨a, as⟩
  · rfl
  · simp only [List.map_cons, highest_moved hm hv, Option.map_some]

end Rib

/-- **C89, one rib, sampling method.**  When ground and tyre are moved by one rigid motion that keeps the vertical,
the evaluation has the same flag and the moved record, on flat ground and on every mesh. -/
theorem C89_sampling (r : Rib ℝ) {pose m : Affine ℝ} (hm : IsRigid m) (hv : KeepsVertical m) :
    (∀ g : Flat ℝ, r.envelopSamplingFlat (movedFlat m g) (movedPose m pose) =
      ((r.envelopSamplingFlat g pose).1, movedRecord m (r.envelopSamplingFlat g pose).2)) ∧
    ∀ ts ts' : List (TriangleGround ℝ), List.Forall₂ (MovedTriangle m) ts ts' →
      r.envelopSamplingMesh ts' (movedPose m pose) =
        ((r.envelopSamplingMesh ts pose).1, movedRecord m (r.envelopSamplingMesh ts pose).2) :=
  ⟨fun g => Rib.envelopSampling_moved r hm hv _ _ (Rib.samplingLineFlat_moved hm g),
    fun _ _ h => Rib.envelopSampling_moved r hm hv _ _ (Rib.samplingLineMesh_moved hm hv h)⟩

/-! ## The geometric method on a mesh -/

/-- No vertex of the triangle is on the plane of the rib, and two vertices on the same side are both farther from it
than `eps` times the difference of their distances. -/
def Spec.OffRib (pose : Affine ℝ) (r : Rib ℝ) (T : Triangle ℝ) : Prop :=
  ClearOfRib pose r T ∧ ∀ v ∈ [T.v0, T.v1, T.v2], side pose r v ≠ 0

/-- The line in which the plane of a disk cuts a triangle misses an edge, when no vertex is almost on the plane of the
disk. -/
theorem Inter.clear_of_off (T : Triangle ℝ) (d : Disk ℝ) (hd : Unit3 d.plane.normal) (hN : Unit3 T.layingPlane.normal)
    (tol : ℝ) (ht : 0 < tol)
    (hclear : ∀ u ∈ [T.v0, T.v1, T.v2], ∀ v ∈ [T.v0, T.v1, T.v2],
      0 < dot3 (minus u d.plane.origin) d.plane.normal * dot3 (minus v d.plane.origin) d.plane.normal →
      tol * |dot3 (minus u d.plane.origin) d.plane.normal - dot3 (minus v d.plane.origin) d.plane.normal| <
        |dot3 (minus u d.plane.origin) d.plane.normal|)
    (hoff : ∀ v ∈ [T.v0, T.v1, T.v2], dot3 (minus v d.plane.origin) d.plane.normal ≠ 0)
    (l : Line ℝ) (hl : Inter.planePlane d.layingPlane T.layingPlane tol = some l) : Inter.Clear l T tol := by
  have hx := (C51_plane_plane d.layingPlane T.layingPlane hd hN tol ht).2 l hl
  obtain ⟨v0, v1, v2⟩ := onPlane_centroid T
  have ho := ((hx l.origin).1 ⟨0, by simp [along]⟩).2
  have h1 := ((hx (along l.origin 1 l.direction)).1 ⟨1, rfl⟩).2
  have hdir : dot3 l.direction T.layingPlane.normal = 0 := by
    simp only [OnPlane, dot3, minus, along] at ho h1 ⊢
    linear_combination h1 - ho
  have hrel : ∀ v, OnPlane T.layingPlane v → dot3 (minus v l.origin) T.layingPlane.normal = 0 := by
    intro v hv
    simp only [OnPlane, dot3, minus] at ho hv ⊢
    linear_combination hv - ho
  set g : V3 ℝ → ℝ := fun v => dot3 (minus v d.plane.origin) d.plane.normal with hg
  have hit : ∀ a ∈ [T.v0, T.v1, T.v2], ∀ b ∈ [T.v0, T.v1, T.v2], OnPlane T.layingPlane a → OnPlane T.layingPlane b →
      Inter.lineSegment l ⟨a, b⟩ tol ≠ none → g a * g b ≤ 0 := by
    intro a ha b hb pa pb hne
    obtain ⟨p, hp⟩ := Option.ne_none_iff_exists'.1 hne
    have hab : dot3 (minus b a) T.layingPlane.normal = 0 := by
      have := hrel _ pa; have := hrel _ pb
      simp only [dot3, minus] at *; linarith
    obtain ⟨hol, t, t0, t1, rfl⟩ := Inter.lineSegment_spec l ⟨a, b⟩ tol ht (triple_zero hN (hrel _ pa) hdir hab) p hp
    dsimp only at hol hp ⊢
    have hgp : g a + t * (g b - g a) = 0 := by
      have : OnPlane d.layingPlane (along a t (minus b a)) := ((hx _).1 hol).1
      simp only [OnPlane, Disk.layingPlane, dot3, minus, along, g] at this ⊢
      linear_combination this
    by_contra hc
    push Not at hc
    exact no_crossing hc (hclear a ha b hb hc) (hclear b hb a ha (by rw [mul_comm]; exact hc)) t0 t1 hgp
  by_contra hc
  unfold Inter.Clear at hc
  push Not at hc
  obtain ⟨e0, e1, e2⟩ := hc
  have m01 := hit T.v0 (by simp) T.v1 (by simp) v0 v1 e0
  have m12 := hit T.v1 (by simp) T.v2 (by simp) v1 v2 e1
  have m20 := hit T.v2 (by simp) T.v0 (by simp) v2 v0 e2
  have c0 := hoff T.v0 (by simp)
  have c1 := hoff T.v1 (by simp)
  have c2 := hoff T.v2 (by simp)
  change g T.v0 ≠ 0 at c0
  change g T.v1 ≠ 0 at c1
  change g T.v2 ≠ 0 at c2
  nlinarith [mul_nonneg_of_nonpos_of_nonpos m01 m12, mul_pos (mul_self_pos.2 c0) (mul_self_pos.2 c2), mul_self_pos.2 c1]

/-- A triangle without a normal direction has no section. -/
theorem Inter.triangleDisk_flat {T : Triangle ℝ} (hz : ¬ Unit3 T.normal) (d : Disk ℝ) {tol : ℝ} (ht : 0 < tol) :
    Inter.triangleDisk T d tol = .ok none := by
  have h : V3.cross (V3.sub T.v1 T.v0) (V3.sub T.v2 T.v0) = ⟨0, 0, 0⟩ := by
    by_contra hc
    exact hz (V3.sq_normalized hc)
  have hn : T.layingPlane.normal = ⟨0, 0, 0⟩ := by
    show V3.normalized _ = _; rw [V3.normalized_zero h, h]
  have h0 : V3.normalized (⟨0, 0, 0⟩ : V3 ℝ) = ⟨0, 0, 0⟩ := V3.normalized_zero rfl
  have h1 : V3.cross (V3.normalized d.layingPlane.normal) (⟨0, 0, 0⟩ : V3 ℝ) = ⟨0, 0, 0⟩ := by
    rw [V3.real_cross]; simp
  have hpp : Inter.planePlane d.layingPlane T.layingPlane tol = none := by
    unfold Inter.planePlane
    dsimp only
    rw [hn, h0, h1, V3.norm_eq_zero.2 rfl]
    simp [Scalar.isApprox, ht]
  simp only [Inter.triangleDisk, Inter.planeTriangle, hpp, Res.bind_ok, Res.pure_eq]

theorem Spec.IsRotation.unit_iff {R : M3 ℝ} (hR : IsRotation R) (v : V3 ℝ) : Unit3 (M3.mulVec R v) ↔ Unit3 v := by
  have := hR.dot_mulVec v v
  simp only [dot3] at this
  unfold Unit3
  constructor <;> intro h <;> nlinarith

/-- The section of a triangle moves with the scene. -/
theorem Rib.section_moved {r : Rib ℝ} (hr : IsRib r) {pose m : Affine ℝ} (hp : IsRigid pose) (hm : IsRigid m)
    {t t' : TriangleGround ℝ} (h : MovedTriangle m t t') (hoff : OffRib pose r t.tri ∨ m.trans = ⟨0, 0, 0⟩) :
    Inter.triangleDisk t'.tri (r.diskGrd (movedPose m pose)) Scalar.eps =
      Inter.moveRes m (Inter.triangleDisk t.tri (r.diskGrd pose) Scalar.eps) := by
  rw [h.tri, Rib.diskGrd_moved]
  rcases hoff with ⟨hcl, hne⟩ | h0
  · by_cases hN : Unit3 t.tri.normal
    · refine Inter.triangleDisk_move hm real_eps_pos _ _ hN (normalGrd_unit hr hp) fun l hl => ?_
      refine Inter.clear_of_off t.tri (r.diskGrd pose) (normalGrd_unit hr hp) hN _ real_eps_pos ?_ ?_ l hl
      · intro u hu v hv huv
        simp only [Rib.side_eq hr] at huv ⊢
        exact hcl u hu v hv huv
      · intro v hv
        rw [Rib.side_eq hr]
        exact hne v hv
    · have hN' : ¬ Unit3 (t.tri.transform m).normal := by
        rw [Triangle.normal_move hm, IsRotation.unit_iff hm]; exact hN
      rw [Inter.triangleDisk_flat hN _ real_eps_pos, Inter.triangleDisk_flat hN' _ real_eps_pos]
      rfl
  · exact Inter.triangleDisk_rot hm h0 _ _ _

/-- A contribution, moved. -/
noncomputable def Spec.movedContrib (m : Affine ℝ) (c : Rib.Contrib ℝ) : Rib.Contrib ℝ :=
  { c with point := m.apply c.point, normal := M3.mulVec m.linear c.normal }

/-- Accumulators, moved: the point is a sum weighted by the volume. -/
noncomputable def Spec.movedAcc (m : Affine ℝ) (a : Rib.Acc ℝ) : Rib.Acc ℝ :=
  { a with point := V3.add (M3.mulVec m.linear a.point) (V3.smul a.volume m.trans)
           normal := M3.mulVec m.linear a.normal }

theorem Rib.contrib_moved (r : Rib ℝ) {pose m : Affine ℝ} (hm : IsRigid m) {t t' : TriangleGround ℝ}
    (h : MovedTriangle m t t') (seg : Segment ℝ) :
    r.contrib (movedPose m pose) t' (seg.transform m) = (r.contrib pose t seg).map (movedContrib m) := by
  have hinv : ∀ v : V3 ℝ, M3.mulVec (M3.transpose (movedPose m pose).linear) (M3.mulVec m.linear v) =
      M3.mulVec (M3.transpose pose.linear) v := by
    intro v
    have : ∀ w, M3.mulVec (M3.transpose (M3.mul m.linear pose.linear)) w =
        M3.mulVec (M3.transpose pose.linear) (M3.mulVec (M3.transpose m.linear) w) := by
      intro w
      simp only [M3.mul, M3.transpose, M3.mulVec, real_add, real_mul]; congr 1 <;> ring
    rw [movedPose, this, IsRotation.transpose_mulVec hm]
  have e0 : (seg.transform m).v0 = m.apply seg.v0 := rfl
  have e1 : (seg.transform m).v1 = m.apply seg.v1 := rfl
  have e2 : (movedPose m pose).trans = m.apply pose.trans := rfl
  simp only [Rib.contrib, e0, e1, e2, centerGrd_moved, normalGrd_moved, Affine.apply_sub, hinv, Segment.length_move hm,
    Affine.apply_add, movedPose_linear, h.normal, h.friction, M3.mulVec_sub, IsRotation.dotV hm, M3.mulVec_smul,
    M3.mulVec_add, IsRotation.normalizedV hm]
  split <;> split <;> rfl

theorem Rib.Acc.add_moved (m : Affine ℝ) (a : Rib.Acc ℝ) (c : Rib.Contrib ℝ) :
    (movedAcc m a).add (movedContrib m c) = movedAcc m (a.add c) := by
  simp only [Rib.Acc.add, movedAcc, movedContrib, Affine.apply, M3.mulVec, V3.real_add, V3.real_smul, real_add,
    real_mul]
  congr 2 <;> ring

/-- The result of the loop over the triangles, moved. -/
noncomputable def Spec.movedAccRes (m : Affine ℝ) : Res (Rib.Acc ℝ) → Res (Rib.Acc ℝ)
  | .ok a => .ok (movedAcc m a)
  | .throw w => .throw w
  | .ub w => .ub w

theorem Rib.geomLoop_moved {r : Rib ℝ} (hr : IsRib r) {pose m : Affine ℝ} (hp : IsRigid pose) (hm : IsRigid m)
    {ts ts' : List (TriangleGround ℝ)} (h : List.Forall₂ (MovedTriangle m) ts ts')
    (hoff : (∀ t ∈ ts, OffRib pose r t.tri) ∨ m.trans = ⟨0, 0, 0⟩) (acc : Rib.Acc ℝ) :
    r.geomLoop (movedPose m pose) ts' (movedAcc m acc) = movedAccRes m (r.geomLoop pose ts acc) := by
  induction h generalizing acc with
  | nil => rfl
  | @cons t t' ts ts' ht hts ih =>
    have ih := ih (hoff.imp (fun h t ht => h t (List.mem_cons_of_mem _ ht)) fun h => h)
    rw [Rib.geomLoop, Rib.geomLoop, Rib.section_moved hr hp hm ht (hoff.imp (fun h => h t (by simp)) fun h => h)]
    rcases Inter.triangleDisk t.tri (r.diskGrd pose) Scalar.eps with (_ | seg) | w | w
    · exact ih acc
    · simp only [Inter.moveRes, Option.map_some, Res.bind_ok, Rib.contrib_moved r hm ht]
      rcases r.contrib pose t seg with _ | c
      · rfl
      · simp only [Option.map_some, Rib.Acc.add_moved]
        exact ih _
    · rfl
    · rfl

theorem Rib.geomFinish_moved (r : Rib ℝ) {pose m : Affine ℝ} (hm : IsRigid m) (acc : Rib.Acc ℝ)
    (hvol : (r.geomFinish pose acc).1 = true → acc.volume ≠ 0) :
    r.geomFinish (movedPose m pose) (movedAcc m acc) =
      ((r.geomFinish pose acc).1, movedRecord m (r.geomFinish pose acc).2) := by
  have e1 : (movedAcc m acc).hit = acc.hit := rfl
  have e2 : (movedAcc m acc).area = acc.area := rfl
  have e3 : (movedAcc m acc).volume = acc.volume := rfl
  have e4 : (movedAcc m acc).friction = acc.friction := rfl
  have e5 : (movedAcc m acc).normal = M3.mulVec m.linear acc.normal := rfl
  unfold Rib.geomFinish at hvol ⊢
  rw [e1, e2, e3]
  split
  · rename_i hc
    rw [if_pos hc] at hvol
    have hv := hvol rfl
    have hpt : V3.sdiv (movedAcc m acc).point acc.volume = m.apply (V3.sdiv acc.point acc.volume) := by
      simp only [movedAcc, Affine.apply, M3.mulVec, V3.real_add, V3.real_smul, V3.real_sdiv, real_add, real_mul]
      congr 1 <;> field_simp
    simp only [hpt, e4, e5, M3.mulVec_sdiv, IsRotation.normalizedV hm, Rib.centerGrd_moved, Affine.apply_sub,
      IsRotation.norm_mulVec hm, movedRecord]
  · rw [noContact_moved]

/-- **C89, one rib on a mesh, geometric method** (partial).  When ground and tyre are moved by one rigid motion, the
evaluation has the same flag and the moved record, and throws when the original one does.  This holds when no vertex
of the mesh is within the tolerance of the plane of the rib, or when the motion is a rotation about the origin; and
for contacts of a volume other than zero (the code divides by it).  Missing: vertices nearly on the plane of the rib,
for which it is false (`C89_geometric_mesh_refuted`). -/
theorem C89_geometric_mesh_partial {r : Rib ℝ} (hr : IsRib r) {pose m : Affine ℝ} (hp : IsRigid pose) (hm : IsRigid m)
    {ts ts' : List (TriangleGround ℝ)} (h : List.Forall₂ (MovedTriangle m) ts ts')
    (hoff : (∀ t ∈ ts, OffRib pose r t.tri) ∨ m.trans = ⟨0, 0, 0⟩) :
    (∀ flag o, r.envelopGeometricMesh ts pose = .ok (flag, o) → (flag = true → o.volume ≠ 0) →
      r.envelopGeometricMesh ts' (movedPose m pose) = .ok (flag, movedRecord m o)) ∧
    ∀ w, r.envelopGeometricMesh ts pose = .throw w → r.envelopGeometricMesh ts' (movedPose m pose) = .throw w := by
  have h0 : movedAcc m (Rib.Acc.init : Rib.Acc ℝ) = Rib.Acc.init := by
    simp [movedAcc, Rib.Acc.init, V3.zeros, M3.mulVec, V3.real_add, V3.real_smul]
  have key := Rib.geomLoop_moved hr hp hm h hoff Rib.Acc.init
  rw [h0] at key
  unfold Rib.envelopGeometricMesh
  rw [key]
  rcases hl : r.geomLoop pose ts Rib.Acc.init with acc | w | w
  · refine ⟨fun flag o e hv => ?_, fun w e => by cases e⟩
    simp only [Res.bind_ok, Res.pure_eq, Res.ok.injEq] at e
    simp only [movedAccRes, Res.bind_ok, Res.pure_eq, Res.ok.injEq]
    rw [Rib.geomFinish_moved r hm acc, e]
    intro hf
    have hvol : (r.geomFinish pose acc).2.volume = acc.volume := by
      unfold Rib.geomFinish at hf ⊢
      split at hf <;> rename_i hc
      · rw [if_pos hc]
      · cases hf
    rw [e] at hf hvol
    rw [← hvol]
    exact hv hf
  · exact ⟨fun flag o e => (by cases e), fun w' e => by cases e; rfl⟩
  · exact ⟨fun flag o e => (by cases e), fun w' e => by cases e⟩


/-! ## Shells -/

/-- `sB` is the shell `sA` after the scene has been moved: the pose is moved, and so are all records. -/
structure Spec.MovedShell (m : Affine ℝ) (pol : Policy) (sA sB : Shell ℝ) : Prop where
  ribs : sB.ribs = sA.ribs
  pose : sB.pose = movedPose m sA.pose
  records : ∀ i < sA.size, ∃ o, sA.out.read pol i = .ok o ∧ sB.out.read pol i = .ok (movedRecord m o)

theorem Shell.accessible_size {pol : Policy} {a b : RecVec ℝ} (h1 : a.size = b.size) (h2 : a.cap = b.cap) (i : Nat) :
    a.accessible pol i = b.accessible pol i := by
  simp only [RecVec.accessible, h1, h2]

/-- Two loops over the ribs whose evaluations correspond. -/
theorem Shell.withOut_moved {pol : Policy} {comb : Bool → Bool → Bool} {m : Affine ℝ} {s0 s1 sA : Shell ℝ}
    {f f' : Rib ℝ → Res (Bool × Output ℝ)} {b : Bool} (hr : s1.ribs = s0.ribs) (ho : s1.out = s0.out)
    (hp : s1.pose = movedPose m s0.pose)
    (hf : ∀ r ∈ s0.ribs, ∀ c o, f r = .ok (c, o) → f' r = .ok (c, movedRecord m o))
    (h : withOut s0 (ribLoop pol comb (fun _ r => f r) s0.ribs 0 s0.out false) = .ok sA b) :
    ∃ sB, withOut s1 (ribLoop pol comb (fun _ r => f' r) s1.ribs 0 s1.out false) = .ok sB b ∧
      MovedShell m pol sA sB := by
  unfold withOut at h
  split at h
  swap
  · cases h
  swap
  · cases h
  rename_i out b' hl
  cases h
  obtain ⟨res, h1, h2, h3, -, h5, h6, h7⟩ := ribLoop_ok hl
  have hres : ∀ (j : Nat) r, s0.ribs[j]? = some r → ∃ c, res[j]? = some c := by
    intro j r hj
    have : j < res.length := by rw [h1]; exact (List.getElem?_eq_some_iff.1 hj).1
    exact ⟨_, List.getElem?_eq_getElem this⟩
  obtain ⟨out', b1, hl'⟩ := ribLoop_total (pol := pol) (comb := comb) (f := fun _ r => f' r) (ribs := s1.ribs) (i := 0)
    (out := s1.out) (b := false)
    (fun j hj => by
      rw [hr] at hj
      rw [ho]
      exact h2 j _ (List.getElem?_eq_getElem hj))
    (fun j r hj => by
      rw [hr] at hj
      obtain ⟨c, hc⟩ := hres j r hj
      exact ⟨_, hf r (List.mem_of_getElem? hj) _ _ (h3 j r c hj hc).1⟩)
  obtain ⟨res', k1, k2, k3, -, k5, k6, k7⟩ := ribLoop_ok hl'
  rw [hr] at k1 k2 k3
  rw [ho] at k5 k6
  have hcorr : ∀ (j : Nat) r c c', s0.ribs[j]? = some r → res[j]? = some c → res'[j]? = some c' →
      c' = (c.1, movedRecord m c.2) := by
    intro j r c c' hj hc hc'
    have e := hf r (List.mem_of_getElem? hj) _ _ (h3 j r c hj hc).1
    have e' := (k3 j r c' hj hc').1
    rw [e] at e'
    exact (Res.ok.inj e').symm
  have hlist : res' = res.map fun c => (c.1, movedRecord m c.2) := by
    apply List.ext_getElem?
    intro j
    rw [List.getElem?_map]
    by_cases hj : j < s0.ribs.length
    · have hj1 : j < res.length := by rw [h1]; exact hj
      have hj2 : j < res'.length := by rw [k1]; exact hj
      have e1 := List.getElem?_eq_getElem hj1
      have e2 := List.getElem?_eq_getElem hj2
      rw [e2, e1]
      exact congrArg some (hcorr j _ _ _ (List.getElem?_eq_getElem hj) e1 e2)
    · rw [List.getElem?_eq_none (by rw [k1]; omega), List.getElem?_eq_none (by rw [h1]; omega)]
      rfl
  have hb : b1 = b := by
    rw [k7, h7, hlist, List.foldl_map]
  subst hb
  refine ⟨{ s1 with out := out' }, by rw [hl']; rfl, hr, hp, fun i hi => ?_⟩
  have hi : i < s0.ribs.length := hi
  have hj1 : i < res.length := by rw [h1]; exact hi
  have hj2 : i < res'.length := by rw [k1]; exact hi
  have er := List.getElem?_eq_getElem hi
  have e1 := List.getElem?_eq_getElem hj1
  have e2 := List.getElem?_eq_getElem hj2
  have a1 : s0.out.accessible pol i = true := by simpa using h2 i _ er
  have m1 := (h3 i _ _ er e1).2
  have m2 := (k3 i _ _ er e2).2
  rw [Nat.zero_add] at m1 m2
  refine ⟨(res[i]).2, ?_, ?_⟩
  · show out.read pol i = _
    rw [RecVec.read, accessible_size h5 h6, a1, if_pos rfl, m1]
  · show out'.read pol i = _
    rw [RecVec.read, accessible_size k5 k6, a1, if_pos rfl, m2, hcorr i _ _ _ er e1 e2]

/-- The flat ground constructed from the moved data is the moved flat ground. -/
theorem Spec.movedFlat_make {m : Affine ℝ} (hm : IsRigid m) {f : ℝ} {o n : V3 ℝ} {g : Flat ℝ}
    (hg : Flat.make f o n = .ok g) (hup : 0 < (M3.mulVec m.linear n).z) :
    Flat.make f (m.apply o) (M3.mulVec m.linear n) = .ok (movedFlat m g) := by
  simp only [Flat.make, Res.assert, real_le, real_lt, real_zero] at hg ⊢
  by_cases h1 : 0 ≤ f
  · by_cases h2 : 0 < n.z
    · simp only [h1, h2, decide_true, if_true, Res.bind_ok, Res.pure_eq, Res.ok.injEq] at hg
      simp only [h1, hup, decide_true, if_true, Res.bind_ok, Res.pure_eq, ← hg, movedFlat, Plane.normalize,
        IsRotation.normalizedV hm]
    · simp [h1, h2] at hg
  · simp [h1] at hg

/-- **C89 for the tyre on flat ground.**  A setup that returns also returns, with the same flag, when ground and pose
are moved by one rigid motion (for the sampling method: one that keeps the vertical), and all records are the moved
ones. -/
theorem C89_setup_flat {pol : Policy} {s sA : Shell ℝ} (hreach : s.Reachable pol) {pose m : Affine ℝ}
    (hp : IsRigid pose) (hm : IsRigid m) {f : ℝ} {o n : V3 ℝ} {g : Flat ℝ} (hg : Flat.make f o n = .ok g)
    {method : String} (hv : method = "sampling" → KeepsVertical m) {b : Bool}
    (hA : s.setupFlat pol g pose method = .ok sA b) :
    ∃ sB, s.setupFlat pol (movedFlat m g) (movedPose m pose) method = .ok sB b ∧ MovedShell m pol sA sB := by
  have hn : Unit3 g.plane.normal := by
    obtain ⟨h1, -⟩ := C26_flat_normal f o n g hg
    exact Real.sqrt_eq_one.1 h1
  rw [Shell.setupFlat_eq] at hA ⊢
  refine Shell.withOut_moved (s0 := (s.transform pose).updateBBox)
    (s1 := (s.transform (movedPose m pose)).updateBBox) (f := fun r => r.envelopFlat g pose method) rfl rfl rfl ?_ hA
  intro r hr c out hc
  have hrib := hreach.isRib r hr
  unfold Rib.envelopFlat at hc ⊢
  by_cases h1 : method = "geometric"
  · rw [if_pos h1] at hc ⊢
    rw [C89_geometric_flat hrib hp hm g hn, Res.ok.inj hc]
  · rw [if_neg h1] at hc ⊢
    by_cases h2 : method = "sampling"
    · rw [if_pos h2] at hc ⊢
      rw [(C89_sampling r hm (hv h2)).1 g, Res.ok.inj hc]
    · rw [if_neg h2] at hc; cases hc


theorem Shell.readFrom_moved {m : Affine ℝ} {pol : Policy} {a b : RecVec ℝ} (k i : Nat)
    (h : ∀ j, i ≤ j → j < i + k → ∃ o, a.read pol j = .ok o ∧ b.read pol j = .ok (movedRecord m o)) :
    ∃ os, readFrom pol a k i = .ok os ∧ readFrom pol b k i = .ok (os.map (movedRecord m)) ∧ os.length = k := by
  induction k generalizing i with
  | zero => exact ⟨[], rfl, rfl, rfl⟩
  | succ k ih =>
    obtain ⟨o, h1, h2⟩ := h i le_rfl (by omega)
    obtain ⟨os, h3, h4, h5⟩ := ih (i + 1) fun j hj hj' => h j (by omega) (by omega)
    exact ⟨o :: os, by simp [readFrom, h1, h3], by simp [readFrom, h2, h4], by simp [h5]⟩

theorem Spec.MovedShell.all {m : Affine ℝ} {pol : Policy} {sA sB : Shell ℝ} (h : MovedShell m pol sA sB) :
    ∃ os, sA.records pol = .ok os ∧ sB.records pol = .ok (os.map (movedRecord m)) ∧ os.length = sA.size := by
  have hsz : sB.size = sA.size := by unfold Shell.size; rw [h.ribs]
  obtain ⟨os, h1, h2, h3⟩ := Shell.readFrom_moved (m := m) (pol := pol) (a := sA.out) (b := sB.out) sA.size 0
    fun j _ hj => h.records j (by omega)
  exact ⟨os, h1, by rw [Shell.records, hsz]; exact h2, h3⟩

/-- A weighted sum of moved points. -/
theorem Shell.sum_moved (m : Affine ℝ) (os : List (Output ℝ)) (a : V3 ℝ) (w : ℝ) :
    (os.map (movedRecord m)).foldl (fun p o => V3.add p (V3.smul o.volume o.point))
        (V3.add (M3.mulVec m.linear a) (V3.smul w m.trans)) =
      V3.add (M3.mulVec m.linear (os.foldl (fun p o => V3.add p (V3.smul o.volume o.point)) a))
        (V3.smul (os.foldl (fun v o => v +. o.volume) w) m.trans) := by
  induction os generalizing a w with
  | nil => rfl
  | cons o os ih =>
    simp only [List.map_cons, List.foldl_cons]
    rw [← ih]
    congr 1
    simp only [movedRecord, Affine.apply, M3.mulVec, V3.real_add, V3.real_smul, real_add, real_mul]
    congr 1 <;> ring

theorem Shell.sum_moved_plain (m : Affine ℝ) (os : List (Output ℝ)) (a : V3 ℝ) (k : ℝ) :
    (os.map (movedRecord m)).foldl (fun p o => V3.add p o.point)
        (V3.add (M3.mulVec m.linear a) (V3.smul k m.trans)) =
      V3.add (M3.mulVec m.linear (os.foldl (fun p o => V3.add p o.point) a))
        (V3.smul (k + os.length) m.trans) := by
  induction os generalizing a k with
  | nil => simp
  | cons o os ih =>
    simp only [List.map_cons, List.foldl_cons, List.length_cons]
    rw [show k + ((os.length + 1 : ℕ) : ℝ) = (k + 1) + os.length by push_cast; ring, ← ih]
    congr 1
    simp only [movedRecord, Affine.apply, M3.mulVec, V3.real_add, V3.real_smul, real_add, real_mul]
    congr 1 <;> ring

theorem Shell.sum_moved_normal (m : Affine ℝ) (os : List (Output ℝ)) (a : V3 ℝ) :
    (os.map (movedRecord m)).foldl (fun p o => V3.add p (V3.smul o.volume o.normal)) (M3.mulVec m.linear a) =
      M3.mulVec m.linear (os.foldl (fun p o => V3.add p (V3.smul o.volume o.normal)) a) ∧
    (os.map (movedRecord m)).foldl (fun p o => V3.add p o.normal) (M3.mulVec m.linear a) =
      M3.mulVec m.linear (os.foldl (fun p o => V3.add p o.normal) a) := by
  constructor
  · induction os generalizing a with
    | nil => rfl
    | cons o os ih =>
      simp only [List.map_cons, List.foldl_cons]
      rw [← ih]
      simp only [movedRecord, M3.mulVec_smul, M3.mulVec_add]
  · induction os generalizing a with
    | nil => rfl
    | cons o os ih =>
      simp only [List.map_cons, List.foldl_cons]
      rw [← ih]
      simp only [movedRecord, M3.mulVec_add]

theorem Shell.contactFrame_moved {m : Affine ℝ} (hm : IsRigid m) (y n p : V3 ℝ) :
    contactFrame (M3.mulVec m.linear y) (M3.mulVec m.linear n) (m.apply p) = movedPose m (contactFrame y n p) := by
  simp only [contactFrame, IsRotation.crossV hm, IsRotation.normalizedV hm, movedPose, M3.mul]

theorem Shell.angles_moved {m : Affine ℝ} (hm : IsRigid m) (F P : Affine ℝ) :
    M3.mul (M3.transpose (movedPose m F).linear) (movedPose m P).linear = M3.mul (M3.transpose F.linear) P.linear := by
  have hinv : ∀ v : V3 ℝ, M3.mulVec (M3.transpose (movedPose m F).linear) (M3.mulVec m.linear v) =
      M3.mulVec (M3.transpose F.linear) v := by
    intro v
    have : ∀ w, M3.mulVec (M3.transpose (M3.mul m.linear F.linear)) w =
        M3.mulVec (M3.transpose F.linear) (M3.mulVec (M3.transpose m.linear) w) := by
      intro w
      simp only [M3.mul, M3.transpose, M3.mulVec, real_add, real_mul]; congr 1 <;> ring
    rw [movedPose, this, IsRotation.transpose_mulVec hm]
  show (⟨_, _, _⟩ : M3 ℝ) = ⟨_, _, _⟩
  congr 1
  · exact hinv _
  · exact hinv _
  · exact hinv _

/-- **C89, the aggregated results.**  When all records are moved, so are the contact point, normal and frame of the
tyre, and friction, depth, area, volume and the relative angles are the same; likewise for each rib. -/
theorem C89_getters {m : Affine ℝ} (hm : IsRigid m) {pol : Policy} {sA sB : Shell ℝ} (h : MovedShell m pol sA sB)
    (hn : 1 ≤ sA.size) :
    (∃ p n fr d ar v, sA.contactPoint pol = .ok p ∧ sB.contactPoint pol = .ok (m.apply p) ∧
      sA.contactNormal pol = .ok n ∧ sB.contactNormal pol = .ok (M3.mulVec m.linear n) ∧
      sA.contactFriction pol = .ok fr ∧ sB.contactFriction pol = .ok fr ∧
      sA.contactDepth pol = .ok d ∧ sB.contactDepth pol = .ok d ∧
      sA.contactArea pol = .ok ar ∧ sB.contactArea pol = .ok ar ∧
      sA.contactVolume pol = .ok v ∧ sB.contactVolume pol = .ok v) ∧
    (∃ F a, sA.contactPointAffine pol = .ok F ∧ sB.contactPointAffine pol = .ok (movedPose m F) ∧
      sA.relativeAngles pol = .ok a ∧ sB.relativeAngles pol = .ok a) ∧
    ∀ i < sA.size, ∃ F a, sA.contactPointAffineAt pol i = .ok F ∧
      sB.contactPointAffineAt pol i = .ok (movedPose m F) ∧
      sA.relativeAnglesAt pol i = .ok a ∧ sB.relativeAnglesAt pol i = .ok a := by
  obtain ⟨os, hA, hB, hlen⟩ := h.all
  have hsz : sB.size = sA.size := by unfold Shell.size; rw [h.ribs]
  have hnum : ∀ (c : Output ℝ → ℝ → ℝ), (∀ o x, c (movedRecord m o) x = c o x) → ∀ x,
      (os.map (movedRecord m)).foldl (fun v o => c o v) x = os.foldl (fun v o => c o v) x := by
    intro c hc x
    rw [List.foldl_map]
    congr 1
    funext v o
    exact hc o v
  have hvol := hnum (fun o v => v +. o.volume) (fun _ _ => rfl) zero
  have hVA : sA.contactVolume pol = .ok (os.foldl (fun v o => v +. o.volume) zero) := by
    rw [Shell.contactVolume, hA]; rfl
  have hVB : sB.contactVolume pol = .ok (os.foldl (fun v o => v +. o.volume) zero) := by
    rw [Shell.contactVolume, hB, ← hvol]; rfl
  generalize hv : os.foldl (fun v o => v +. o.volume) zero = v at *
  have hz0 : (V3.zeros : V3 ℝ) = V3.add (M3.mulVec m.linear V3.zeros) (V3.smul 0 m.trans) := by
    simp [V3.zeros, M3.mulVec, V3.real_add, V3.real_smul]
  have hz1 : (V3.zeros : V3 ℝ) = M3.mulVec m.linear V3.zeros := by
    simp [V3.zeros, M3.mulVec]
  have hpoint : ∃ p, sA.contactPoint pol = .ok p ∧ sB.contactPoint pol = .ok (m.apply p) := by
    simp only [Shell.contactPoint, hVA, hVB, hA, hB, Res.bind_ok, hsz]
    by_cases hc : (v <. Scalar.eps) = true
    · rw [if_pos hc, if_pos hc]
      refine ⟨_, rfl, ?_⟩
      have hk : (sA.size : ℝ) ≠ 0 := by exact_mod_cast (by omega : sA.size ≠ 0)
      have := Shell.sum_moved_plain m os V3.zeros 0
      rw [← hz0] at this
      rw [this, hlen, zero_add]
      generalize os.foldl (fun p o => V3.add p o.point) V3.zeros = q
      simp only [Res.pure_eq, Res.ok.injEq, Affine.apply, M3.mulVec, V3.real_add, V3.real_smul, V3.real_sdiv, real_add,
        real_mul, real_ofNat]
      congr 1 <;> field_simp
    · rw [if_neg hc, if_neg hc]
      refine ⟨_, rfl, ?_⟩
      have hk : v ≠ 0 := by
        rintro rfl
        simp [real_eps_pos] at hc
      have := Shell.sum_moved m os V3.zeros 0
      rw [← hz0] at this
      rw [this]
      have hv' : os.foldl (fun v o => v +. o.volume) 0 = v := by rw [← hv, real_zero]
      rw [hv']
      generalize os.foldl (fun p o => V3.add p (V3.smul o.volume o.point)) V3.zeros = q
      simp only [Res.pure_eq, Res.ok.injEq, Affine.apply, M3.mulVec, V3.real_add, V3.real_smul, V3.real_sdiv, real_add,
        real_mul]
      congr 1 <;> field_simp
  have hnormal : ∃ n, sA.contactNormal pol = .ok n ∧ sB.contactNormal pol = .ok (M3.mulVec m.linear n) := by
    have hs := Shell.sum_moved_normal m os V3.zeros
    rw [← hz1] at hs
    simp only [Shell.contactNormal, hVA, hVB, hA, hB, Res.bind_ok, hsz]
    by_cases hc : (v <. Scalar.eps) = true
    · rw [if_pos hc, if_pos hc]
      exact ⟨_, rfl, by rw [hs.2, M3.mulVec_sdiv, IsRotation.normalizedV hm]; rfl⟩
    · rw [if_neg hc, if_neg hc]
      exact ⟨_, rfl, by rw [hs.1, M3.mulVec_sdiv, IsRotation.normalizedV hm]; rfl⟩
  obtain ⟨p, hp1, hp2⟩ := hpoint
  obtain ⟨n, hn1, hn2⟩ := hnormal
  have hfric : ∃ x, sA.contactFriction pol = .ok x ∧ sB.contactFriction pol = .ok x := by
    simp only [Shell.contactFriction, hVA, hVB, hA, hB, Res.bind_ok, hsz]
    by_cases hc : (v <. Scalar.eps) = true
    · rw [if_pos hc, if_pos hc]
      exact ⟨_, rfl, by rw [hnum (fun o f => f +. o.friction) (fun _ _ => rfl)]; rfl⟩
    · rw [if_neg hc, if_neg hc]
      exact ⟨_, rfl, by rw [hnum (fun o f => f +. o.friction *. o.volume) (fun _ _ => rfl)]; rfl⟩
  have hdepth : ∃ x, sA.contactDepth pol = .ok x ∧ sB.contactDepth pol = .ok x := by
    simp only [Shell.contactDepth, hVA, hVB, hA, hB, Res.bind_ok, hsz]
    by_cases hc : (v <. Scalar.eps) = true
    · rw [if_pos hc, if_pos hc]
      exact ⟨_, rfl, rfl⟩
    · rw [if_neg hc, if_neg hc]
      exact ⟨_, rfl, by rw [hnum (fun o f => f +. o.depth *. o.volume) (fun _ _ => rfl)]; rfl⟩
  have harea : ∃ x, sA.contactArea pol = .ok x ∧ sB.contactArea pol = .ok x := by
    simp only [Shell.contactArea, hA, hB, Res.bind_ok]
    exact ⟨_, rfl, by rw [hnum (fun o f => f +. o.friction) (fun _ _ => rfl)]; rfl⟩
  obtain ⟨fr, hf1, hf2⟩ := hfric
  obtain ⟨d, hd1, hd2⟩ := hdepth
  obtain ⟨ar, ha1, ha2⟩ := harea
  have hy : sB.yAxis = M3.mulVec m.linear sA.yAxis := by
    unfold Shell.yAxis; rw [h.pose]; rfl
  refine ⟨⟨p, n, fr, d, ar, v, hp1, hp2, hn1, hn2, hf1, hf2, hd1, hd2, ha1, ha2, hVA, hVB⟩, ?_, ?_⟩
  · have e1 : sA.contactPointAffine pol = .ok (Shell.contactFrame sA.yAxis n p) := by
      simp only [Shell.contactPointAffine, hp1, hn1, Res.bind_ok, Res.pure_eq]
    have e2 : sB.contactPointAffine pol = .ok (movedPose m (Shell.contactFrame sA.yAxis n p)) := by
      simp only [Shell.contactPointAffine, hp2, hn2, Res.bind_ok, Res.pure_eq, hy, Shell.contactFrame_moved hm]
    refine ⟨_, _, e1, e2, by rw [Shell.relativeAngles, e1]; rfl, ?_⟩
    rw [Shell.relativeAngles, e2, Res.bind_ok, h.pose, Shell.angles_moved hm]
    rfl
  · intro i hi
    obtain ⟨o, h1, h2⟩ := h.records i hi
    have e1 : sA.contactPointAffineAt pol i = .ok (Shell.contactFrame sA.yAxis o.normal o.point) := by
      simp only [Shell.contactPointAffineAt, h1, Res.bind_ok, Res.pure_eq]
    have e2 : sB.contactPointAffineAt pol i = .ok (movedPose m (Shell.contactFrame sA.yAxis o.normal o.point)) := by
      simp only [Shell.contactPointAffineAt, h2, Res.bind_ok, Res.pure_eq, hy]
      rw [← Shell.contactFrame_moved hm]
      rfl
    have er : sA.ribs[i]? = some sA.ribs[i] := List.getElem?_eq_getElem hi
    have r1 : sA.ribAt i = .ok sA.ribs[i] := by rw [Shell.ribAt, er]
    have r2 : sB.ribAt i = .ok sA.ribs[i] := by rw [Shell.ribAt, h.ribs, er]
    refine ⟨_, _, e1, e2, by rw [Shell.relativeAnglesAt, e1, Res.bind_ok, r1]; rfl, ?_⟩
    rw [Shell.relativeAnglesAt, e2, Res.bind_ok, r2, h.pose, Shell.angles_moved hm]
    rfl


/-- Ground triangles constructed at moved vertices are the moved ground triangles, when the motion keeps the
vertical. -/
theorem Spec.MovedTriangle.make {m : Affine ℝ} (hm : IsRigid m) (hv : KeepsVertical m) {i j : Int} {f : ℝ} {p0 p1 p2 : V3 ℝ}
    {t t' : TriangleGround ℝ} (h : TriangleGround.make i f p0 p1 p2 = .ok t)
    (h' : TriangleGround.make j f (m.apply p0) (m.apply p1) (m.apply p2) = .ok t') : MovedTriangle m t t' := by
  by_cases hf : 0 ≤ f
  · simp [TriangleGround.make, hf] at h h'
    subst h h'
    refine ⟨rfl, rfl, rfl, ?_, rfl⟩
    have e := Triangle.normal_move hm (⟨p0, p1, p2⟩ : Triangle ℝ)
    have e' : (⟨m.apply p0, m.apply p1, m.apply p2⟩ : Triangle ℝ).normal =
      M3.mulVec m.linear (⟨p0, p1, p2⟩ : Triangle ℝ).normal := e
    have hz : (M3.mulVec m.linear (⟨p0, p1, p2⟩ : Triangle ℝ).normal).z = (⟨p0, p1, p2⟩ : Triangle ℝ).normal.z := by
      have hb := hm.dot_mulVec (⟨p0, p1, p2⟩ : Triangle ℝ).normal ⟨0, 0, 1⟩
      have h2 : M3.mulVec m.linear ⟨0, 0, 1⟩ = (⟨0, 0, 1⟩ : V3 ℝ) := by
        rw [M3.mulVec_e2]; exact hv
      rw [h2] at hb
      simpa [dot3] using hb
    show (TriangleGround.updateNormal _).normal = M3.mulVec m.linear (TriangleGround.updateNormal _).normal
    simp only [TriangleGround.updateNormal, e', hz]
    split
    · rw [M3.mulVec_smul]
    · rfl
  · simp [TriangleGround.make, hf] at h

theorem Spec.side_moved {m pose : Affine ℝ} (hm : IsRigid m) (r : Rib ℝ) (p : V3 ℝ) :
    side (movedPose m pose) r (m.apply p) = side pose r p := by
  have h1 : ribCentre (movedPose m pose) r = m.apply (ribCentre pose r) := movedPose_apply m pose r.center
  have h2 : minus (m.apply p) (m.apply (ribCentre pose r)) = M3.mulVec m.linear (minus p (ribCentre pose r)) := by
    simp only [minus, Affine.apply, M3.mulVec, V3.real_add, real_add, real_mul]; congr 1 <;> ring
  rw [side, h1, h2]
  show dot3 _ (M3.mulVec m.linear pose.linear.c1) = _
  rw [hm.dot_mulVec]
  rfl

theorem Spec.ClearOfRib.moved {m pose : Affine ℝ} (hm : IsRigid m) {r : Rib ℝ} {t t' : TriangleGround ℝ}
    (h : MovedTriangle m t t') (hc : ClearOfRib pose r t.tri) : ClearOfRib (movedPose m pose) r t'.tri := by
  intro u hu v hv
  rw [h.v0, h.v1, h.v2] at hu hv
  have key : ∀ w ∈ [m.apply t.tri.v0, m.apply t.tri.v1, m.apply t.tri.v2],
      ∃ w0 ∈ [t.tri.v0, t.tri.v1, t.tri.v2], w = m.apply w0 := by
    intro w hw
    simp only [List.mem_cons, List.not_mem_nil, or_false] at hw
    rcases hw with rfl | rfl | rfl
    · exact ⟨_, by simp, rfl⟩
    · exact ⟨_, by simp, rfl⟩
    · exact ⟨_, by simp, rfl⟩
  obtain ⟨u0, hu0, rfl⟩ := key u hu
  obtain ⟨v0, hv0, rfl⟩ := key v hv
  rw [side_moved hm, side_moved hm]
  exact hc u0 hu0 v0 hv0

theorem Spec.moved_mem {m : Affine ℝ} {ts ts' : List (TriangleGround ℝ)} (h : List.Forall₂ (MovedTriangle m) ts ts') :
    ∀ t' ∈ ts', ∃ t ∈ ts, MovedTriangle m t t' := by
  induction h with
  | nil => simp
  | cons h _ ih =>
    intro t' ht
    rcases List.mem_cons.1 ht with rfl | ht
    · exact ⟨_, by simp, h⟩
    · obtain ⟨t, h1, h2⟩ := ih t' ht
      exact ⟨t, by simp [h1], h2⟩

/-- **C89 for the tyre on a mesh, geometric method** (partial).  When ground and pose are moved by one rigid motion, the
flag is the same and all records are the moved ones.  This holds under the conditions of
`C61_search_geometric_partial` and `C89_geometric_mesh_partial`, and for contacts of a volume other than zero. -/
theorem C89_setup_mesh_partial {pol : Policy} {s sA sB : Shell ℝ} (hs : s.Reachable pol) (hx : 0 ≤ s.shape.rx)
    {M M' : Mesh ℝ} (hM : BuiltMesh M) (hM' : BuiltMesh M') {pose m : Affine ℝ} (hp : IsRigid pose) (hm : IsRigid m)
    (h : List.Forall₂ (MovedTriangle m) M.triangles M'.triangles)
    (hbox : ∀ r ∈ s.ribs, r.radius ^ 2 + r.center.y ^ 2 ≤ s.shape.rx ^ 2)
    (hoff : ∀ t ∈ M.triangles, ∀ r ∈ s.ribs, OffRib pose r t.tri)
    (hlen : ∀ t ∈ M.triangles, ∀ r ∈ s.ribs, ∀ seg,
      Inter.triangleDisk t.tri (r.diskGrd pose) Scalar.eps = .ok (some seg) → Scalar.eps ≤ dist3 seg.v0 seg.v1)
    (hvol : ∀ r ∈ s.ribs, ∀ o, r.envelopGeometricMesh M.triangles pose = .ok (true, o) → o.volume ≠ 0)
    {b b' : Bool} (hA : s.setupMesh pol M pose "geometric" = .ok sA b)
    (hB : s.setupMesh pol M' (movedPose m pose) "geometric" = .ok sB b') :
    b' = b ∧ MovedShell m pol sA sB := by
  have hclear' : ∀ t ∈ M'.triangles, ∀ r ∈ s.ribs, ClearOfRib (movedPose m pose) r t.tri := by
    intro t' ht' r hr
    obtain ⟨t, ht, hmt⟩ := moved_mem h t' ht'
    exact ClearOfRib.moved hm hmt (hoff t ht r hr).1
  have hlen' : ∀ t ∈ M'.triangles, ∀ r ∈ s.ribs, ∀ seg,
      Inter.triangleDisk t.tri (r.diskGrd (movedPose m pose)) Scalar.eps = .ok (some seg) →
      Scalar.eps ≤ dist3 seg.v0 seg.v1 := by
    intro t' ht' r hr seg hseg
    obtain ⟨t, ht, hmt⟩ := moved_mem h t' ht'
    rw [Rib.section_moved (hs.isRib r hr) hp hm hmt (.inl (hoff t ht r hr))] at hseg
    rcases hd : Inter.triangleDisk t.tri (r.diskGrd pose) Scalar.eps with o | w | w
    · rw [hd] at hseg
      rcases o with _ | seg0
      · cases hseg
      · cases hseg
        have := hlen t ht r hr seg0 hd
        have e : dist3 (m.apply seg0.v0) (m.apply seg0.v1) = dist3 seg0.v0 seg0.v1 := Affine.dist_apply hm _ _
        rw [show (seg0.transform m).v0 = m.apply seg0.v0 from rfl, show (seg0.transform m).v1 = m.apply seg0.v1 from rfl, e]
        exact this
    · rw [hd] at hseg; cases hseg
    · rw [hd] at hseg; cases hseg
  have rA := Shell.setupMesh_rel (.inl ⟨b, hA⟩)
  have rB := Shell.setupMesh_rel (.inl ⟨b', hB⟩)
  obtain ⟨a1, a2⟩ := C61_search_geometric_partial pol s sA hs hx M hM pose hp hbox
    (fun t ht r hr => (hoff t ht r hr).1) hlen b hA
  obtain ⟨b1, b2⟩ := C61_search_geometric_partial pol s sB hs hx M' hM' (movedPose m pose) (movedPose_rigid hm hp) hbox
    hclear' hlen' b' hB
  have hev : ∀ r ∈ s.ribs, ∀ flag o, r.envelopGeometricMesh M.triangles pose = .ok (flag, o) →
      r.envelopGeometricMesh M'.triangles (movedPose m pose) = .ok (flag, movedRecord m o) := by
    intro r hr flag o e
    refine (C89_geometric_mesh_partial (hs.isRib r hr) hp hm h (.inl fun t ht => hoff t ht r hr)).1 flag o e ?_
    rintro rfl
    exact hvol r hr o e
  have hrb : sB.ribs = sA.ribs := by rw [rA.ribs, rB.ribs]
  have hrec : ∀ i < sA.size, ∃ flag o r, sA.ribs[i]? = some r ∧
      r.envelopGeometricMesh M.triangles pose = .ok (flag, o) ∧ sA.out.read pol i = .ok o ∧
      r.envelopGeometricMesh M'.triangles (movedPose m pose) = .ok (flag, movedRecord m o) ∧
      sB.out.read pol i = .ok (movedRecord m o) := by
    intro i hi
    have er : sA.ribs[i]? = some sA.ribs[i] := List.getElem?_eq_getElem hi
    obtain ⟨flag, o, e1, e2⟩ := a1 i _ er
    obtain ⟨flag', o', e1', e2'⟩ := b1 i _ (by rw [hrb]; exact er)
    have e3 := hev _ (by rw [← rA.ribs]; exact List.mem_of_getElem? er) flag o e1
    rw [e3] at e1'
    cases e1'
    exact ⟨flag, o, _, er, e1, e2, e3, e2'⟩
  constructor
  · rw [Bool.eq_iff_iff, a2, b2]
    constructor
    · rintro ⟨r, hr, o, e⟩
      rw [hrb] at hr
      obtain ⟨i, hi, rfl⟩ := List.mem_iff_getElem.1 hr
      obtain ⟨flag, o', r', e1, e2, -, e3, -⟩ := hrec i hi
      rw [List.getElem?_eq_getElem hi] at e1
      cases e1
      rw [e3] at e
      cases e
      exact ⟨_, hr, _, e2⟩
    · rintro ⟨r, hr, o, e⟩
      exact ⟨r, by rw [hrb]; exact hr, _, hev r (by rw [← rA.ribs]; exact hr) _ _ e⟩
  · refine ⟨hrb, ?_, fun i hi => ?_⟩
    · rw [rA.pose, rB.pose]
    · obtain ⟨flag, o, r, -, -, e2, -, e3⟩ := hrec i hi
      exact ⟨o, e2, e3⟩

/-- A spike raised by ten. -/
noncomputable def Demo.highSpike : TriangleGround ℝ :=
  TriangleGround.updateBBox (TriangleGround.updateNormal
    ⟨⟨⟨0, 1, 10⟩, ⟨0, -(Scalar.eps / 2), 10⟩, ⟨1, -1, 10⟩⟩, 0, 1, V3.nan, Box.default⟩)

theorem Demo.highSpike_returns {r : Rib ℝ} (hr : IsRib r) (hc : r.center = ⟨0, 0, 0⟩) (h : ℝ) :
    ∃ o, Inter.triangleDisk Demo.highSpike.tri (r.diskGrd (Demo.upright h)) Scalar.eps = .ok o := by
  have heps := real_eps_le_half
  have hpos := real_eps_pos
  generalize hδ : (Scalar.eps : ℝ) / 2 = δ
  have hδ0 : 0 < δ := by linarith
  have hδ1 : δ ≤ 1 / 4 := by linarith
  have hdisk := level_disk hr hc h (x0 := 0) (y0 := 1) (x1 := 0) (y1 := -δ) (x2 := 1) (y2 := -1) (z := 10)
    (by linarith)
  have htri : Demo.highSpike.tri = ⟨⟨0, 1, 10⟩, ⟨0, -δ, 10⟩, ⟨1, -1, 10⟩⟩ := by rw [← hδ]; rfl
  obtain ⟨e0, e1, e2⟩ := Demo.spike_hits hδ 10
  have happ : V3.isApprox (⟨0, 0, 10⟩ : V3 ℝ) ⟨-(δ / (1 - δ)), 0, 10⟩ Scalar.eps = true := by
    have hb : δ / (1 - δ) ≤ Scalar.eps := by
      rw [div_le_iff₀ (by linarith)]; nlinarith
    have hb0 : 0 < δ / (1 - δ) := div_pos hδ0 (by linarith)
    generalize δ / (1 - δ) = q at hb hb0
    simp only [V3.isApprox, real_le, real_mul, real_min, V3.real_sqNorm, V3.real_sub, decide_eq_true_eq]
    have hm : (1 : ℝ) ≤ Min.min ((0 : ℝ) ^ 2 + 0 ^ 2 + 10 ^ 2) ((-q) ^ 2 + 0 ^ 2 + 10 ^ 2) :=
      le_min (by norm_num) (by nlinarith)
    have : (Scalar.eps : ℝ) * Scalar.eps * 1 ≤ Scalar.eps * Scalar.eps *
        Min.min ((0 : ℝ) ^ 2 + 0 ^ 2 + 10 ^ 2) ((-q) ^ 2 + 0 ^ 2 + 10 ^ 2) :=
      mul_le_mul_of_nonneg_left hm (by positivity)
    have h2 : q ^ 2 ≤ Scalar.eps * Scalar.eps := by nlinarith
    norm_num [pow_two] at this h2 ⊢; linarith
  rw [htri, hdisk]
  unfold Inter.lineTriangleSeg
  simp only [Triangle.edge0, Triangle.edge1, Triangle.edge2, e0, e1, e2, happ, if_true]
  exact ⟨_, rfl⟩

/-- **C89 is false** for the geometric method on a mesh with a vertex nearly on the plane of the rib: the same scene
throws at the origin and is evaluated after ground and tyre have been raised by ten. -/
theorem C89_geometric_mesh_refuted (fresh : Nat → Output ℝ) :
    ∃ (s : Shell ℝ) (r : Rib ℝ) (t t' : TriangleGround ℝ) (pose m : Affine ℝ), Shell.make fresh 1 1 2 2 2 1 = .ok s ∧
      r ∈ s.ribs ∧ IsRigid pose ∧ IsRigid m ∧ KeepsVertical m ∧ t.Constructed ∧ t'.Constructed ∧ MovedTriangle m t t' ∧
      r.envelopGeometricMesh [t] pose = .throw "exception not handled." ∧
      ∃ flag o, r.envelopGeometricMesh [t'] (movedPose m pose) = .ok (flag, o) := by
  obtain ⟨s, a, h1, hshape, hab, ha, hac, -⟩ := Demo.oneRib fresh
  have hmk : TriangleGround.make 0 (1 : ℝ) ⟨0, 1, 10⟩ ⟨0, -(Scalar.eps / 2), 10⟩ ⟨1, -1, 10⟩ = .ok Demo.highSpike := by
    simp [TriangleGround.make, Demo.highSpike]
  have hkv : KeepsVertical (Demo.upright 10) := rfl
  have happ : ∀ x y : ℝ, (Demo.upright 10).apply ⟨x, y, 0⟩ = ⟨x, y, 10⟩ := by
    intro x y
    simp only [Demo.upright, Affine.apply, M3.mulVec, V3.real_add, real_add, real_mul]; congr 1 <;> ring
  have hmt : MovedTriangle (Demo.upright 10) Demo.spike Demo.highSpike :=
    MovedTriangle.make (Demo.upright_rigid 10) hkv Demo.spike_make (by rw [happ, happ, happ]; exact hmk)
  have hpose : movedPose (Demo.upright 10) (Demo.upright 0) = Demo.upright 10 := by
    simp only [movedPose, Demo.upright, M3.mul, M3.mulVec, Affine.apply, V3.real_add, real_add, real_mul]; norm_num
  refine ⟨s, a, Demo.spike, Demo.highSpike, Demo.upright 0, Demo.upright 10, h1, by rw [hab]; simp, Demo.upright_rigid 0,
    Demo.upright_rigid 10, hkv, ⟨_, _, _, _, _, Demo.spike_make⟩, ⟨_, _, _, _, _, hmk⟩, hmt, ?_, ?_⟩
  · simp only [Rib.envelopGeometricMesh, Rib.geomLoop, Demo.spike_throws ha hac, Res.bind_throw]
  · obtain ⟨o, ho⟩ := Demo.highSpike_returns ha hac 10
    rw [hpose]
    rcases o with _ | seg <;> simp only [Rib.envelopGeometricMesh, Rib.geomLoop, ho, Res.bind_ok, Res.pure_eq]
    · exact ⟨_, _, rfl⟩
    · split <;> exact ⟨_, _, rfl⟩


/-! ### The sampling method on a mesh, for translations -/

/-- The motion by the vector `d`. -/
def Spec.translation (d : V3 ℝ) : Affine ℝ := ⟨⟨⟨1, 0, 0⟩, ⟨0, 1, 0⟩, ⟨0, 0, 1⟩⟩, d⟩

theorem Spec.translation_apply (d p : V3 ℝ) : (translation d).apply p = ⟨p.x + d.x, p.y + d.y, p.z + d.z⟩ := by
  simp only [translation, Affine.apply, M3.mulVec, V3.real_add, real_add, real_mul]; congr 1 <;> ring

theorem Spec.translation_rigid (d : V3 ℝ) : IsRigid (translation d) :=
  ⟨by norm_num [translation], by norm_num [translation], by norm_num [translation], by norm_num [translation],
    by norm_num [translation], by norm_num [translation], by norm_num [translation]⟩

/-- The box test of the spatial search does not depend on where the scene is. -/
theorem Shell.near_translated {s : Shell ℝ} {d : V3 ℝ} (pose : Affine ℝ) {t t' : TriangleGround ℝ} (h : MovedTriangle (translation d) t t')
    (ht : t.Constructed) (ht' : t'.Constructed) (hx : 0 ≤ s.shape.rx) :
    t'.bbox.intersects (s.transform (movedPose (translation d) pose)).updateBBox.bbox =
      t.bbox.intersects (s.transform pose).updateBBox.bbox := by
  have f1 := Shell.updateBBox_follows (s.transform pose) hx
  have f2 := Shell.updateBBox_follows (s.transform (movedPose (translation d) pose)) hx
  have hb : ∀ (u : TriangleGround ℝ), u.Constructed → u.bbox.min = ⟨Min.min u.tri.v0.x (Min.min u.tri.v1.x u.tri.v2.x),
      Min.min u.tri.v0.y (Min.min u.tri.v1.y u.tri.v2.y), Min.min u.tri.v0.z (Min.min u.tri.v1.z u.tri.v2.z)⟩ ∧
      u.bbox.max = ⟨Max.max u.tri.v0.x (Max.max u.tri.v1.x u.tri.v2.x),
      Max.max u.tri.v0.y (Max.max u.tri.v1.y u.tri.v2.y), Max.max u.tri.v0.z (Max.max u.tri.v1.z u.tri.v2.z)⟩ := by
    rintro u ⟨i, f, p0, p1, p2, hu⟩
    by_cases hf : 0 ≤ f
    · simp [TriangleGround.make, hf] at hu
      subst hu
      simp [TriangleGround.updateBBox, TriangleGround.updateNormal, Box.clamp]
    · simp [TriangleGround.make, hf] at hu
  obtain ⟨m1, M1⟩ := hb t ht
  obtain ⟨m2, M2⟩ := hb t' ht'
  rw [h.v0, h.v1, h.v2] at m2 M2
  simp only [translation_apply, min_add_add_right, max_add_add_right] at m2 M2
  obtain ⟨p1, P1⟩ := f1
  obtain ⟨p2, P2⟩ := f2
  have e1 : (s.transform pose).updateBBox.pose.trans = pose.trans := rfl
  have e2 : (s.transform (movedPose (translation d) pose)).updateBBox.pose.trans =
    ⟨pose.trans.x + d.x, pose.trans.y + d.y, pose.trans.z + d.z⟩ := translation_apply d pose.trans
  have r1 : (s.transform pose).updateBBox.shape.rx = s.shape.rx := rfl
  have r2 : (s.transform (movedPose (translation d) pose)).updateBBox.shape.rx = s.shape.rx := rfl
  rw [e1, r1] at p1 P1
  rw [e2, r2] at p2 P2
  simp only [Box.intersects, m1, M1, m2, M2, p1, P1, p2, P2, real_le]
  have key : ∀ a b c e : ℝ, (a + e ≤ b + e + c ↔ a ≤ b + c) ∧ (b + e - c ≤ a + e ↔ b - c ≤ a) := by
    intro a b c e
    constructor <;> constructor <;> intro h <;> linarith
  simp only [(key _ _ _ _).1, (key _ _ _ _).2]

theorem Spec.moved_filter {m : Affine ℝ} {ts ts' : List (TriangleGround ℝ)} (h : List.Forall₂ (MovedTriangle m) ts ts')
    (p p' : TriangleGround ℝ → Bool) (hp : ∀ t ∈ ts, ∀ t' ∈ ts', MovedTriangle m t t' → p' t' = p t) :
    List.Forall₂ (MovedTriangle m) (ts.filter p) (ts'.filter p') := by
  induction h with
  | nil => exact .nil
  | @cons a b l l' hab _ ih =>
    have e := hp a (by simp) b (by simp) hab
    have ih := ih fun t ht t' ht' => hp t (by simp [ht]) t' (by simp [ht'])
    cases hc : p a
    · rw [List.filter_cons_of_neg (by simp [hc]), List.filter_cons_of_neg (by simp [e, hc])]; exact ih
    · rw [List.filter_cons_of_pos hc, List.filter_cons_of_pos (by rw [e]; exact hc)]; exact .cons hab ih

/-- Two records agree in everything but the friction. -/
def Spec.SameGeometry (o o' : Output ℝ) : Prop :=
  o'.point = o.point ∧ o'.normal = o.normal ∧ o'.depth = o.depth ∧ o'.area = o.area ∧ o'.volume = o.volume

/-- **C89 for the tyre on a mesh, sampling method.**  When the mesh and the pose are translated, the flag is the same and
all records are the moved ones, up to the friction.  (The friction may be the one of another triangle that is hit at
the same height, `C29_order_independent`.) -/
theorem C89_setup_mesh_sampling {pol : Policy} {s sA sB : Shell ℝ} (hs : s.Reachable pol) (hx : 0 ≤ s.shape.rx)
    {M M' : Mesh ℝ} (hM : BuiltMesh M) (hM' : BuiltMesh M') {pose : Affine ℝ} {d : V3 ℝ}
    (h : List.Forall₂ (MovedTriangle (translation d)) M.triangles M'.triangles) {b b' : Bool}
    (hA : s.setupMesh pol M pose "sampling" = .ok sA b)
    (hB : s.setupMesh pol M' (movedPose (translation d) pose) "sampling" = .ok sB b') :
    b' = b ∧ ∀ i < s.size, ∃ o o', sA.out.read pol i = .ok o ∧ sB.out.read pol i = .ok o' ∧
      SameGeometry (movedRecord (translation d) o) o' := by
  obtain ⟨loc, hl1, q1⟩ := hM.query _ (Shell.updateBBox_WF (s.transform pose))
  obtain ⟨loc', hl2, q2⟩ := hM'.query _ (Shell.updateBBox_WF (s.transform (movedPose (translation d) pose)))
  obtain ⟨f1, r1, a1, c1⟩ := C38_mesh_flag pol s sA hs M pose "sampling" loc b hl1 hA
  obtain ⟨f2, r2, a2, c2⟩ := C38_mesh_flag pol s sB hs M' _ "sampling" loc' b' hl2 hB
  have e1 := (Shell.setupMesh_rel (.inl ⟨b, hA⟩)).ribs
  have e2 := (Shell.setupMesh_rel (.inl ⟨b', hB⟩)).ribs
  have hfil := moved_filter h (fun t => t.bbox.intersects (s.transform pose).updateBBox.bbox)
    (fun t => t.bbox.intersects (s.transform (movedPose (translation d) pose)).updateBBox.bbox)
    (fun t ht t' ht' hmt => Shell.near_translated pose hmt (hM.constructed t ht) (hM'.constructed t' ht') hx)
  generalize (M.triangles.filter fun t => t.bbox.intersects (s.transform pose).updateBBox.bbox) = F at q1 hfil
  generalize (M'.triangles.filter fun t =>
    t.bbox.intersects (s.transform (movedPose (translation d) pose)).updateBBox.bbox) = F' at q2 hfil
  have hcand : ∀ (P : Affine ℝ) (l : List (TriangleGround ℝ)) (r : Rib ℝ), Shell.ribCandidates P "sampling" l r = l := by
    intro P l r
    unfold Shell.ribCandidates
    rw [List.filter_eq_self]
    intro t _
    simp [Shell.refines, Shell.isCandidate]
  have hen : ∀ (r : Rib ℝ) (P : Affine ℝ) (l : List (TriangleGround ℝ)),
      r.envelopMesh l P "sampling" = .ok (r.envelopSamplingMesh l P) := by
    intro r P l; simp [Rib.envelopMesh]
  have hsame : ∀ i < s.size, f2 i = f1 i ∧ SameGeometry (movedRecord (translation d) (r1 i)) (r2 i) := by
    intro i hi
    obtain ⟨r, g1, g2, -⟩ := a1 i hi
    obtain ⟨r', g1', g2', -⟩ := a2 i hi
    rw [e1] at g1
    rw [e2, ← e1, e1, g1] at g1'
    cases g1'
    have g2 : (if loc = [] then Res.ok (false, r.noContact pose) else
      r.envelopMesh (Shell.ribCandidates pose "sampling" loc r) pose "sampling") = .ok (f1 i, r1 i) := g2
    have g2' : (if loc' = [] then Res.ok (false, r.noContact (movedPose (translation d) pose)) else
      r.envelopMesh (Shell.ribCandidates (movedPose (translation d) pose) "sampling" loc' r)
        (movedPose (translation d) pose) "sampling") = .ok (f2 i, r2 i) := g2'
    rw [hcand, hen] at g2 g2'
    by_cases hnil : loc = []
    · have hF : F = [] := by rw [hnil] at q1; exact q1.symm.eq_nil
      have hF' : F' = [] := by rw [hF] at hfil; cases hfil; rfl
      have hnil' : loc' = [] := by rw [hF'] at q2; exact q2.eq_nil
      rw [if_pos hnil] at g2
      rw [if_pos hnil', Rib.noContact_moved] at g2'
      obtain ⟨k1, k2⟩ := Prod.mk.inj (Res.ok.inj g2)
      obtain ⟨k1', k2'⟩ := Prod.mk.inj (Res.ok.inj g2')
      rw [← k1, ← k1', ← k2, ← k2']
      exact ⟨rfl, rfl, rfl, rfl, rfl, rfl⟩
    · have hnil' : loc' ≠ [] := by
        intro hc
        have hF' : F' = [] := by rw [hc] at q2; exact q2.symm.eq_nil
        have hF : F = [] := by rw [hF'] at hfil; cases hfil; rfl
        rw [hF] at q1
        exact hnil q1.eq_nil
      rw [if_neg hnil] at g2
      rw [if_neg hnil'] at g2'
      have hmv := (C89_sampling (pose := pose) r (translation_rigid d) rfl).2 F F' hfil
      have t1 := C29_order_independent r pose q1
      have t2 := C29_order_independent r (movedPose (translation d) pose) q2
      dsimp only at t1 t2
      rw [Res.ok.inj g2] at t1
      rw [Res.ok.inj g2', hmv] at t2
      obtain ⟨u1, u2, u3, u4, u5, u6, -⟩ := t1
      obtain ⟨w1, w2, w3, w4, w5, w6, -⟩ := t2
      dsimp only at u1 u2 u3 u4 u5 u6 w1 w2 w3 w4 w5 w6
      refine ⟨by rw [w1, u1], ?_, ?_, ?_, ?_, ?_⟩
      · rw [w2]; simp only [movedRecord, u2]
      · rw [w3]; simp only [movedRecord, u3]
      · rw [w4]; simp only [movedRecord, u4]
      · rw [w5]; simp only [movedRecord, u5]
      · rw [w6]; simp only [movedRecord, u6]
  constructor
  · rw [Bool.eq_iff_iff, c1, c2]
    constructor
    · rintro ⟨i, hi, h⟩; exact ⟨i, hi, by rw [← (hsame i hi).1]; exact h⟩
    · rintro ⟨i, hi, h⟩; exact ⟨i, hi, by rw [(hsame i hi).1]; exact h⟩
  · intro i hi
    obtain ⟨_, _, _, g⟩ := a1 i hi
    obtain ⟨_, _, _, g'⟩ := a2 i hi
    exact ⟨_, _, g, g', (hsame i hi).2⟩


/-! ### Examples -/

/-- A quarter turn about the vertical, then a translation. -/
def Demo.turn : Affine ℝ := ⟨⟨⟨0, 1, 0⟩, ⟨-1, 0, 0⟩, ⟨0, 0, 1⟩⟩, ⟨3, -2, 5⟩⟩

theorem Demo.turn_rigid : IsRigid Demo.turn :=
  ⟨by norm_num [Demo.turn], by norm_num [Demo.turn], by norm_num [Demo.turn], by norm_num [Demo.turn],
    by norm_num [Demo.turn], by norm_num [Demo.turn], by norm_num [Demo.turn]⟩

/-- A setup on flat ground, here and after the quarter turn and the translation, for both methods. -/
example (fresh : Nat → Output ℝ) (method : String) (hmeth : method = "geometric" ∨ method = "sampling") :
    ∃ (s sA sB : Shell ℝ) (b : Bool), s.Reachable .raw ∧ s.size = 1 ∧
      s.setupFlat .raw Demo.road (Demo.upright (1 / 2)) method = .ok sA b ∧
      s.setupFlat .raw (movedFlat Demo.turn Demo.road) (movedPose Demo.turn (Demo.upright (1 / 2))) method = .ok sB b ∧
      MovedShell Demo.turn .raw sA sB := by
  obtain ⟨s, a, h1, hshape, hab, ha, hac, haR, haw⟩ := Demo.oneRib fresh
  have hreach : s.Reachable .raw := .make h1
  have hsz : s.size = 1 := by simp [Shell.size, hab]
  obtain ⟨sA, b, hA⟩ := Shell.setupFlat_total hreach (by omega) Demo.road (Demo.upright (1 / 2)) hmeth
  obtain ⟨sB, hB, hm⟩ := C89_setup_flat hreach (Demo.upright_rigid (1 / 2)) Demo.turn_rigid Demo.road_make
    (fun _ => rfl) hA
  exact ⟨s, sA, sB, b, hreach, hsz, hA, hB, hm⟩

/-- The field, after the quarter turn and the translation. -/
noncomputable def Demo.turnedField : TriangleGround ℝ :=
  TriangleGround.updateBBox (TriangleGround.updateNormal
    ⟨⟨Demo.turn.apply ⟨0, 10, 0⟩, Demo.turn.apply ⟨-30, -10, 0⟩, Demo.turn.apply ⟨30, -10, 0⟩⟩, 0, 1, V3.nan, Box.default⟩)

theorem Demo.turnedField_make : TriangleGround.make 0 (1 : ℝ) (Demo.turn.apply ⟨0, 10, 0⟩) (Demo.turn.apply ⟨-30, -10, 0⟩)
    (Demo.turn.apply ⟨30, -10, 0⟩) = .ok Demo.turnedField := by
  simp [TriangleGround.make, Demo.turnedField]

theorem Demo.turnedField_moved : MovedTriangle Demo.turn Demo.field Demo.turnedField :=
  MovedTriangle.make Demo.turn_rigid rfl Demo.field_make Demo.turnedField_make

/-- The hypotheses of `C89_setup_mesh_partial` are met by a shell in contact with a triangle, and the moved contact
has the moved point. -/
example (fresh : Nat → Output ℝ) : ∃ (s sA sB : Shell ℝ), s.Reachable .raw ∧
    s.setupMesh .raw (Mesh.ofTriangles [Demo.field]) (Demo.upright (1 / 2)) "geometric" = .ok sA true ∧
    s.setupMesh .raw (Mesh.ofTriangles [Demo.turnedField]) (movedPose Demo.turn (Demo.upright (1 / 2))) "geometric" =
      .ok sB true ∧ MovedShell Demo.turn .raw sA sB := by
  obtain ⟨s, a, h1, hshape, hab, ha, hac, haR, haw⟩ := Demo.oneRib fresh
  have hreach : s.Reachable .raw := .make h1
  have hsz : s.size = 1 := by simp [Shell.size, hab]
  have hpos := real_eps_pos
  have htri : (Mesh.ofTriangles [Demo.field]).triangles = [Demo.field] := rfl
  have htri' : (Mesh.ofTriangles [Demo.turnedField]).triangles = [Demo.turnedField] := rfl
  have hbuilt : BuiltMesh (Mesh.ofTriangles [Demo.turnedField]) := by
    refine .inr ⟨_, by simp, ?_, ?_, rfl⟩
    · simp only [List.mem_singleton, forall_eq]; exact ⟨_, _, _, _, _, Demo.turnedField_make⟩
    · intro i t ht
      match i, ht with
      | 0, ht => simp at ht; subst ht; rfl
      | n + 1, ht => simp at ht
  have hclear : ∀ t ∈ (Mesh.ofTriangles [Demo.field]).triangles, ∀ r ∈ s.ribs, ClearOfRib (Demo.upright (1 / 2)) r t.tri := by
    intro t ht r hr
    rw [htri, List.mem_singleton] at ht
    rw [hab, List.mem_singleton] at hr
    subst hr ht
    exact Demo.field_clear hac _
  obtain ⟨sA, b, hA⟩ := C37_setup_partial s hreach (by omega) _ Demo.field_built _ (Demo.upright_rigid (1 / 2))
    (fun t ht _ => hclear t ht)
  obtain ⟨sB, b', hB⟩ := C37_setup_partial s hreach (by omega) _ hbuilt _
    (movedPose_rigid Demo.turn_rigid (Demo.upright_rigid (1 / 2))) (fun t ht _ r hr => by
      rw [htri', List.mem_singleton] at ht
      subst ht
      exact ClearOfRib.moved Demo.turn_rigid Demo.turnedField_moved (hclear _ (by rw [htri]; simp) r hr))
  have hcut : Inter.triangleDisk Demo.field.tri (a.diskGrd (Demo.upright (1 / 2))) Scalar.eps =
      .ok (some ⟨⟨Real.sqrt (3 / 4), 0, 0⟩, ⟨-Real.sqrt (3 / 4), 0, 0⟩⟩) := by
    rw [Rib.diskGrd_congr (Rib.disk_ribOf ha hac haR 1)]; exact Demo.field_cut
  have hoff : ∀ t ∈ (Mesh.ofTriangles [Demo.field]).triangles, ∀ r ∈ s.ribs, OffRib (Demo.upright (1 / 2)) r t.tri := by
    intro t ht r hr
    refine ⟨hclear t ht r hr, ?_⟩
    rw [htri, List.mem_singleton] at ht
    rw [hab, List.mem_singleton] at hr
    subst hr ht
    have hside : ∀ p : V3 ℝ, side (Demo.upright (1 / 2)) r p = p.y := by
      intro p
      simp only [side, dot3, minus, ribCentre, hac, Demo.upright]
      v3
      ring
    have hf : Demo.field.tri = ⟨⟨0, 10, 0⟩, ⟨-30, -10, 0⟩, ⟨30, -10, 0⟩⟩ := rfl
    intro v hv
    rw [hside]
    simp only [hf, List.mem_cons, List.not_mem_nil, or_false] at hv
    rcases hv with rfl | rfl | rfl <;> norm_num
  have hlen : ∀ t ∈ (Mesh.ofTriangles [Demo.field]).triangles, ∀ r ∈ s.ribs, ∀ seg,
      Inter.triangleDisk t.tri (r.diskGrd (Demo.upright (1 / 2))) Scalar.eps = .ok (some seg) →
      Scalar.eps ≤ dist3 seg.v0 seg.v1 := by
    intro t ht r hr seg hseg
    rw [htri, List.mem_singleton] at ht
    rw [hab, List.mem_singleton] at hr
    subst hr ht
    rw [hcut] at hseg
    cases hseg
    obtain ⟨q1, -, -⟩ := Demo.sqrt34
    have heps := real_eps_le_half
    unfold dist3
    dsimp only
    rw [show (Real.sqrt (3 / 4) - -Real.sqrt (3 / 4)) ^ 2 + (0 - 0) ^ 2 + (0 - 0) ^ 2 = (2 * Real.sqrt (3 / 4)) ^ 2 by ring,
      Real.sqrt_sq (by linarith)]
    linarith
  have hbox : ∀ r ∈ s.ribs, r.radius ^ 2 + r.center.y ^ 2 ≤ s.shape.rx ^ 2 := by
    intro r hr
    rw [hab, List.mem_singleton] at hr
    rw [hr, hac, haR, hshape]; norm_num
  have heq := Rib.envelopGeometricMesh_congr (Rib.disk_ribOf ha hac haR 2) haw (Demo.upright (1 / 2)) [Demo.field]
  obtain ⟨o, ho, hoA, -, hvol⟩ := Demo.ribOf_flat (w := 2) (by norm_num)
  obtain ⟨om, hom, hne⟩ : ∃ om, (Demo.ribOf 2).envelopGeometricMesh [Demo.field] (Demo.upright (1 / 2)) = .ok (true, om) ∧
      om.volume ≠ 0 := by
    have heps := real_eps_le_half
    obtain ⟨hs, -, -⟩ := Demo.sqrt34
    rcases C59_flat_mesh_partial (Demo.ribOf_isRib (by norm_num)) (Demo.upright_rigid (1 / 2)) Demo.road_make rfl
      Demo.field_make (by simp [OnPlane, dot3, minus, Demo.road]) (by simp [OnPlane, dot3, minus, Demo.road])
      (by simp [OnPlane, dot3, minus, Demo.road]) (by rw [V3.real_cross]; norm_num [minus])
      (.inl (Demo.field_separates 2 (1 / 2))) (Demo.field_contains 2) (Demo.field_long 2 (1 / 2)) o ho with
      ⟨-, om, h1, -, -, -, h5, -⟩ | ⟨⟨h1, -⟩, -⟩
    · exact ⟨om, h1, by rw [h5]; linarith⟩
    · rw [hoA] at h1; nlinarith
  have hx : (0 : ℝ) ≤ s.shape.rx := by rw [hshape]; norm_num
  obtain ⟨k1, k2⟩ := C61_search_geometric_partial .raw s sA hreach hx _ Demo.field_built _
    (Demo.upright_rigid (1 / 2)) hbox hclear hlen b hA
  have hribs : sA.ribs = [a] := by rw [(Shell.setupMesh_rel (.inl ⟨b, hA⟩)).ribs]; exact hab
  have hb : b = true := k2.2 ⟨a, by rw [hribs]; simp, om, by rw [htri, heq]; exact hom⟩
  obtain ⟨e1, e2⟩ := C89_setup_mesh_partial hreach hx Demo.field_built hbuilt (Demo.upright_rigid (1 / 2)) Demo.turn_rigid
    (.cons Demo.turnedField_moved .nil) hbox hoff hlen (by
      intro r hr o' ho'
      rw [hab, List.mem_singleton] at hr
      subst hr
      rw [htri, heq, hom] at ho'
      cases ho'
      exact hne) hA hB
  subst hb e1
  exact ⟨s, sA, sB, hreach, hA, hB, e2⟩

end Enve
