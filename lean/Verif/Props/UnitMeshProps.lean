import Verif.Props.UnitShellProps

/-! # The unit of length: C133, tyres on meshes and the values of the whole tyre -/

namespace Enve
open Scalar Spec

theorem Spec.rescale_filter {k : ℝ} {ts ts' : List (TriangleGround ℝ)} (h : List.Forall₂ (RescaledTriangle k) ts ts')
    (p p' : TriangleGround ℝ → Bool) (hp : ∀ t ∈ ts, ∀ t' ∈ ts', RescaledTriangle k t t' → p' t' = p t) :
    List.Forall₂ (RescaledTriangle k) (ts.filter p) (ts'.filter p') := by
  induction h with
  | nil => exact .nil
  | @cons a b l l' hab _ ih =>
    have e := hp a (by simp) b (by simp) hab
    have ih := ih fun t ht t' ht' => hp t (by simp [ht]) t' (by simp [ht'])
    cases hc : p a
    · rw [List.filter_cons_of_neg (by simp [hc]), List.filter_cons_of_neg (by simp [e, hc])]; exact ih
    · rw [List.filter_cons_of_pos hc, List.filter_cons_of_pos (by rw [e]; exact hc)]; exact .cons hab ih

theorem Shell.near_rescale {k : ℝ} (hk : 0 < k) {s s' : Shell ℝ} (hrx : s'.shape.rx = k * s.shape.rx) (pose : Affine ℝ)
    {t t' : TriangleGround ℝ} (h : RescaledTriangle k t t') (ht : t.Constructed) (ht' : t'.Constructed) (hx : 0 ≤ s.shape.rx) :
    t'.bbox.intersects (s'.transform (rescalePose k pose)).updateBBox.bbox =
      t.bbox.intersects (s.transform pose).updateBBox.bbox := by
  have hx' : 0 ≤ s'.shape.rx := by rw [hrx]; positivity
  have f1 := Shell.updateBBox_follows (s.transform pose) hx
  have f2 := Shell.updateBBox_follows (s'.transform (rescalePose k pose)) hx'
  have hb : ∀ (u : TriangleGround ℝ), u.Constructed → u.bbox.min = ⟨Min.min u.tri.v0.x (Min.min u.tri.v1.x u.tri.v2.x),
      Min.min u.tri.v0.y (Min.min u.tri.v1.y u.tri.v2.y), Min.min u.tri.v0.z (Min.min u.tri.v1.z u.tri.v2.z)⟩ ∧
      u.bbox.max = ⟨Max.max u.tri.v0.x (Max.max u.tri.v1.x u.tri.v2.x),
      Max.max u.tri.v0.y (Max.max u.tri.v1.y u.tri.v2.y), Max.max u.tri.v0.z (Max.max u.tri.v1.z u.tri.v2.z)⟩ := by
    rintro u ⟨i, f, p0, p1, p2, hu⟩
    by_cases hf : 0 ≤ f
    · simp [TriangleGround.make, hf] at hu
      subst hu
      simp [TriangleGround.updateBBox, TriangleGround.updateNormal, Box.clamp]
    · simp [TriangleGround.make, hf] at hu
  obtain ⟨m1, M1⟩ := hb t ht
  obtain ⟨m2, M2⟩ := hb t' ht'
  rw [h.v0, h.v1, h.v2] at m2 M2
  have emin : ∀ a b : ℝ, Min.min (k * a) (k * b) = k * Min.min a b := fun a b => (mul_min_of_nonneg _ _ hk.le).symm
  have emax : ∀ a b : ℝ, Max.max (k * a) (k * b) = k * Max.max a b := fun a b => (mul_max_of_nonneg _ _ hk.le).symm
  simp only [rescale, emin, emax] at m2 M2
  obtain ⟨p1, P1⟩ := f1
  obtain ⟨p2, P2⟩ := f2
  have e1 : (s.transform pose).updateBBox.pose.trans = pose.trans := rfl
  have e2 : (s'.transform (rescalePose k pose)).updateBBox.pose.trans = ⟨k * pose.trans.x, k * pose.trans.y, k * pose.trans.z⟩ := rfl
  have r1 : (s.transform pose).updateBBox.shape.rx = s.shape.rx := rfl
  have r2 : (s'.transform (rescalePose k pose)).updateBBox.shape.rx = k * s.shape.rx := hrx
  rw [e1, r1] at p1 P1
  rw [e2, r2] at p2 P2
  simp only [Box.intersects, m1, M1, m2, M2, p1, P1, p2, P2, real_le]
  have key : ∀ a b c : ℝ, (k * a ≤ k * b + k * c ↔ a ≤ b + c) ∧ (k * b - k * c ≤ k * a ↔ b - c ≤ a) := by
    intro a b c
    rw [← mul_add, ← mul_sub]
    exact ⟨mul_le_mul_iff_right₀ hk, mul_le_mul_iff_right₀ hk⟩
  simp only [(key _ _ _).1, (key _ _ _).2]

theorem Spec.RescaledTyre.rib {k : ℝ} {s s' : Shell ℝ} (h : RescaledTyre k s s') {i : Nat} {r r' : Rib ℝ} (q1 : s.ribs[i]? = some r)
    (q2 : s'.ribs[i]? = some r') : RescaledRib k r r' := by
  obtain ⟨h1, h2⟩ := List.forall₂_iff_get.1 h.ribs
  obtain ⟨i1, v1⟩ := List.getElem?_eq_some_iff.1 q1
  obtain ⟨i2, v2⟩ := List.getElem?_eq_some_iff.1 q2
  have := h2 i i1 i2
  rwa [List.get_eq_getElem, List.get_eq_getElem, v1, v2] at this

theorem Spec.RescaledTyre.size {k : ℝ} {s s' : Shell ℝ} (h : RescaledTyre k s s') : s'.size = s.size := h.ribs.length_eq.symm

/-- **C133, whole tyres on meshes by sampling**: towards a smaller unit, the same flag and the same contact up to the unit, if the vertical
projection of every triangle has an area above the tolerance, or none. (The friction is that of a triangle at the sampled point; where
triangles meet it may be that of either.) -/
theorem C133_setup_mesh_sampling_partial {pol : Policy} {k : ℝ} (hk : 1 ≤ k) {s s' sA sB : Shell ℝ} (hs : s.Reachable pol)
    (hs' : s'.Reachable pol) (hty : RescaledTyre k s s') (hx : 0 ≤ s.shape.rx) {M M' : Mesh ℝ} (hM : BuiltMesh M) (hM' : BuiltMesh M')
    (h : List.Forall₂ (RescaledTriangle k) M.triangles M'.triangles) (hsam : ∀ t ∈ M.triangles, Sampled t) {pose : Affine ℝ} {b b' : Bool}
    (hA : s.setupMesh pol M pose "sampling" = .ok sA b)
    (hB : s'.setupMesh pol M' (rescalePose k pose) "sampling" = .ok sB b') :
    b' = b ∧ RescaledGeometry pol k sA sB := by
  have k0 : 0 < k := by linarith
  obtain ⟨loc, hl1, q1⟩ := hM.query _ (Shell.updateBBox_WF (s.transform pose))
  obtain ⟨loc', hl2, q2⟩ := hM'.query _ (Shell.updateBBox_WF (s'.transform (rescalePose k pose)))
  obtain ⟨f1, r1, a1, c1⟩ := C38_mesh_flag pol s sA hs M pose "sampling" loc b hl1 hA
  obtain ⟨f2, r2, a2, c2⟩ := C38_mesh_flag pol s' sB hs' M' _ "sampling" loc' b' hl2 hB
  have e1 := Shell.setupMesh_rel (.inl ⟨b, hA⟩)
  have e2 := Shell.setupMesh_rel (.inl ⟨b', hB⟩)
  have z0 := hty.size
  have z1 : sA.size = s.size := by unfold Shell.size; rw [e1.ribs]
  have z2 : sB.size = s.size := by rw [← z0]; unfold Shell.size; rw [e2.ribs]
  have hfil := rescale_filter h (fun t => t.bbox.intersects (s.transform pose).updateBBox.bbox)
    (fun t => t.bbox.intersects (s'.transform (rescalePose k pose)).updateBBox.bbox)
    (fun t ht t' ht' hmt => Shell.near_rescale k0 hty.rx pose hmt (hM.constructed t ht) (hM'.constructed t' ht') hx)
  have hsamF : ∀ t ∈ M.triangles.filter fun t => t.bbox.intersects (s.transform pose).updateBBox.bbox, Sampled t :=
    fun t ht => hsam t (List.mem_of_mem_filter ht)
  generalize (M.triangles.filter fun t => t.bbox.intersects (s.transform pose).updateBBox.bbox) = F at q1 hfil hsamF
  generalize (M'.triangles.filter fun t =>
    t.bbox.intersects (s'.transform (rescalePose k pose)).updateBBox.bbox) = F' at q2 hfil
  have hcand : ∀ (P : Affine ℝ) (l : List (TriangleGround ℝ)) (r : Rib ℝ), Shell.ribCandidates P "sampling" l r = l := by
    intro P l r
    unfold Shell.ribCandidates
    rw [List.filter_eq_self]
    intro t _
    simp [Shell.refines, Shell.isCandidate]
  have hen : ∀ (r : Rib ℝ) (P : Affine ℝ) (l : List (TriangleGround ℝ)),
      r.envelopMesh l P "sampling" = .ok (r.envelopSamplingMesh l P) := by
    intro r P l; simp [Rib.envelopMesh]
  have hsame : ∀ i < s.size, f2 i = f1 i ∧ ∃ f, r2 i = { rescaleRecord k (r1 i) with friction := f } := by
    intro i hi
    obtain ⟨r, g1, g2, -⟩ := a1 i hi
    obtain ⟨r', g1', g2', -⟩ := a2 i (by omega)
    have k1 : s.ribs[i]? = some r := by rw [← g1]; exact congrArg (·[i]?) e1.ribs.symm
    have k2 : s'.ribs[i]? = some r' := by rw [← g1']; exact congrArg (·[i]?) e2.ribs.symm
    have hrr := hty.rib k1 k2
    have hr := hs.isRib r (List.mem_of_getElem? k1)
    have hr' := hs'.isRib r' (List.mem_of_getElem? k2)
    have g2 : (if loc = [] then Res.ok (false, r.noContact pose) else
      r.envelopMesh (Shell.ribCandidates pose "sampling" loc r) pose "sampling") = .ok (f1 i, r1 i) := g2
    have g2' : (if loc' = [] then Res.ok (false, r'.noContact (rescalePose k pose)) else
      r'.envelopMesh (Shell.ribCandidates (rescalePose k pose) "sampling" loc' r')
        (rescalePose k pose) "sampling") = .ok (f2 _, r2 _) := g2'
    rw [hcand, hen] at g2 g2'
    by_cases hnil : loc = []
    · have hF : F = [] := by rw [hnil] at q1; exact q1.symm.eq_nil
      have hF' : F' = [] := by rw [hF] at hfil; cases hfil; rfl
      have hnil' : loc' = [] := by rw [hF'] at q2; exact q2.eq_nil
      rw [if_pos hnil] at g2
      rw [if_pos hnil', hrr.noContact hr hr'] at g2'
      obtain ⟨k1, k2⟩ := Prod.mk.inj (Res.ok.inj g2)
      obtain ⟨k1', k2'⟩ := Prod.mk.inj (Res.ok.inj g2')
      rw [← k1, ← k1', ← k2, ← k2']
      exact ⟨rfl, _, rfl⟩
    · have hnil' : loc' ≠ [] := by
        intro hc
        have hF' : F' = [] := by rw [hc] at q2; exact q2.symm.eq_nil
        have hF : F = [] := by rw [hF'] at hfil; cases hfil; rfl
        rw [hF] at q1
        exact hnil q1.eq_nil
      rw [if_neg hnil] at g2
      rw [if_neg hnil'] at g2'
      have hmv := C133_sampling_mesh_partial hk hr hr' hrr pose hfil hsamF
      have t1 := C29_order_independent r pose q1
      have t2 := C29_order_independent r' (rescalePose k pose) q2
      dsimp only at t1 t2
      rw [Res.ok.inj g2] at t1
      rw [Res.ok.inj g2', hmv] at t2
      obtain ⟨u1, u2, u3, u4, u5, u6, -⟩ := t1
      obtain ⟨w1, w2, w3, w4, w5, w6, -⟩ := t2
      dsimp only at u1 u2 u3 u4 u5 u6 w1 w2 w3 w4 w5 w6
      refine ⟨by rw [w1, u1], (r2 i).friction, ?_⟩
      have : r2 i = ⟨(r2 i).point, (r2 i).normal, (r2 i).friction, (r2 i).depth, (r2 i).area, (r2 i).volume⟩ := rfl
      rw [this, w2, w3, w4, w5, w6]
      simp only [rescaleRecord, u2, u3, u4, u5, u6]
  refine ⟨?_, by rw [z1, z2], by rw [e1.pose, e2.pose], ?_⟩
  · rw [Bool.eq_iff_iff, c1, c2, z0]
    constructor
    · rintro ⟨i, hi, hf⟩
      exact ⟨i, hi, by rw [← (hsame i hi).1]; exact hf⟩
    · rintro ⟨i, hi, hf⟩
      exact ⟨i, hi, by rw [(hsame i hi).1]; exact hf⟩
  · intro i hi
    rw [z1] at hi
    obtain ⟨_, _, _, g⟩ := a1 i hi
    obtain ⟨_, _, _, g'⟩ := a2 i (by omega)
    obtain ⟨-, f, e⟩ := hsame i hi
    exact ⟨_, f, g, by rw [g', e]⟩

/-- **C133, whole tyres on flat ground by the geometric method**: towards a smaller unit every contact of a rib is found again, with the same
record up to the unit. -/
theorem C133_setup_flat_geometric_partial {pol : Policy} {k : ℝ} (hk : 1 ≤ k) {s s' sA sB : Shell ℝ} (hs : s.Reachable pol)
    (hs' : s'.Reachable pol) (hty : RescaledTyre k s s') {pose : Affine ℝ} (hp : IsRigid pose) {f : ℝ} {o n : V3 ℝ} {g : Flat ℝ}
    (hg : Flat.make f o n = .ok g) {b b' : Bool} (hA : s.setupFlat pol g pose "geometric" = .ok sA b)
    (hB : s'.setupFlat pol (rescaleFlat k g) (rescalePose k pose) "geometric" = .ok sB b') :
    (b = true → b' = true) ∧ ∀ (i : Nat) (r : Rib ℝ), sA.ribs[i]? = some r → ∀ out, r.envelopGeometricFlat g pose = (true, out) →
      sA.out.read pol i = .ok out ∧ sB.out.read pol i = .ok (rescaleRecord k out) := by
  have e1 := Shell.setupFlat_rel (.inl ⟨b, hA⟩)
  have e2 := Shell.setupFlat_rel (.inl ⟨b', hB⟩)
  have z0 := hty.size
  obtain ⟨f1, r1, a1, a2, -⟩ := C38_flat_flag_partial pol s sA g pose _ b hA
  obtain ⟨f2, r2, b1, b2, -⟩ := C38_flat_flag_partial pol s' sB _ _ _ b' hB
  have key : ∀ i < s.size, f1 i = true → f2 i = true ∧ r2 i = rescaleRecord k (r1 i) := by
    intro i hi hf
    obtain ⟨r, g1, g2, g3⟩ := a1 i hi
    obtain ⟨r', g1', g2', g3'⟩ := b1 i (by omega)
    have q1 : s.ribs[i]? = some r := by rw [← g1]; exact congrArg (·[i]?) e1.ribs.symm
    have q2 : s'.ribs[i]? = some r' := by rw [← g1']; exact congrArg (·[i]?) e2.ribs.symm
    have g2 : r.envelopFlat g pose "geometric" = .ok (f1 i, r1 i) := g2
    have g2' : r'.envelopFlat (rescaleFlat k g) (rescalePose k pose) "geometric" = .ok (f2 i, r2 i) := g2'
    unfold Rib.envelopFlat at g2 g2'
    rw [if_pos rfl] at g2 g2'
    have hc := C133_geometric_flat_partial hk (hs.isRib r (List.mem_of_getElem? q1)) (hs'.isRib r' (List.mem_of_getElem? q2)) (hty.rib q1 q2)
      hp hg (by rw [Res.ok.inj g2, hf])
    rw [hc] at g2'
    have := Prod.mk.inj (Res.ok.inj g2')
    exact ⟨this.1.symm, this.2.symm⟩
  constructor
  · rw [a2, b2, z0]
    simp only [Bool.and_eq_true, decide_eq_true_eq]
    exact fun h => ⟨h.1, (key _ (by omega) h.2).1⟩
  · intro i r hi out ho
    have hlt : i < s.size := by
      rw [e1.ribs] at hi
      exact (List.getElem?_eq_some_iff.1 hi).1
    obtain ⟨r0, g1, g2, g3⟩ := a1 i hlt
    have g1 : sA.ribs[i]? = some r0 := g1
    rw [hi] at g1
    cases g1
    have g2 : r.envelopFlat g pose "geometric" = .ok (f1 i, r1 i) := g2
    unfold Rib.envelopFlat at g2
    rw [if_pos rfl, ho] at g2
    have := Prod.mk.inj (Res.ok.inj g2)
    obtain ⟨_, _, _, g3'⟩ := b1 i (by omega)
    refine ⟨by rw [g3, ← this.2], ?_⟩
    rw [g3', (key i hlt this.1.symm).2, ← this.2]

theorem Spec.ClearOfRib.rescale {k : ℝ} (hk : 0 < k) {r r' : Rib ℝ} (hr : IsRib r) (hr' : IsRib r') (hrr : RescaledRib k r r')
    {pose : Affine ℝ} {t t' : TriangleGround ℝ} (ht : RescaledTriangle k t t') (h : ClearOfRib pose r t.tri) :
    ClearOfRib (rescalePose k pose) r' t'.tri := by
  have hside : ∀ v, side (rescalePose k pose) r' (Spec.rescale k v) = k * side pose r v := by
    intro v
    unfold side
    rw [hrr.ribCentre hr hr']
    simp only [dot3, minus, rescalePose, Spec.rescale]; ring
  have hmem : ∀ u' ∈ [t'.tri.v0, t'.tri.v1, t'.tri.v2], ∃ u ∈ [t.tri.v0, t.tri.v1, t.tri.v2], u' = Spec.rescale k u := by
    intro u' hu'
    simp only [List.mem_cons, List.not_mem_nil, or_false] at hu'
    rcases hu' with rfl | rfl | rfl
    · exact ⟨_, by simp, ht.v0⟩
    · exact ⟨_, by simp, ht.v1⟩
    · exact ⟨_, by simp, ht.v2⟩
  intro u' hu' v' hv' hpos
  obtain ⟨u, hu, rfl⟩ := hmem u' hu'
  obtain ⟨v, hv, rfl⟩ := hmem v' hv'
  rw [hside, hside] at hpos ⊢
  have hp : 0 < side pose r u * side pose r v := by
    rw [show k * side pose r u * (k * side pose r v) = k ^ 2 * (side pose r u * side pose r v) by ring] at hpos
    exact (mul_pos_iff_of_pos_left (by positivity)).1 hpos
  have := mul_lt_mul_of_pos_left (h u hu v hv hp) hk
  rw [← mul_sub, abs_mul, abs_mul, abs_of_pos hk]
  linarith

/-- **C133, whole tyres on meshes by the geometric method**: towards a smaller unit every contact of a rib is found again, with the same
record up to the unit. -/
theorem C133_setup_mesh_geometric_partial {pol : Policy} {k : ℝ} (hk : 1 ≤ k) {s s' sA sB : Shell ℝ} (hs : s.Reachable pol)
    (hs' : s'.Reachable pol) (hty : RescaledTyre k s s') (hx : 0 ≤ s.shape.rx) {M M' : Mesh ℝ} (hM : BuiltMesh M) (hM' : BuiltMesh M')
    (h : List.Forall₂ (RescaledTriangle k) M.triangles M'.triangles) {pose : Affine ℝ} (hp : IsRigid pose)
    (hbox : ∀ r ∈ s.ribs, r.radius ^ 2 + r.center.y ^ 2 ≤ s.shape.rx ^ 2)
    (hclear : ∀ t ∈ M.triangles, ∀ r ∈ s.ribs, ClearOfRib pose r t.tri)
    (hres : ∀ r ∈ s.ribs, Resolved r pose M.triangles) {b b' : Bool}
    (hA : s.setupMesh pol M pose "geometric" = .ok sA b)
    (hB : s'.setupMesh pol M' (rescalePose k pose) "geometric" = .ok sB b') :
    (b = true → b' = true) ∧ ∀ (i : Nat) (r : Rib ℝ), sA.ribs[i]? = some r → ∀ o,
      r.envelopGeometricMesh M.triangles pose = .ok (true, o) →
        sA.out.read pol i = .ok o ∧ sB.out.read pol i = .ok (rescaleRecord k o) := by
  have k0 : 0 < k := by linarith
  have heps := real_eps_pos
  have e1 := Shell.setupMesh_rel (.inl ⟨b, hA⟩)
  have e2 := Shell.setupMesh_rel (.inl ⟨b', hB⟩)
  have hfind : ∀ t' ∈ M'.triangles, ∃ t ∈ M.triangles, RescaledTriangle k t t' := by
    intro t' ht'
    obtain ⟨i, hi, e⟩ := List.mem_iff_getElem.1 ht'
    obtain ⟨h1, h2⟩ := List.forall₂_iff_get.1 h
    refine ⟨M.triangles[i]'(by omega), List.getElem_mem _, ?_⟩
    have := h2 i (by omega) hi
    rwa [List.get_eq_getElem, List.get_eq_getElem, e] at this
  have hfindr : ∀ r' ∈ s'.ribs, ∃ r ∈ s.ribs, RescaledRib k r r' := by
    intro r' hr'
    obtain ⟨i, hi, e⟩ := List.mem_iff_getElem.1 hr'
    obtain ⟨h1, h2⟩ := List.forall₂_iff_get.1 hty.ribs
    refine ⟨s.ribs[i]'(by omega), List.getElem_mem _, ?_⟩
    have := h2 i (by omega) hi
    rwa [List.get_eq_getElem, List.get_eq_getElem, e] at this
  obtain ⟨A1, A2⟩ := C61_search_geometric_partial pol s sA hs hx M hM pose hp hbox hclear (fun t ht r hr => (hres r hr).section_ t ht) b hA
  obtain ⟨B1, B2⟩ := C61_search_geometric_partial pol s' sB hs' (by rw [hty.rx]; positivity) M' hM' (rescalePose k pose)
    (show IsRigid (rescalePose k pose) from hp)
    (by
      intro r' hr'
      obtain ⟨r, hr, hrr⟩ := hfindr r' hr'
      have := hbox r hr
      rw [hrr.radius, hrr.center (hs.isRib r hr) (hs'.isRib r' hr'), hty.rx]
      simp only [rescale]
      nlinarith [mul_le_mul_of_nonneg_left this (sq_nonneg k)])
    (by
      intro t' ht' r' hr'
      obtain ⟨r, hr, hrr⟩ := hfindr r' hr'
      obtain ⟨t, ht, htt⟩ := hfind t' ht'
      exact (hclear t ht r hr).rescale k0 (hs.isRib r hr) (hs'.isRib r' hr') hrr htt)
    (by
      intro t' ht' r' hr' seg hseg
      obtain ⟨r, hr, hrr⟩ := hfindr r' hr'
      obtain ⟨t, ht, htt⟩ := hfind t' ht'
      rw [hrr.triangleDisk hk (hs.isRib r hr) (hs'.isRib r' hr') pose htt (hres r hr).radius ((hres r hr).cut t ht)] at hseg
      rcases hd : Inter.triangleDisk t.tri (r.diskGrd pose) (Scalar.eps : ℝ) with o | m | w
      · rw [hd] at hseg
        rcases o with _ | s0
        · cases hseg
        · have hl := (hres r hr).section_ t ht s0 hd
          simp only [Option.map_some, Res.ok.injEq, Option.some.injEq] at hseg
          rw [← hseg, ← Units.length_eq, Units.seg_length k0, Units.length_eq]
          exact hl.trans (le_mul_of_one_le_left (heps.le.trans hl) hk)
      · rw [hd] at hseg; cases hseg
      · rw [hd] at hseg; cases hseg) b' hB
  have key : ∀ (i : Nat) (r : Rib ℝ), sA.ribs[i]? = some r → ∀ o, r.envelopGeometricMesh M.triangles pose = .ok (true, o) →
      ∃ r', sB.ribs[i]? = some r' ∧ r'.envelopGeometricMesh M'.triangles (rescalePose k pose) = .ok (true, rescaleRecord k o) := by
    intro i r hi o ho
    rw [e1.ribs] at hi
    have hi : s.ribs[i]? = some r := hi
    have hlt : i < s'.ribs.length := by
      rw [← hty.ribs.length_eq]
      exact (List.getElem?_eq_some_iff.1 hi).1
    have hi' : s'.ribs[i]? = some (s'.ribs[i]) := List.getElem?_eq_getElem hlt
    have hmem := List.mem_of_getElem? hi
    refine ⟨s'.ribs[i], by rw [e2.ribs]; exact hi', ?_⟩
    exact C133_geometric_mesh_partial hk (hs.isRib r hmem) (hs'.isRib _ (List.mem_of_getElem? hi')) (hty.rib hi hi') hp h (hres r hmem) ho
  refine ⟨?_, ?_⟩
  · rw [A2, B2]
    rintro ⟨r, hr, o, ho⟩
    obtain ⟨i, hi, e⟩ := List.mem_iff_getElem.1 hr
    obtain ⟨r', h1, h2⟩ := key i r (by rw [List.getElem?_eq_getElem hi, e]) o ho
    exact ⟨r', List.mem_of_getElem? h1, _, h2⟩
  · intro i r hi o ho
    obtain ⟨r', h1, h2⟩ := key i r hi o ho
    obtain ⟨fl, o1, a1, a2⟩ := A1 i r hi
    obtain ⟨fl', o2, b1, b2⟩ := B1 i r' h1
    rw [ho] at a1
    rw [h2] at b1
    cases a1
    cases b1
    exact ⟨a2, b2⟩

/-- **C133, the values of the whole tyre**: in a smaller unit, for a tyre with a contact volume above the tolerance. -/
theorem C133_values_partial {pol : Policy} {k : ℝ} (hk : 1 ≤ k) {s s' : Shell ℝ} (h : RescaledShell pol k s s') {V : ℝ}
    (hV : s.contactVolume pol = .ok V) (hVe : Scalar.eps ≤ V) :
    s'.contactVolume pol = .ok (k ^ 3 * V) ∧ (∃ d, s.contactDepth pol = .ok d ∧ s'.contactDepth pol = .ok (k * d)) ∧
    (∃ p, s.contactPoint pol = .ok p ∧ s'.contactPoint pol = .ok (rescale k p)) ∧
    s'.contactNormal pol = s.contactNormal pol ∧ s'.contactFriction pol = s.contactFriction pol ∧
    (∃ F, s.contactPointAffine pol = .ok F ∧ s'.contactPointAffine pol = .ok (rescalePose k F)) := by
  have k0 : 0 < k := by linarith
  have k3 : 1 ≤ k ^ 3 := one_le_pow₀ hk
  have k30 : k ^ 3 ≠ 0 := by positivity
  have heps := real_eps_pos
  obtain ⟨o, ho⟩ : ∃ o : Nat → Output ℝ, ∀ i < s.size, s.out.read pol i = .ok (o i) ∧ s'.out.read pol i = .ok (rescaleRecord k (o i)) := by
    have : ∀ i, ∃ x, i < s.size → s.out.read pol i = .ok x ∧ s'.out.read pol i = .ok (rescaleRecord k x) := by
      intro i
      by_cases hi : i < s.size
      · obtain ⟨x, h1, h2⟩ := h.record i hi
        exact ⟨x, fun _ => ⟨h1, h2⟩⟩
      · exact ⟨Output.default, fun hc => absurd hc hi⟩
    choose o ho using this
    exact ⟨o, ho⟩
  have hrep : Reports pol s o := Shell.reports_iff.2 fun i hi => (ho i hi).1
  have hrep' : Reports pol s' (fun i => rescaleRecord k (o i)) := Shell.reports_iff.2 (by rw [h.size]; exact fun i hi => (ho i hi).2)
  have hV1 := C42_total_real hrep
  have hV2 := C42_total_real hrep'
  have hr := Shell.records_of_reports hrep
  have hr' := Shell.records_of_reports hrep'
  rw [h.size] at hV2 hr'
  rw [hV] at hV1
  have hVs : ∑ i ∈ Finset.range s.size, (o i).volume = V := (Res.ok.inj hV1).symm
  have hVs' : ∑ i ∈ Finset.range s.size, (rescaleRecord k (o i)).volume = k ^ 3 * V := by
    rw [← hVs, Finset.mul_sum]; rfl
  rw [hVs'] at hV2
  have n1 : ¬ (V <. (Scalar.eps : ℝ)) = true := by rw [real_lt, decide_eq_true_eq]; exact not_lt.2 hVe
  have n2 : ¬ (k ^ 3 * V <. (Scalar.eps : ℝ)) = true := by
    rw [real_lt, decide_eq_true_eq]; exact not_lt.2 (hVe.trans (le_mul_of_one_le_left (heps.le.trans hVe) k3))
  have hpt : ∃ p, s.contactPoint pol = .ok p ∧ s'.contactPoint pol = .ok (rescale k p) := by
    rw [Shell.contactPoint, hV, hr, Res.bind_ok, Res.bind_ok, Shell.contactPoint, hV2, hr', Res.bind_ok, Res.bind_ok, if_neg n1, if_neg n2]
    refine ⟨_, rfl, ?_⟩
    rw [Res.pure_eq, Shell.foldl_range3 (fun i => rescaleRecord k (o i)) (fun r => V3.smul r.volume r.point),
      Shell.foldl_range3 o (fun r => V3.smul r.volume r.point)]
    simp only [ribSum_real]
    have e : ∀ x : ℝ, k ^ 4 * x / (k ^ 3 * V) = k * (x / V) := fun x => by
      rw [show k ^ 4 * x = k ^ 3 * (k * x) by ring, mul_div_mul_left _ _ k30, mul_div_assoc]
    have es : ∀ a b : Nat → ℝ, (∀ i, b i = k ^ 4 * a i) → (∑ i ∈ Finset.range s.size, b i) / (k ^ 3 * V) =
        k * ((∑ i ∈ Finset.range s.size, a i) / V) := by
      intro a b hab
      rw [← e, Finset.mul_sum]
      simp only [hab]
    simp only [V3.real_sdiv, rescale]
    rw [es (fun i => (V3.smul (o i).volume (o i).point).x) _ fun i => by simp only [rescaleRecord, rescale, V3.real_smul]; ring,
      es (fun i => (V3.smul (o i).volume (o i).point).y) _ fun i => by simp only [rescaleRecord, rescale, V3.real_smul]; ring,
      es (fun i => (V3.smul (o i).volume (o i).point).z) _ fun i => by simp only [rescaleRecord, rescale, V3.real_smul]; ring]
  have es3 : ∀ a b : Nat → ℝ, (∀ i, b i = k ^ 3 * a i) → (∑ i ∈ Finset.range s.size, b i) / (k ^ 3 * V) =
      (∑ i ∈ Finset.range s.size, a i) / V := by
    intro a b hab
    rw [← mul_div_mul_left _ V k30, Finset.mul_sum]
    simp only [hab]
  have hno : s'.contactNormal pol = s.contactNormal pol := by
    rw [Shell.contactNormal, hV2, hr', Res.bind_ok, Res.bind_ok, Shell.contactNormal, hV, hr, Res.bind_ok, Res.bind_ok, if_neg n1, if_neg n2]
    rw [Shell.foldl_range3 (fun i => rescaleRecord k (o i)) (fun r => V3.smul r.volume r.normal),
      Shell.foldl_range3 o (fun r => V3.smul r.volume r.normal)]
    simp only [ribSum_real, V3.real_sdiv]
    rw [es3 (fun i => (V3.smul (o i).volume (o i).normal).x) _ fun i => by simp only [rescaleRecord, V3.real_smul]; ring,
      es3 (fun i => (V3.smul (o i).volume (o i).normal).y) _ fun i => by simp only [rescaleRecord, V3.real_smul]; ring,
      es3 (fun i => (V3.smul (o i).volume (o i).normal).z) _ fun i => by simp only [rescaleRecord, V3.real_smul]; ring]
  refine ⟨hV2, ?_, hpt, hno, ?_, ?_⟩
  · rw [Shell.contactDepth, hV, hr, Res.bind_ok, Res.bind_ok, Shell.contactDepth, hV2, hr', Res.bind_ok, Res.bind_ok, if_neg n1, if_neg n2]
    refine ⟨_, rfl, ?_⟩
    rw [Res.pure_eq, Shell.foldl_range (fun i => rescaleRecord k (o i)) (fun r => r.depth *. r.volume),
      Shell.foldl_range o (fun r => r.depth *. r.volume), ribSum_real, ribSum_real]
    simp only [real_div]
    rw [es3 (fun i => k * ((o i).depth *. (o i).volume)) _ fun i => by simp only [rescaleRecord, real_mul]; ring, ← Finset.mul_sum, mul_div_assoc]
  · rw [Shell.contactFriction, hV2, hr', Res.bind_ok, Res.bind_ok, Shell.contactFriction, hV, hr, Res.bind_ok, Res.bind_ok, if_neg n1, if_neg n2]
    rw [Shell.foldl_range (fun i => rescaleRecord k (o i)) (fun r => r.friction *. r.volume),
      Shell.foldl_range o (fun r => r.friction *. r.volume), ribSum_real, ribSum_real]
    simp only [real_div]
    rw [es3 (fun i => (o i).friction *. (o i).volume) _ fun i => by simp only [rescaleRecord, real_mul]; ring]
  · obtain ⟨p, p1, p2⟩ := hpt
    rw [Shell.contactPointAffine, p1, Shell.contactPointAffine, p2, hno]
    have hy : s'.yAxis = s.yAxis := by unfold Shell.yAxis; rw [h.pose]; rfl
    rw [hy]
    obtain ⟨m, hm⟩ : ∃ m, s.contactNormal pol = .ok m := by
      rw [Shell.contactNormal, hV, hr, Res.bind_ok, Res.bind_ok, if_neg n1]; exact ⟨_, rfl⟩
    rw [hm]
    exact ⟨_, rfl, rfl⟩

/-- The hypotheses of `C133_setup_mesh_geometric_partial` are met: a wheel of radius 1 m on the field, in metres and in millimetres; the contact
is found in both units. -/
example (fresh : Nat → Output ℝ) : ∃ (s s' sA sB : Shell ℝ) (t' : TriangleGround ℝ) (b' : Bool) (o : Output ℝ),
    Shell.make fresh 1 1 2 2 2 1 = .ok s ∧ Shell.make fresh 1 1000 2 2000 2 1000 = .ok s' ∧
    TriangleGround.make 0 1 ⟨0, 10000, 0⟩ ⟨-30000, -10000, 0⟩ ⟨30000, -10000, 0⟩ = .ok t' ∧
    s.setupMesh .raw (Mesh.ofTriangles [Demo.field]) (Demo.upright (1 / 2)) "geometric" = .ok sA true ∧
    s'.setupMesh .raw (Mesh.ofTriangles [t']) (Demo.upright 500) "geometric" = .ok sB b' ∧ b' = true ∧
    sA.out.read .raw 0 = .ok o ∧ sB.out.read .raw 0 = .ok (rescaleRecord 1000 o) := by
  obtain ⟨s0, a, h0, hshape, hab, ha, hac, haR, haw⟩ := Demo.oneRib fresh
  obtain ⟨s, s', m1, m2, hsz, hty⟩ := C133_tyre (k := 1000) (by norm_num) fresh fresh 1 le_rfl (rx := 1) (mx := 2) (ry := 2) (my := 2) (ly := 1)
    ⟨by norm_num, by norm_num, by norm_num, by norm_num, by norm_num, by norm_num⟩
  rw [h0] at m1
  cases m1
  have hs : s0.Reachable .raw := .make h0
  have hs' : s'.Reachable .raw := .make m2
  obtain ⟨t', ht'⟩ : ∃ t', TriangleGround.make 0 (1 : ℝ) (rescale 1000 ⟨0, 10, 0⟩) (rescale 1000 ⟨-30, -10, 0⟩) (rescale 1000 ⟨30, -10, 0⟩) =
      .ok t' := by simp [TriangleGround.make]
  have hT := C133_triangle (by norm_num) Demo.field_make ht'
  have hid : t'.id = 0 := by
    unfold TriangleGround.make at ht'
    obtain ⟨-, -, h⟩ := Res.bind_eq_ok.1 ht'
    cases h; rfl
  have hb' : BuiltMesh (Mesh.ofTriangles [t']) := by
    refine .inr ⟨_, by simp, ?_, ?_, rfl⟩
    · simp only [List.mem_singleton, forall_eq]; exact ⟨_, _, _, _, _, ht'⟩
    · intro i t ht
      match i, ht with
      | 0, ht => simp at ht; subst ht; exact hid
      | n + 1, ht => simp at ht
  have hp : rescalePose 1000 (Demo.upright (1 / 2)) = Demo.upright 500 := by
    simp only [rescalePose, Demo.upright, rescale]; norm_num
  have hdisk := Rib.disk_ribOf ha hac haR 1
  have hres : Resolved a (Demo.upright (1 / 2)) [Demo.field] := by
    have h1 : a.diskGrd (Demo.upright (1 / 2)) = (Demo.ribOf 1).diskGrd (Demo.upright (1 / 2)) := Rib.diskGrd_congr hdisk _
    have h2 : ribCentre (Demo.upright (1 / 2)) a = ribCentre (Demo.upright (1 / 2)) (Demo.ribOf 1) := by
      rw [← Rib.centerGrd_eq, ← Rib.centerGrd_eq]; exact congrArg (fun d : Disk ℝ => d.plane.origin) h1
    have h3 : a.radius = (Demo.ribOf 1).radius := congrArg Disk.radius hdisk
    have := Demo.field_resolved
    exact ⟨by rw [h3]; exact this.radius, by rw [h1, h2, h3]; exact this.cut, by rw [h1]; exact this.section_⟩
  have hall : ∀ r ∈ s0.ribs, r = a := by rw [hab]; simp
  have htri : (Mesh.ofTriangles [Demo.field]).triangles = [Demo.field] := rfl
  have htri' : (Mesh.ofTriangles [t']).triangles = [t'] := rfl
  have hclear : ∀ t ∈ (Mesh.ofTriangles [Demo.field]).triangles, ∀ r ∈ s0.ribs, ClearOfRib (Demo.upright (1 / 2)) r t.tri := by
    intro t ht r hr
    rw [htri, List.mem_singleton] at ht
    rw [hall r hr, ht]
    exact Demo.field_clear hac _
  obtain ⟨sA, b, hA⟩ := C37_setup_partial s0 hs (by omega) _ Demo.field_built _ (Demo.upright_rigid (1 / 2)) (fun t ht _ => hclear t ht)
  have hsz' : s'.size = 1 := by rw [hty.size, hsz]
  obtain ⟨sB, b', hB⟩ := C37_setup_partial s' hs' (by omega) _ hb' (rescalePose 1000 (Demo.upright (1 / 2))) (Demo.upright_rigid (1 / 2))
    (fun t ht _ r' hr' => by
      rw [htri', List.mem_singleton] at ht
      subst ht
      obtain ⟨i, hi, e⟩ := List.mem_iff_getElem.1 hr'
      have hi1 : i < s0.ribs.length := by rw [hty.ribs.length_eq]; exact hi
      have hrr := hty.rib (List.getElem?_eq_getElem hi1) (List.getElem?_eq_getElem hi)
      rw [e] at hrr
      exact (hclear Demo.field (by simp [htri]) _ (List.getElem_mem hi1)).rescale (by norm_num) (hs.isRib _ (List.getElem_mem hi1))
        (hs'.isRib r' hr') hrr hT)
  obtain ⟨k1, k2⟩ := C133_setup_mesh_geometric_partial (by norm_num) hs hs' hty (by rw [hshape]; norm_num) Demo.field_built hb'
    (.cons hT .nil) (Demo.upright_rigid (1 / 2)) (by intro r hr; rw [hall r hr, hac, haR, hshape]; norm_num) hclear
    (by intro r hr; rw [hall r hr]; exact hres) hA hB
  have hribs : sA.ribs = [a] := by rw [(Shell.setupMesh_rel (.inl ⟨b, hA⟩)).ribs]; exact hab
  obtain ⟨o, ho⟩ := Demo.field_contact (w := 2) (by norm_num)
  have hoa : a.envelopGeometricMesh [Demo.field] (Demo.upright (1 / 2)) = .ok (true, o) := by
    rw [Rib.envelopGeometricMesh_congr (Rib.disk_ribOf ha hac haR 2) haw (Demo.upright (1 / 2)) [Demo.field]]; exact ho
  have hb : b = true := by
    obtain ⟨-, A2⟩ := C61_search_geometric_partial .raw s0 sA hs (by rw [hshape]; norm_num) _ Demo.field_built _ (Demo.upright_rigid (1 / 2))
      (by intro r hr; rw [hall r hr, hac, haR, hshape]; norm_num) hclear
      (fun t ht r hr => by rw [hall r hr]; exact hres.section_ t (by rw [htri] at ht; exact ht)) b hA
    exact A2.2 ⟨a, by rw [hribs]; simp, o, hoa⟩
  obtain ⟨g1, g2⟩ := k2 0 a (by rw [hribs]; rfl) o hoa
  subst hb
  refine ⟨s0, s', sA, sB, t', b', o, h0, ?_, ?_, hA, by rw [← hp]; exact hB, k1 rfl, g1, g2⟩
  · rw [← m2]; norm_num
  · rw [← ht']; simp only [rescale]; norm_num

/-- The hypotheses of `C133_values_partial` are met by the contact of the wheel with the road, by sampling: its volume is at least 1 m³. -/
example (fresh : Nat → Output ℝ) : ∃ (s s' sA sB : Shell ℝ) (b : Bool) (V : ℝ),
    Shell.make fresh 1 1 2 2 2 1 = .ok s ∧ Shell.make fresh 1 1000 2 2000 2 1000 = .ok s' ∧
    s.setupFlat .raw Demo.road (Demo.upright (1 / 2)) "sampling" = .ok sA b ∧
    s'.setupFlat .raw Demo.road (Demo.upright 500) "sampling" = .ok sB b ∧ RescaledShell .raw 1000 sA sB ∧
    sA.contactVolume .raw = .ok V ∧ 1 ≤ V ∧ sB.contactVolume .raw = .ok (1000 ^ 3 * V) := by
  obtain ⟨s0, a, h0, hshape, hab, ha, hac, haR, haw⟩ := Demo.oneRib fresh
  obtain ⟨s, s', m1, m2, hsz, hty⟩ := C133_tyre (k := 1000) (by norm_num) fresh fresh 1 le_rfl (rx := 1) (mx := 2) (ry := 2) (my := 2) (ly := 1)
    ⟨by norm_num, by norm_num, by norm_num, by norm_num, by norm_num, by norm_num⟩
  rw [h0] at m1
  cases m1
  have hs : s0.Reachable .raw := .make h0
  have hs' : s'.Reachable .raw := .make m2
  have hp : rescalePose 1000 (Demo.upright (1 / 2)) = Demo.upright 500 := by
    simp only [rescalePose, Demo.upright, rescale]; norm_num
  have hg : rescaleFlat 1000 Demo.road = Demo.road := by simp [rescaleFlat, rescale, Demo.road]
  obtain ⟨sA, b, hA⟩ := Shell.setupFlat_total hs (by omega) Demo.road (Demo.upright (1 / 2)) (.inr rfl)
  obtain ⟨sB, b', hB⟩ := Shell.setupFlat_total hs' (by rw [hty.size, hsz]; norm_num) Demo.road (Demo.upright 500) (.inr rfl)
  obtain ⟨hb, hsh⟩ := C133_setup_flat (k := 1000) (by norm_num) hs hs' hty hA (by rw [hg, hp]; exact hB)
  subst hb
  obtain ⟨f1, r1, a1, -⟩ := C38_flat_flag_partial .raw s0 sA _ _ _ b' hA
  have e1 := Shell.setupFlat_rel (.inl ⟨b', hA⟩)
  have hsA : sA.size = 1 := by unfold Shell.size; rw [e1.ribs, hab]; rfl
  have hrep : Reports .raw sA r1 := Shell.reports_iff.2 fun i hi => by
    obtain ⟨_, _, _, g⟩ := a1 i (by omega)
    exact g
  have hV := C42_total_real hrep
  rw [hsA, Finset.sum_range_one] at hV
  obtain ⟨r, g1, g2, -⟩ := a1 0 (by omega)
  have hra : r = a := by
    have g1 : sA.ribs[0]? = some r := g1
    rw [e1.ribs, hab] at g1
    exact (Option.some.inj g1).symm
  subst hra
  have g2 : r.envelopFlat Demo.road (Demo.upright (1 / 2)) "sampling" = .ok (f1 0, r1 0) := g2
  unfold Rib.envelopFlat at g2
  rw [if_neg (by decide), if_pos rfl] at g2
  have hy : r.y = 0 := by
    have := congrArg V3.y (ha.center.symm.trans hac)
    exact this
  have hc : (Demo.upright (1 / 2)).apply ⟨0, r.y, 0⟩ = ⟨0, 0, 1 / 2⟩ := by
    rw [hy]; simp [Demo.upright, Affine.apply, M3.mulVec, V3.add]
  obtain ⟨-, -, q1, q2⟩ := C60_sampling_flat ha (by rw [haw]; norm_num) (Demo.upright_rigid (1 / 2)) rfl Demo.road_make rfl rfl
    (by rw [hc]; norm_num)
  have hf := q1.2 (by rw [hc, haR]; norm_num)
  have hd := (q2 hf).1
  rw [hc, haR] at hd
  have hvol : (r1 0).volume = Rib.depthVolume r.radius r.width (r1 0).depth := by
    have hf' : (r.envelopSamplingFlat Demo.road (Demo.upright (1 / 2))).1 = true := hf
    have g : r.envelopSamplingFlat Demo.road (Demo.upright (1 / 2)) = (f1 0, r1 0) := Res.ok.inj g2
    have h1 : ∀ res, res = r.envelopSamplingFlat Demo.road (Demo.upright (1 / 2)) → res.1 = true →
        res.2.volume = Rib.depthVolume r.radius r.width res.2.depth := by
      intro res hres
      unfold Rib.envelopSamplingFlat Rib.envelopSampling at hres
      split at hres
      · dsimp only at hres
        split at hres
        · rw [hres]; intro _; rfl
        · rw [hres]; intro h; cases h
      · rw [hres]; intro h; cases h
    have := h1 _ rfl hf'
    rw [g] at this
    exact this
  have hd' : (r1 0).depth = 1 / 2 := by
    have g : r.envelopSamplingFlat Demo.road (Demo.upright (1 / 2)) = (f1 0, r1 0) := Res.ok.inj g2
    rw [g] at hd
    rw [hd]; norm_num
  have hV1 : 1 ≤ (r1 0).volume := by
    rw [hvol, hd', haR, haw]
    simp only [Rib.depthVolume, real_mul, real_two, real_sqrt, real_sub, real_acos, real_div]
    have h1 : Real.arccos ((1 - 1 / 2) / 1) = Real.pi / 3 := by
      rw [show ((1 - 1 / 2) / 1 : ℝ) = Real.cos (Real.pi / 3) by rw [Real.cos_pi_div_three]; norm_num]
      exact Real.arccos_cos (by have := Real.pi_pos; linarith) (by have := Real.pi_pos; linarith)
    have h2 : Real.sqrt (1 / 2 * (2 * 1 - 1 / 2)) ≤ 1 := by
      rw [Real.sqrt_le_one]; norm_num
    have h3 := Real.pi_gt_three
    rw [h1]
    linarith
  have heps := real_eps_lt_one
  refine ⟨s0, s', sA, sB, b', (r1 0).volume, h0, ?_, hA, hB, hsh, hV, hV1, (C133_values_partial (by norm_num) hsh hV (by linarith)).1⟩
  rw [← m2]; norm_num

end Enve
