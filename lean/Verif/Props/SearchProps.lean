import Verif.Props.SectionProps

/-! # The spatial search does not change the result: C61; distant ground has no influence: C62 -/

namespace Enve
open Scalar Spec

/-! ## The section of a triangle clear of the plane is inside the triangle -/

/-- The common line of the plane of a disk and the plane of a triangle. -/
theorem Inter.cut_line {T : Triangle ℝ} {d : Disk ℝ} (hd : Unit3 d.plane.normal) {tol : ℝ} (ht : 0 < tol)
    {l : Line ℝ} (hl : Inter.planePlane d.layingPlane T.layingPlane tol = some l) :
    Unit3 T.layingPlane.normal ∧ dot3 l.direction T.layingPlane.normal = 0 ∧
    (∀ v, OnPlane T.layingPlane v → dot3 (minus v l.origin) T.layingPlane.normal = 0) ∧
    (∀ p, OnLine l p ↔ OnPlane d.layingPlane p ∧ OnPlane T.layingPlane p) := by
  have hN : Unit3 T.layingPlane.normal := by
    by_cases hz : V3.cross (V3.sub T.v1 T.v0) (V3.sub T.v2 T.v0) = ⟨0, 0, 0⟩
    · exfalso
      have : T.layingPlane.normal = ⟨0, 0, 0⟩ := by
        show V3.normalized _ = _; rw [V3.normalized_zero hz, hz]
      have h0 : V3.normalized (⟨0, 0, 0⟩ : V3 ℝ) = ⟨0, 0, 0⟩ := V3.normalized_zero rfl
      have h1 : V3.cross (V3.normalized d.layingPlane.normal) (⟨0, 0, 0⟩ : V3 ℝ) = ⟨0, 0, 0⟩ := by
        rw [V3.real_cross]; simp
      unfold Inter.planePlane at hl
      dsimp only at hl
      rw [this, h0, h1, V3.norm_eq_zero.2 rfl] at hl
      simp [Scalar.isApprox, ht] at hl
    · exact V3.sq_normalized hz
  have hx := (C51_plane_plane d.layingPlane T.layingPlane hd hN tol ht).2 l hl
  have ho := ((hx l.origin).1 ⟨0, by simp [along]⟩).2
  have h1 := ((hx (along l.origin 1 l.direction)).1 ⟨1, rfl⟩).2
  refine ⟨hN, ?_, ?_, hx⟩
  · simp only [OnPlane, dot3, minus, along] at ho h1 ⊢
    linear_combination h1 - ho
  · intro v hv
    simp only [OnPlane, dot3, minus] at ho hv ⊢
    linear_combination hv - ho

/-- A crossing parameter between two heights that are not on the same side is in `[0, 1]`, unless both are 0. -/
theorem Spec.crossing_unit {a b t : ℝ} (h : a * b ≤ 0) (hne : a ≠ 0 ∨ b ≠ 0) (e : a + t * (b - a) = 0) :
    0 ≤ t ∧ t ≤ 1 := by
  have key : ∀ a b t : ℝ, 0 ≤ a → b ≤ 0 → (a ≠ 0 ∨ b ≠ 0) → a + t * (b - a) = 0 → 0 ≤ t ∧ t ≤ 1 := by
    intro a b t ha hb hne e
    have hd : 0 < a - b := by
      rcases hne with h | h
      · have := lt_of_le_of_ne ha (Ne.symm h); linarith
      · have := lt_of_le_of_ne hb h; linarith
    constructor <;> by_contra hc <;> push Not at hc <;> nlinarith
  rcases le_total 0 a with ha | ha
  · rcases ha.eq_or_lt with h0 | h0
    · subst h0
      have hb : b ≠ 0 := by simpa using hne
      have : t = 0 := by
        have : t * b = 0 := by linarith
        exact (mul_eq_zero.1 this).resolve_right hb
      subst this; norm_num
    · exact key a b t ha (by nlinarith) hne e
  · rcases ha.eq_or_lt with h0 | h0
    · subst h0
      have hb : b ≠ 0 := by simpa using hne
      have : t = 0 := by
        have : t * b = 0 := by linarith
        exact (mul_eq_zero.1 this).resolve_right hb
      subst this; norm_num
    · exact key (-a) (-b) t (by linarith) (by nlinarith) (by simpa using hne) (by linarith)

theorem Spec.InTriangle.convex {a b c p q : V3 ℝ} {t : ℝ} (hp : InTriangle a b c p) (hq : InTriangle a b c q)
    (h0 : 0 ≤ t) (h1 : t ≤ 1) : InTriangle a b c (along p t (minus q p)) := by
  obtain ⟨x, y, z, hx, hy, hz, hs, rfl⟩ := hp
  obtain ⟨x', y', z', hx', hy', hz', hs', rfl⟩ := hq
  refine ⟨(1 - t) * x + t * x', (1 - t) * y + t * y', (1 - t) * z + t * z', ?_, ?_, ?_,
    by linear_combination (1 - t) * hs + t * hs', by simp only [along, minus]; congr 1 <;> ring⟩
  all_goals exact add_nonneg (mul_nonneg (by linarith) (by assumption)) (mul_nonneg h0 (by assumption))

theorem Spec.InTriangle.vertex0 (a b c : V3 ℝ) : InTriangle a b c a :=
  ⟨1, 0, 0, by norm_num, by norm_num, by norm_num, by norm_num, by ext <;> simp⟩

theorem Spec.InTriangle.vertex1 (a b c : V3 ℝ) : InTriangle a b c b :=
  ⟨0, 1, 0, by norm_num, by norm_num, by norm_num, by norm_num, by ext <;> simp⟩

theorem Spec.InTriangle.vertex2 (a b c : V3 ℝ) : InTriangle a b c c :=
  ⟨0, 0, 1, by norm_num, by norm_num, by norm_num, by norm_num, by ext <;> simp⟩

/-- The section of a triangle by a disk is inside the triangle, when no two vertices on the same side of the
plane of the disk are almost on it. -/
theorem Inter.triangleDisk_inside (T : Triangle ℝ) (d : Disk ℝ) (hd : Unit3 d.plane.normal) (hr : 0 ≤ d.radius)
    (tol : ℝ) (ht : 0 < tol)
    (hclear : ∀ u ∈ [T.v0, T.v1, T.v2], ∀ v ∈ [T.v0, T.v1, T.v2],
      0 < dot3 (minus u d.plane.origin) d.plane.normal * dot3 (minus v d.plane.origin) d.plane.normal →
      tol * |dot3 (minus u d.plane.origin) d.plane.normal - dot3 (minus v d.plane.origin) d.plane.normal| <
        |dot3 (minus u d.plane.origin) d.plane.normal|)
    (s : Segment ℝ) (hs : Inter.triangleDisk T d tol = .ok (some s)) :
    InTriangle T.v0 T.v1 T.v2 s.v0 ∧ InTriangle T.v0 T.v1 T.v2 s.v1 := by
  unfold Inter.triangleDisk Inter.planeTriangle at hs
  cases hl : Inter.planePlane d.layingPlane T.layingPlane tol with
  | none => simp [hl] at hs
  | some l =>
    simp only [hl] at hs
    obtain ⟨hN, hdir, hrel, hx⟩ := Inter.cut_line hd ht hl
    obtain ⟨v0, v1, v2⟩ := onPlane_centroid T
    set g : V3 ℝ → ℝ := fun v => dot3 (minus v d.plane.origin) d.plane.normal with hg
    have hit : ∀ a ∈ [T.v0, T.v1, T.v2], ∀ b ∈ [T.v0, T.v1, T.v2], OnPlane T.layingPlane a → OnPlane T.layingPlane b →
        InTriangle T.v0 T.v1 T.v2 a → InTriangle T.v0 T.v1 T.v2 b →
        ∀ p, Inter.lineSegment l ⟨a, b⟩ tol = some p → InTriangle T.v0 T.v1 T.v2 p := by
      intro a ha b hb pa pb ia ib p hp
      have hab : dot3 (minus b a) T.layingPlane.normal = 0 := by
        have := hrel _ pa; have := hrel _ pb
        simp only [dot3, minus] at *; linarith
      obtain ⟨hol, t, t0, t1, rfl⟩ := Inter.lineSegment_spec l ⟨a, b⟩ tol ht (triple_zero hN (hrel _ pa) hdir hab) p hp
      dsimp only at hol hp ⊢
      have hgp : g a + t * (g b - g a) = 0 := by
        have : OnPlane d.layingPlane (along a t (minus b a)) := ((hx _).1 hol).1
        simp only [OnPlane, Disk.layingPlane, dot3, minus, along, g] at this ⊢
        linear_combination this
      have hle : g a * g b ≤ 0 := by
        by_contra hc
        push Not at hc
        exact no_crossing hc (hclear a ha b hb hc) (hclear b hb a ha (by rw [mul_comm]; exact hc)) t0 t1 hgp
      have hne : g a ≠ 0 ∨ g b ≠ 0 := by
        by_contra hc
        push Not at hc
        have := Inter.lineSegment_onLine (s := ⟨a, b⟩) ht ((hx a).2 ⟨hc.1, pa⟩) ((hx b).2 ⟨hc.2, pb⟩)
        rw [this] at hp; cases hp
      obtain ⟨u0, u1⟩ := crossing_unit hle hne hgp
      exact ia.convex ib u0 u1
    have i0 := InTriangle.vertex0 T.v0 T.v1 T.v2
    have i1 := InTriangle.vertex1 T.v0 T.v1 T.v2
    have i2 := InTriangle.vertex2 T.v0 T.v1 T.v2
    have k0 : ∀ p, Inter.lineSegment l T.edge0 tol = some p → InTriangle T.v0 T.v1 T.v2 p :=
      hit T.v0 (by simp) T.v1 (by simp) v0 v1 i0 i1
    have k1 : ∀ p, Inter.lineSegment l T.edge1 tol = some p → InTriangle T.v0 T.v1 T.v2 p :=
      hit T.v1 (by simp) T.v2 (by simp) v1 v2 i1 i2
    have k2 : ∀ p, Inter.lineSegment l T.edge2 tol = some p → InTriangle T.v0 T.v1 T.v2 p :=
      hit T.v2 (by simp) T.v0 (by simp) v2 v0 i2 i0
    have hseg : ∀ r, Inter.lineTriangleSeg l T tol = .ok (some r) →
        InTriangle T.v0 T.v1 T.v2 r.v0 ∧ InTriangle T.v0 T.v1 T.v2 r.v1 := by
      intro r hs
      unfold Inter.lineTriangleSeg at hs
      split at hs
      · rename_i p0 p1 e0 e1 _
        cases hs
        exact ⟨k0 _ e0, k1 _ e1⟩
      · rename_i p1 p2 _ e1 e2
        cases hs
        exact ⟨k1 _ e1, k2 _ e2⟩
      · rename_i p0 p2 e0 _ e2
        cases hs
        exact ⟨k2 _ e2, k0 _ e0⟩
      · rename_i p0 p1 p2 e0 e1 e2
        split at hs
        · cases hs; exact ⟨k1 _ e1, k2 _ e2⟩
        · split at hs
          · cases hs; exact ⟨k0 _ e0, k1 _ e1⟩
          · split at hs
            · cases hs; exact ⟨k0 _ e0, k1 _ e1⟩
            · cases hs
      · cases hs
    obtain ⟨o, ho, hs⟩ := Res.bind_eq_ok.1 hs
    cases o with
    | none => cases hs
    | some r =>
      obtain ⟨ir0, ir1⟩ := hseg r ho
      have hs : Inter.segmentDisk r d tol = some s := Res.ok.inj hs
      obtain ⟨⟨t, t0, t1, e0⟩, ⟨u, u0, u1, e1⟩, -⟩ := Inter.segmentDisk_spec r d tol ht hr s hs
      rw [e0, e1]
      exact ⟨ir0.convex ir1 t0 t1, ir0.convex ir1 u0 u1⟩

/-! ## C61 -/

theorem Spec.BuiltMesh.constructed {m : Mesh ℝ} (hm : BuiltMesh m) : ∀ t ∈ m.triangles, t.Constructed := by
  rcases hm with ⟨np, hm⟩ | ⟨ts, h1, h2, h3, rfl⟩
  · exact hm.consistent.1.constructed
  · exact h2

/-- Triangles without a section can be left out of the loop. -/
theorem Rib.geomLoop_filter {r : Rib ℝ} {pose : Affine ℝ} (keep : TriangleGround ℝ → Bool)
    (ts : List (TriangleGround ℝ))
    (h : ∀ t ∈ ts, keep t = false → Inter.triangleDisk t.tri (r.diskGrd pose) Scalar.eps = .ok none) (acc : Rib.Acc ℝ) :
    r.geomLoop pose (ts.filter keep) acc = r.geomLoop pose ts acc := by
  induction ts generalizing acc with
  | nil => rfl
  | cons t ts ih =>
    have ih := ih fun t' ht' => h t' (List.mem_cons_of_mem _ ht')
    cases hk : keep t with
    | false =>
      rw [List.filter_cons_of_neg (by simp [hk]), ih, Rib.geomLoop, h t (by simp) hk, Res.bind_ok]
    | true =>
      rw [List.filter_cons_of_pos hk, Rib.geomLoop, Rib.geomLoop]
      congr 1
      funext o
      cases o with
      | none => exact ih acc
      | some seg =>
        dsimp only
        cases r.contrib pose t seg with
        | none => rfl
        | some c => exact ih _

/-- A point of the disk of a rib in the ground frame. -/
theorem Rib.inDisk_onRibDisk {r : Rib ℝ} (hr : IsRib r) {pose : Affine ℝ} (hp : IsRigid pose) {p : V3 ℝ}
    (h : InDisk (r.diskGrd pose) p) : OnRibDisk pose r p := by
  have hR : IsRotation pose.linear := hp
  obtain ⟨h1, h2⟩ := h
  have hside : dot3 (minus p (ribCentre pose r)) pose.linear.c1 = 0 := by
    have := Rib.side_eq hr pose p
    unfold side at this
    rw [← this]
    exact h1
  have ho : (r.diskGrd pose).plane.origin = ribCentre pose r := Rib.centerGrd_eq r pose
  rw [ho] at h2
  have hexp := hR.expand (minus p (ribCentre pose r))
  rw [hside] at hexp
  generalize dot3 (minus p (ribCentre pose r)) pose.linear.c0 = a at hexp
  generalize dot3 (minus p (ribCentre pose r)) pose.linear.c2 = c at hexp
  refine ⟨a, c, ?_, ?_⟩
  · have hd := hR.dot_mulVec ⟨a, 0, c⟩ ⟨a, 0, c⟩
    rw [← hexp] at hd
    have h3 : dist3 p (ribCentre pose r) ^ 2 ≤ r.radius ^ 2 :=
      pow_le_pow_left₀ (dist3_nonneg _ _) h2 2
    rw [dist3_sq] at h3
    simp only [dot3, minus] at hd
    linarith
  · have e : p = V3.add (minus p (ribCentre pose r)) (ribCentre pose r) := by
      rw [V3.real_add]; simp [minus]
    rw [e, hexp]
    unfold ribCentre
    v3
    congr 1 <;> ring

/-- **C61 (partial).**  Restricting a rib to the triangles found by the spatial search changes nothing: after
setup with the geometric method every rib reports the record that the evaluation of the whole mesh would
give, and setup returns whether one of these evaluations finds contact.  This holds for ribs whose disk is inside
the bounding box of the shell, and for meshes none of whose triangles nearly touches the plane of a rib or is cut
by a rib in a segment shorter than `eps`. -/
theorem C61_search_geometric_partial (pol : Policy) (s s' : Shell ℝ) (hs : s.Reachable pol) (hx : 0 ≤ s.shape.rx)
    (m : Mesh ℝ) (hm : BuiltMesh m) (pose : Affine ℝ) (hp : IsRigid pose)
    (hbox : ∀ r ∈ s.ribs, r.radius ^ 2 + r.center.y ^ 2 ≤ s.shape.rx ^ 2)
    (hclear : ∀ t ∈ m.triangles, ∀ r ∈ s.ribs, ClearOfRib pose r t.tri)
    (hlen : ∀ t ∈ m.triangles, ∀ r ∈ s.ribs, ∀ seg,
      Inter.triangleDisk t.tri (r.diskGrd pose) Scalar.eps = .ok (some seg) → Scalar.eps ≤ dist3 seg.v0 seg.v1)
    (b : Bool) (h : s.setupMesh pol m pose "geometric" = .ok s' b) :
    (∀ i r, s'.ribs[i]? = some r → ∃ flag o, r.envelopGeometricMesh m.triangles pose = .ok (flag, o) ∧
      s'.out.read pol i = .ok o) ∧
    (b = true ↔ ∃ r ∈ s'.ribs, ∃ o, r.envelopGeometricMesh m.triangles pose = .ok (true, o)) := by
  have hribs : s'.ribs = s.ribs := (Shell.setupMesh_rel (.inl ⟨b, h⟩)).ribs
  obtain ⟨loc, hloc, hperm⟩ := hm.query _ (Shell.updateBBox_WF (s.transform pose))
  obtain ⟨flags, recs, h1, h2⟩ := C38_mesh_flag pol s s' hs m pose "geometric" loc b hloc h
  have hfollow := Shell.updateBBox_follows (s.transform pose) hx
  -- the evaluation of a rib
  have heval : ∀ r ∈ s.ribs, (if loc = [] then .ok (false, r.noContact pose) else
      r.envelopMesh (Shell.ribCandidates pose "geometric" loc r) pose "geometric") =
        r.envelopGeometricMesh m.triangles pose := by
    intro r hr
    have hrib := hs.isRib r hr
    have hu : Unit3 (r.diskGrd pose).plane.normal := by
      have : (r.diskGrd pose).plane.normal = pose.linear.c1 := by
        show M3.mulVec pose.linear r.disk.plane.normal = _
        rw [hrib.normal, M3.mulVec_e1]
      rw [this]; exact hp.unit1
    have hpos := real_eps_pos
    -- a triangle with a section is a candidate
    have hkeep : ∀ t ∈ m.triangles, ∀ seg, Inter.triangleDisk t.tri (r.diskGrd pose) Scalar.eps = .ok (some seg) →
        t.bbox.intersects (s.transform pose).updateBBox.bbox = true ∧ MeetsRibPlane pose r.center.y t.tri := by
      intro t ht seg hseg
      have hcl : ∀ u ∈ [t.tri.v0, t.tri.v1, t.tri.v2], ∀ v ∈ [t.tri.v0, t.tri.v1, t.tri.v2],
          0 < dot3 (minus u (r.diskGrd pose).plane.origin) (r.diskGrd pose).plane.normal *
            dot3 (minus v (r.diskGrd pose).plane.origin) (r.diskGrd pose).plane.normal →
          Scalar.eps * |dot3 (minus u (r.diskGrd pose).plane.origin) (r.diskGrd pose).plane.normal -
            dot3 (minus v (r.diskGrd pose).plane.origin) (r.diskGrd pose).plane.normal| <
            |dot3 (minus u (r.diskGrd pose).plane.origin) (r.diskGrd pose).plane.normal| := by
        intro u hu' v hv huv
        simp only [Rib.side_eq hrib] at huv ⊢
        exact hclear t ht r hr u hu' v hv huv
      obtain ⟨hi0, -⟩ := Inter.triangleDisk_inside t.tri (r.diskGrd pose) hu hrib.radius_pos.le _ hpos hcl seg hseg
      obtain ⟨-, hpl, -, hdisk⟩ := C53_triangle_disk t.tri (r.diskGrd pose) hu hrib.radius_pos.le _ hpos seg hseg
      have hne : seg.v0 ≠ seg.v1 := by
        intro e
        have := hlen t ht r hr seg hseg
        rw [e] at this
        simp [dist3] at this
        linarith
      have hon := Rib.inDisk_onRibDisk hrib hp (hdisk hne).1
      have hcy : r.center = ⟨0, r.center.y, 0⟩ := by
        have : r.center = ⟨0, r.y, 0⟩ := hrib.center
        rw [this]
      have hin : InBox (s.transform pose).updateBBox.bbox.min (s.transform pose).updateBBox.bbox.max seg.v0 := by
        obtain ⟨x, z, h1, e⟩ := hon
        have hb := hbox r hr
        rw [hcy] at e
        obtain ⟨a, b, c⟩ := hp.abs_comp_le ⟨x, r.center.y, z⟩ hx (by dsimp only; linarith)
        rw [abs_le] at a b c
        rw [hfollow.1, hfollow.2, e]
        simp only [InBox, Affine.apply, V3.real_add, zero_add]
        refine ⟨⟨?_, ?_⟩, ⟨?_, ?_⟩, ?_, ?_⟩ <;>
          simp only [Shell.transform, Shell.updateBBox] <;> linarith [a.1, a.2, b.1, b.2, c.1, c.2]
      obtain ⟨id, f, w0, w1, w2, hmk⟩ := hm.constructed t ht
      have h27 := C27_triangle_box id f w0 w1 w2 t hmk
      have hint : InBox t.bbox.min t.bbox.max seg.v0 := h27.2.2.2.1 _ (by rw [h27.2.2.1] at hi0; exact hi0)
      refine ⟨(C14_intersects_iff_common_point _ _
        ⟨hint.1.1.trans hint.1.2, hint.2.1.1.trans hint.2.1.2, hint.2.2.1.trans hint.2.2.2⟩
        ⟨hin.1.1.trans hin.1.2, hin.2.1.1.trans hin.2.1.2, hin.2.2.1.trans hin.2.2.2⟩).2 ⟨_, hint, hin⟩, seg.v0, hi0, ?_⟩
      have h0 : side pose r seg.v0 = 0 := by
        rw [← Rib.side_eq hrib pose]; exact hpl.1
      unfold side ribCentre at h0
      rw [hcy] at h0
      simp only [Affine.apply, dot3, minus] at h0 ⊢
      have hu1 : pose.linear.c1.x ^ 2 + pose.linear.c1.y ^ 2 + pose.linear.c1.z ^ 2 = 1 := hp.unit1
      revert h0
      v3
      intro h0
      linear_combination h0 + r.center.y * hu1
    -- so the loop over the candidates is the loop over the mesh
    have hloop : r.geomLoop pose (Shell.ribCandidates pose "geometric" loc r) Rib.Acc.init =
        r.geomLoop pose m.triangles Rib.Acc.init := by
      unfold Shell.ribCandidates
      set cand := Shell.isCandidate (Plane.normalize ⟨pose.trans, pose.linear.c1⟩) (Shell.refines "geometric" loc)
        r.center.y with hcand
      have hp1 : (loc.filter cand).Perm (m.triangles.filter fun t =>
          cand t && t.bbox.intersects (s.transform pose).updateBBox.bbox) := by
        rw [← List.filter_filter]
        exact hperm.filter _
      rw [Rib.geomLoop_perm hp1, Rib.geomLoop_filter]
      · intro t ht hk
        obtain ⟨o, ho⟩ := Inter.triangleDisk_ok t.tri (r.diskGrd pose) hu Scalar.eps hpos (by
          intro u hu' v hv huv
          simp only [Rib.side_eq hrib] at huv ⊢
          exact hclear t ht r hr u hu' v hv huv)
        cases o with
        | none => exact ho
        | some seg =>
          exfalso
          obtain ⟨k1, k2⟩ := hkeep t ht seg ho
          rw [k1, Bool.and_true] at hk
          have : cand t = true := by
            rw [hcand]
            cases Shell.refines "geometric" loc with
            | false => rfl
            | true => exact (Shell.isCandidate_iff hp _ t).2 k2
          rw [this] at hk
          cases hk
      · intro t ht seg hseg hc
        have ht : t ∈ m.triangles := (List.mem_filter.1 (hp1.mem_iff.1 ht)).1
        have := hlen t ht r hr seg hseg
        unfold Rib.contrib at hc
        dsimp only at hc
        rw [if_neg] at hc
        · cases hc
        · rw [Segment.length, V3.norm_sub]
          simp only [real_lt, Bool.and_eq_true, decide_eq_true_eq, not_and]
          intro _
          linarith
    unfold Rib.envelopGeometricMesh
    rw [← hloop]
    split
    · rename_i hnil
      rw [hnil]
      rfl
    · simp only [Rib.envelopMesh, if_true, Rib.envelopGeometricMesh]
  have hlen' : s'.ribs.length = s.size := by rw [hribs]; rfl
  constructor
  · intro i r hi
    have hi' : i < s.size := by rw [← hlen']; exact (List.getElem?_eq_some_iff.1 hi).1
    obtain ⟨r', e1, e2, e3⟩ := h1 i hi'
    rw [hi] at e1
    cases e1
    refine ⟨flags i, recs i, ?_, e3⟩
    rw [← heval r (by rw [← hribs]; exact List.mem_of_getElem? hi)]
    exact e2
  · rw [h2]
    constructor
    · rintro ⟨i, hi, hf⟩
      obtain ⟨r, e1, e2, -⟩ := h1 i hi
      refine ⟨r, List.mem_of_getElem? e1, recs i, ?_⟩
      rw [← heval r (by rw [← hribs]; exact List.mem_of_getElem? e1), ← hf]
      exact e2
    · rintro ⟨r, hr, o, ho⟩
      obtain ⟨i, hi, e⟩ := List.getElem_of_mem hr
      have hi' : i < s.size := by rw [← hlen']; exact hi
      obtain ⟨r', e1, e2, -⟩ := h1 i hi'
      rw [List.getElem?_eq_getElem hi, e] at e1
      cases e1
      have e2 : (if loc = [] then Res.ok (false, r.noContact pose) else
        r.envelopMesh (Shell.ribCandidates pose "geometric" loc r) pose "geometric") = .ok (flags i, recs i) := e2
      rw [heval r (by rw [← hribs]; exact hr), ho] at e2
      refine ⟨i, hi', ?_⟩
      have := (Prod.mk.inj (Res.ok.inj e2)).1
      rw [← this]

theorem Demo.field_clear {r : Rib ℝ} (hc : r.center = ⟨0, 0, 0⟩) (h : ℝ) :
    ClearOfRib (Demo.upright h) r Demo.field.tri := by
  have hside : ∀ p : V3 ℝ, side (Demo.upright h) r p = p.y := by
    intro p
    simp only [side, dot3, minus, ribCentre, hc, Demo.upright]
    v3
    ring
  have hpos := real_eps_pos
  have heps := real_eps_le_half
  intro u hu v hv huv
  rw [hside, hside] at huv ⊢
  have hf : Demo.field.tri = ⟨⟨0, 10, 0⟩, ⟨-30, -10, 0⟩, ⟨30, -10, 0⟩⟩ := rfl
  simp only [hf, List.mem_cons, List.not_mem_nil, or_false] at hu hv
  rcases hu with rfl | rfl | rfl <;> rcases hv with rfl | rfl | rfl <;> first | (norm_num at huv; done) | norm_num

theorem Rib.disk_ribOf {r : Rib ℝ} (hr : IsRib r) (hc : r.center = ⟨0, 0, 0⟩) (hR : r.radius = 1) (w : ℝ) :
    r.disk = (Demo.ribOf w).disk := by
    have h1 : r.disk.plane.origin = ⟨0, 0, 0⟩ := hc
    have h2 := hr.normal
    have h3 : r.disk.radius = 1 := hR
    rcases hd : r.disk with ⟨ra, o, n⟩
    rw [hd] at h1 h2 h3
    dsimp only at h1 h2 h3
    subst h1 h2 h3
    simp [Demo.ribOf, Rib.make, V3.ey]

/-- Only the disk and the width of a rib matter for the evaluation. -/
theorem Rib.contrib_congr {r q : Rib ℝ} (hd : r.disk = q.disk) (hw : r.width = q.width) (pose : Affine ℝ)
    (t : TriangleGround ℝ) (seg : Segment ℝ) : r.contrib pose t seg = q.contrib pose t seg := by
  unfold Rib.contrib Rib.radius Rib.centerGrd Rib.normalGrd Rib.center
  rw [hd, hw]

theorem Rib.diskGrd_congr {r q : Rib ℝ} (hd : r.disk = q.disk) (pose : Affine ℝ) : r.diskGrd pose = q.diskGrd pose := by
  unfold Rib.diskGrd Rib.radius Rib.centerGrd Rib.normalGrd Rib.center
  rw [hd]

theorem Rib.geomLoop_congr {r q : Rib ℝ} (hd : r.disk = q.disk) (hw : r.width = q.width) (pose : Affine ℝ)
    (ts : List (TriangleGround ℝ)) (acc : Rib.Acc ℝ) : r.geomLoop pose ts acc = q.geomLoop pose ts acc := by
  induction ts generalizing acc with
  | nil => rfl
  | cons t ts ih =>
    simp only [Rib.geomLoop, Rib.diskGrd_congr hd, Rib.contrib_congr hd hw, ih]

theorem Rib.envelopGeometricMesh_congr {r q : Rib ℝ} (hd : r.disk = q.disk) (hw : r.width = q.width) (pose : Affine ℝ)
    (ts : List (TriangleGround ℝ)) : r.envelopGeometricMesh ts pose = q.envelopGeometricMesh ts pose := by
  simp only [Rib.envelopGeometricMesh, Rib.geomLoop_congr hd hw]
  congr 1
  funext acc
  unfold Rib.geomFinish Rib.noContact Rib.radius Rib.centerGrd Rib.center
  rw [hd]

/-- A rib of width at least 1 half a radius above the field is in contact. -/
theorem Demo.field_contact {w : ℝ} (hw : 1 ≤ w) :
    ∃ om, (Demo.ribOf w).envelopGeometricMesh [Demo.field] (Demo.upright (1 / 2)) = .ok (true, om) := by
  obtain ⟨o, ho, hA, -⟩ := Demo.ribOf_flat (w := w) (by linarith)
  have heps := real_eps_le_half
  obtain ⟨hs, -, -⟩ := Demo.sqrt34
  rcases C59_flat_mesh_partial (Demo.ribOf_isRib (by linarith)) (Demo.upright_rigid (1 / 2)) Demo.road_make rfl
    Demo.field_make (by simp [OnPlane, dot3, minus, Demo.road]) (by simp [OnPlane, dot3, minus, Demo.road])
    (by simp [OnPlane, dot3, minus, Demo.road]) (by rw [V3.real_cross]; norm_num [minus])
    (.inl (Demo.field_separates w (1 / 2))) (Demo.field_contains w) (Demo.field_long w (1 / 2)) o ho with
    ⟨-, om, h1, -⟩ | ⟨⟨h1, -⟩, -⟩
  · exact ⟨om, h1⟩
  · rw [hA] at h1; nlinarith

/-- The hypotheses of `C61_search_geometric_partial` are met by a shell in contact with a triangle. -/
theorem Demo.oneRib_on_field (fresh : Nat → Output ℝ) : ∃ (s s' : Shell ℝ) (r : Rib ℝ) (o : Output ℝ),
    s.Reachable .raw ∧ s.shape = ⟨1, 2, 2, 2, 1⟩ ∧ s.size = 1 ∧
    s.setupMesh .raw (Mesh.ofTriangles [Demo.field]) (Demo.upright (1 / 2)) "geometric" = .ok s' true ∧
    s'.ribs = [r] ∧ r.envelopGeometricMesh [Demo.field] (Demo.upright (1 / 2)) = .ok (true, o) ∧
    s'.out.read .raw 0 = .ok o := by
  obtain ⟨s, a, h1, hshape, hab, ha, hac, haR, haw⟩ := Demo.oneRib fresh
  have hreach : s.Reachable .raw := .make h1
  have hsz : s.size = 1 := by simp [Shell.size, hab]
  have hpos := real_eps_pos
  have htri : (Mesh.ofTriangles [Demo.field]).triangles = [Demo.field] := rfl
  have hclear : ∀ t ∈ (Mesh.ofTriangles [Demo.field]).triangles, ∀ r ∈ s.ribs, ClearOfRib (Demo.upright (1 / 2)) r t.tri := by
    intro t ht r hr
    rw [htri, List.mem_singleton] at ht
    rw [hab, List.mem_singleton] at hr
    subst hr ht
    exact Demo.field_clear hac _
  obtain ⟨s', b, h⟩ := C37_setup_partial s hreach (by omega) _ Demo.field_built _ (Demo.upright_rigid (1 / 2))
    (fun t ht _ => hclear t ht)
  have hcut : Inter.triangleDisk Demo.field.tri (a.diskGrd (Demo.upright (1 / 2))) Scalar.eps =
      .ok (some ⟨⟨Real.sqrt (3 / 4), 0, 0⟩, ⟨-Real.sqrt (3 / 4), 0, 0⟩⟩) := by
    rw [Rib.diskGrd_congr (Rib.disk_ribOf ha hac haR 1)]; exact Demo.field_cut
  obtain ⟨k1, k2⟩ := C61_search_geometric_partial .raw s s' hreach (by rw [hshape]; norm_num) _ Demo.field_built _
    (Demo.upright_rigid (1 / 2)) (by
      intro r hr
      rw [hab, List.mem_singleton] at hr
      rw [hr, hac, haR, hshape]; norm_num) hclear (by
      intro t ht r hr seg hseg
      rw [htri, List.mem_singleton] at ht
      rw [hab, List.mem_singleton] at hr
      subst hr ht
      rw [hcut] at hseg
      cases hseg
      obtain ⟨q1, -, -⟩ := Demo.sqrt34
      have heps := real_eps_le_half
      unfold dist3
      dsimp only
      rw [show (Real.sqrt (3 / 4) - -Real.sqrt (3 / 4)) ^ 2 + (0 - 0) ^ 2 + (0 - 0) ^ 2 = (2 * Real.sqrt (3 / 4)) ^ 2 by ring,
        Real.sqrt_sq (by linarith)]
      linarith) b h
  have hribs : s'.ribs = [a] := by rw [(Shell.setupMesh_rel (.inl ⟨b, h⟩)).ribs]; exact hab
  obtain ⟨flag, o, e1, e2⟩ := k1 0 a (by rw [hribs]; rfl)
  have heq := Rib.envelopGeometricMesh_congr (Rib.disk_ribOf ha hac haR 2) haw (Demo.upright (1 / 2)) [Demo.field]
  obtain ⟨om, hom⟩ := Demo.field_contact (w := 2) (by norm_num)
  have hflag : flag = true ∧ o = om := by
    rw [htri, heq, hom] at e1
    have := Prod.mk.inj (Res.ok.inj e1)
    exact ⟨this.1.symm, this.2.symm⟩
  have hb : b = true := k2.2 ⟨a, by rw [hribs]; simp, o, by rw [← hflag.1]; exact e1⟩
  subst hb
  exact ⟨s, s', a, o, hreach, hshape, hsz, h, hribs, by rw [← hflag.1]; exact e1, e2⟩

/-! ### Ribs outside the bounding box -/

/-- A triangle of the road plane under a rib at `y = 6`. -/
noncomputable def Demo.strip : TriangleGround ℝ :=
  TriangleGround.updateBBox (TriangleGround.updateNormal
    ⟨⟨⟨0, 7, 0⟩, ⟨-3, 5, 0⟩, ⟨3, 5, 0⟩⟩, 0, 1, V3.nan, Box.default⟩)

theorem Demo.strip_make : TriangleGround.make 0 (1 : ℝ) ⟨0, 7, 0⟩ ⟨-3, 5, 0⟩ ⟨3, 5, 0⟩ = .ok Demo.strip := by
  simp [TriangleGround.make, Demo.strip]

theorem Demo.strip_built : BuiltMesh (Mesh.ofTriangles [Demo.strip]) := by
  refine .inr ⟨_, by simp, ?_, ?_, rfl⟩
  · simp only [List.mem_singleton, forall_eq]; exact ⟨_, _, _, _, _, Demo.strip_make⟩
  · intro i t ht
    match i, ht with
    | 0, ht => simp at ht; subst ht; rfl
    | n + 1, ht => simp at ht

/-- A rib of radius 1 at `y = 6`, half a radius above the triangle, is in contact with it. -/
theorem Demo.strip_contact {r : Rib ℝ} (hr : IsRib r) (hc : r.center = ⟨0, 6, 0⟩) (hR : r.radius = 1)
    (hW : r.width = 6) :
    ∃ om, r.envelopGeometricMesh [Demo.strip] (Demo.upright (1 / 2)) = .ok (true, om) := by
  have heps := real_eps_le_half
  have hpos := real_eps_pos
  obtain ⟨hs, hs1, -⟩ := Demo.sqrt34
  have hS : sinSq Demo.road.plane.normal (Demo.upright (1 / 2)).linear.c1 = 1 := by
    simp [sinSq, dot3, Demo.road, Demo.upright]
  have hH : height Demo.road.plane (ribCentre (Demo.upright (1 / 2)) r) = 1 / 2 := by
    simp only [height, dot3, minus, ribCentre, hc, Demo.road, Demo.upright]
    v3
    ring
  have hside : ∀ p : V3 ℝ, side (Demo.upright (1 / 2)) r p = p.y - 6 := by
    intro p
    simp only [side, dot3, minus, ribCentre, hc, Demo.upright]
    v3
    ring
  have hcon : FlatContact Demo.road.plane (Demo.upright (1 / 2)) r := by
    unfold FlatContact
    dsimp only
    rw [hS, hH, hR, div_one, one_pow, mul_one, show (1 - (1 / 2) ^ 2 : ℝ) = 3 / 4 by norm_num]
    exact ⟨by linarith, by linarith, by linarith⟩
  have hsd : sectionDepth Demo.road.plane (Demo.upright (1 / 2)) r = 1 / 2 := by
    unfold sectionDepth
    rw [hS, hH, hR, Real.sqrt_one, div_one, abs_of_pos (by norm_num)]; norm_num
  obtain ⟨o, ho, hA⟩ : ∃ o : Output ℝ, r.envelopGeometricFlat Demo.road (Demo.upright (1 / 2)) = (true, o) ∧
      o.area = 2 * Real.sqrt (3 / 4) * 6 := by
    rcases Rib.geometricFlat_closed hr (Demo.upright_rigid (1 / 2)) (Flat.make_unit Demo.road_make) with
      ⟨-, e⟩ | ⟨e, -⟩
    · refine ⟨_, e, ?_⟩
      dsimp only
      rw [hsd, hR, hW]
      simp only [Rib.depthArea, real_mul, real_two, real_sqrt, real_sub]
      norm_num
    · exact absurd hcon e
  have hdist : ∀ x : ℝ, x ^ 2 = 9 → dist3 ⟨0, 7, 0⟩ ⟨x, 5, 0⟩ ≤ 4 := by
    intro x hx
    unfold dist3
    dsimp only
    rw [show (4 : ℝ) = Real.sqrt (4 ^ 2) by rw [Real.sqrt_sq (by norm_num)]]
    apply Real.sqrt_le_sqrt
    nlinarith
  rcases C59_flat_mesh_partial hr (Demo.upright_rigid (1 / 2)) Demo.road_make rfl
    Demo.strip_make (by simp [OnPlane, dot3, minus, Demo.road]) (by simp [OnPlane, dot3, minus, Demo.road])
    (by simp [OnPlane, dot3, minus, Demo.road]) (by rw [V3.real_cross]; norm_num [minus])
    (.inl (by
      constructor <;> simp only [hside] <;> norm_num
      · have := hdist (-3) (by norm_num)
        have := dist3_nonneg ⟨0, 7, 0⟩ ⟨-3, 5, 0⟩
        nlinarith
      · have := hdist 3 (by norm_num)
        have := dist3_nonneg ⟨0, 7, 0⟩ ⟨3, 5, 0⟩
        nlinarith)) (by
      rintro x ⟨h1, a, b, hab, rfl⟩
      have e : (Demo.upright (1 / 2)).apply ⟨r.center.x + a, r.center.y, r.center.z + b⟩ = ⟨a, 6, b + 1 / 2⟩ := by
        simp only [hc, Demo.upright]
        v3
        congr 1 <;> ring
      rw [e] at h1 ⊢
      have hb : b = -(1 / 2) := by
        simp only [OnPlane, dot3, minus, Demo.road] at h1
        linarith
      rw [hR] at hab
      have ha : -1 ≤ a ∧ a ≤ 1 := abs_le.1 (by rw [← sq_le_one_iff_abs_le_one]; nlinarith)
      refine ⟨1 / 2, 1 / 4 - a / 6, 1 / 4 + a / 6, by norm_num, by linarith [ha.2], by linarith [ha.1], by ring, ?_⟩
      subst hb
      ext <;> dsimp only <;> ring) (by
      refine ⟨⟨0, 6, 0⟩, ⟨1, 6, 0⟩, ⟨1 / 2, 1 / 4, 1 / 4, by norm_num, by norm_num, by norm_num, by norm_num, ?_⟩,
        ⟨1 / 2, 1 / 4 - 1 / 6, 1 / 4 + 1 / 6, by norm_num, by norm_num, by norm_num, by norm_num, ?_⟩, ?_, ?_, ?_⟩
      · ext <;> norm_num
      · ext <;> norm_num
      · rw [hside]; norm_num
      · rw [hside]; norm_num
      · unfold dist3; norm_num) o ho with ⟨-, om, h1, -⟩ | ⟨⟨h1, -⟩, -⟩
  · exact ⟨om, h1⟩
  · rw [hA] at h1; linarith

/-- **C61 is false** for a shell wider than high: its outer ribs are outside its bounding box, so that setup does not
see the triangle they roll on and reports no contact, although the evaluation of the rib on the mesh finds it. -/
theorem C61_outside_box_refuted (fresh : Nat → Output ℝ) :
    ∃ (s : Shell ℝ) (m : Mesh ℝ) (pose : Affine ℝ) (r : Rib ℝ) (o : Output ℝ), s.Reachable .raw ∧ s.shape.Valid ∧
      BuiltMesh m ∧ IsRigid pose ∧ r ∈ s.ribs ∧ r.envelopGeometricMesh m.triangles pose = .ok (true, o) ∧
      ∃ s', s.setupMesh .raw m pose "geometric" = .ok s' false := by
  have hv : ValidProfile (5 / 4 : ℝ) 2 10 2 9 :=
    ⟨by norm_num, by norm_num, by norm_num, by norm_num, by norm_num, by norm_num⟩
  obtain ⟨s, h1, h2, -, hshape, h5, -⟩ := C04_construct fresh 3 (by norm_num) (5 / 4) 2 10 2 9 hv
  have hreach : s.Reachable .raw := .make h1
  obtain ⟨r0, hr0, c0, w0, e0, p0⟩ := h5 2 (by norm_num)
  obtain ⟨a, hab⟩ : ∃ a, s.ribs[2]? = some a := by
    have : (2 : Nat) < s.ribs.length := by
      have hl : s.ribs.length = 3 := h2
      omega
    exact ⟨_, List.getElem?_eq_getElem this⟩
  have hmem : a ∈ s.ribs := List.mem_of_getElem? hab
  have ha : IsRib a := hreach.isRib a hmem
  simp only [Shell.ribCenter, Shell.ribRadius, Shell.ribWidth, Shell.ribAt, hab, Res.bind_ok,
    Res.pure_eq, Res.ok.injEq] at c0 e0 w0
  have hac : a.center = ⟨0, 6, 0⟩ := by rw [c0]; norm_num
  have haw : a.width = 6 := by rw [w0]; norm_num
  have haR : a.radius = 1 := by
    rw [e0]
    have := p0.2
    rw [Real.rpow_two, Real.rpow_two] at this
    norm_num at this
    nlinarith
  obtain ⟨om, hom⟩ := Demo.strip_contact ha hac haR haw
  obtain ⟨loc, hloc, hperm⟩ := Demo.strip_built.query _ (Shell.updateBBox_WF (s.transform (Demo.upright (1 / 2))))
  have hfollow := Shell.updateBBox_follows (s.transform (Demo.upright (1 / 2)))
    (show 0 ≤ s.shape.rx by rw [hshape]; norm_num)
  have hnil : loc = [] := by
    have htri : (Mesh.ofTriangles [Demo.strip]).triangles = [Demo.strip] := rfl
    have hfar : Demo.strip.bbox.intersects (s.transform (Demo.upright (1 / 2))).updateBBox.bbox = false := by
      have hmax : (s.transform (Demo.upright (1 / 2))).updateBBox.bbox.max.y = 5 / 4 := by
        rw [hfollow.2]
        simp [Shell.transform, Shell.updateBBox, Demo.upright, hshape]
      have hmin : Demo.strip.bbox.min.y = 5 := by
        simp [Demo.strip, TriangleGround.updateBBox, TriangleGround.updateNormal, Box.clamp]
        norm_num
      rw [Bool.eq_false_iff]
      intro hc
      rw [Box.intersects_iff] at hc
      simp only [V3.Le, real_le, decide_eq_true_eq] at hc
      obtain ⟨⟨-, h1, -⟩, -, h2, -⟩ := hc
      linarith
    rw [htri, List.filter_cons_of_neg (by rw [hfar]; simp), List.filter_nil] at hperm
    exact hperm.eq_nil
  subst hnil
  have hset := Shell.setupMesh_none (pol := .raw) (method := "geometric") hloc
  have hacc : ∀ j < s.ribs.length, s.out.accessible .raw (0 + j) = true := fun i hi => by
    rw [Shell.accessible_raw hreach.inv]
    have : s.ribs.length = 3 := h2
    exact decide_eq_true (by omega)
  obtain ⟨out', b', hl⟩ := Shell.ribLoop_total (comb := fun _ _ => false) (b := false)
    (f := fun _ r => .ok (false, r.noContact (Demo.upright (1 / 2)))) hacc (fun j r _ => ⟨_, rfl⟩)
  rw [hl] at hset
  obtain ⟨flags, recs, k1, k2⟩ := C38_mesh_flag .raw s _ hreach _ _ "geometric" [] b' hloc hset
  have hb : b' = false := by
    cases b' with
    | false => rfl
    | true =>
      obtain ⟨i, hi, hf⟩ := k2.1 rfl
      obtain ⟨r, -, e, -⟩ := k1 i hi
      have e : Res.ok (false, r.noContact (Demo.upright (1 / 2))) = Res.ok (flags i, recs i) := e
      have e := (Prod.mk.inj (Res.ok.inj e)).1
      rw [hf] at e
      cases e
  subst hb
  exact ⟨s, _, _, a, om, hreach, by unfold Shape.Valid; rw [hshape]; exact hv, Demo.strip_built,
    Demo.upright_rigid _, hmem, hom, _, hset⟩

/-! ## C62 -/

/-- The bounding box of the triangle has a point in common with the box. -/
def Spec.Near (q : Box ℝ) (t : TriangleGround ℝ) : Prop :=
  ∃ p, InBox t.bbox.min t.bbox.max p ∧ InBox q.min q.max p

open Classical in
/-- The two meshes have the same triangles near the box, possibly in a different order. -/
def Spec.SameNear (q : Box ℝ) (m m' : Mesh ℝ) : Prop :=
  (m.triangles.filter fun t => decide (Near q t)).Perm (m'.triangles.filter fun t => decide (Near q t))

/-- The bounding box used by a setup with this pose: the cube of half extent `Rx` around the shell origin. -/
noncomputable def Spec.reach (s : Shell ℝ) (pose : Affine ℝ) : Box ℝ :=
  { (Box.default : Box ℝ) with
    min := ⟨pose.trans.x - s.shape.rx, pose.trans.y - s.shape.rx, pose.trans.z - s.shape.rx⟩
    max := ⟨pose.trans.x + s.shape.rx, pose.trans.y + s.shape.rx, pose.trans.z + s.shape.rx⟩ }

open Classical in
theorem Spec.SameNear.loc {s : Shell ℝ} (hx : 0 ≤ s.shape.rx) {pose : Affine ℝ} {m m' : Mesh ℝ} (hm : BuiltMesh m)
    (hm' : BuiltMesh m') (h : SameNear (reach s pose) m m') :
    ∃ loc loc', m.intersection (s.transform pose).updateBBox.bbox = .ok loc ∧
      m'.intersection (s.transform pose).updateBBox.bbox = .ok loc' ∧ loc.Perm loc' ∧
      ∀ t ∈ loc, t ∈ m.triangles ∧ Near (reach s pose) t := by
  obtain ⟨loc, hloc, hperm⟩ := hm.query _ (Shell.updateBBox_WF (s.transform pose))
  obtain ⟨loc', hloc', hperm'⟩ := hm'.query _ (Shell.updateBBox_WF (s.transform pose))
  have hfollow := Shell.updateBBox_follows (s.transform pose) hx
  have key : ∀ {m : Mesh ℝ}, BuiltMesh m → (m.triangles.filter fun t =>
      t.bbox.intersects (s.transform pose).updateBBox.bbox) = m.triangles.filter fun t =>
        decide (Near (reach s pose) t) := by
    intro m hm
    refine List.filter_congr fun t ht => ?_
    rw [Bool.eq_iff_iff, decide_eq_true_iff]
    obtain ⟨id, f, w0, w1, w2, hmk⟩ := hm.constructed t ht
    have h27 := C27_triangle_box id f w0 w1 w2 t hmk
    have hint := h27.2.2.2.1 _ (InTriangle.vertex0 w0 w1 w2)
    rw [C14_intersects_iff_common_point _ _
      ⟨hint.1.1.trans hint.1.2, hint.2.1.1.trans hint.2.1.2, hint.2.2.1.trans hint.2.2.2⟩
      (Shell.updateBBox_WF (s.transform pose)), hfollow.1, hfollow.2]
    exact Iff.rfl
  rw [key hm] at hperm
  rw [key hm'] at hperm'
  refine ⟨loc, loc', hloc, hloc', ?_, fun t ht => ?_⟩
  swap
  · have := List.mem_filter.1 (hperm.mem_iff.1 ht)
    exact ⟨this.1, of_decide_eq_true this.2⟩
  exact hperm.trans (h.trans hperm'.symm)

/-- **C62, sampling method.**  Two meshes that have the same triangles near the shell give the same outcome of a setup
with the sampling method, whatever else they contain: the same flag and for each rib the same point, normal,
depth, area and volume. -/
theorem C62_sampling_local (pol : Policy) (s s1 s2 : Shell ℝ) (hs : s.Reachable pol) (hx : 0 ≤ s.shape.rx)
    (m m' : Mesh ℝ) (hm : BuiltMesh m) (hm' : BuiltMesh m') (pose : Affine ℝ)
    (hnear : SameNear (reach s pose) m m') (b1 b2 : Bool)
    (h1 : s.setupMesh pol m pose "sampling" = .ok s1 b1) (h2 : s.setupMesh pol m' pose "sampling" = .ok s2 b2) :
    b1 = b2 ∧ ∀ i < s.size, ∃ o1 o2, s1.out.read pol i = .ok o1 ∧ s2.out.read pol i = .ok o2 ∧
      o1.point = o2.point ∧ o1.normal = o2.normal ∧ o1.depth = o2.depth ∧ o1.area = o2.area ∧
      o1.volume = o2.volume := by
  obtain ⟨loc, loc', hl1, hl2, hperm, -⟩ := hnear.loc hx hm hm'
  obtain ⟨f1, r1, a1, c1⟩ := C38_mesh_flag pol s s1 hs m pose "sampling" loc b1 hl1 h1
  obtain ⟨f2, r2, a2, c2⟩ := C38_mesh_flag pol s s2 hs m' pose "sampling" loc' b2 hl2 h2
  have e1 := (Shell.setupMesh_rel (.inl ⟨b1, h1⟩)).ribs
  have e2 := (Shell.setupMesh_rel (.inl ⟨b2, h2⟩)).ribs
  have hcand : ∀ (l : List (TriangleGround ℝ)) (r : Rib ℝ), Shell.ribCandidates pose "sampling" l r = l := by
    intro l r
    unfold Shell.ribCandidates
    rw [List.filter_eq_self]
    intro t _
    simp [Shell.refines, Shell.isCandidate]
  have hsame : ∀ i < s.size, f1 i = f2 i ∧ (r1 i).point = (r2 i).point ∧ (r1 i).normal = (r2 i).normal ∧
      (r1 i).depth = (r2 i).depth ∧ (r1 i).area = (r2 i).area ∧ (r1 i).volume = (r2 i).volume := by
    intro i hi
    obtain ⟨r, g1, g2, -⟩ := a1 i hi
    obtain ⟨r', g1', g2', -⟩ := a2 i hi
    rw [e1] at g1
    rw [e2, ← e1, e1, g1] at g1'
    cases g1'
    have hen : ∀ l : List (TriangleGround ℝ), r.envelopMesh l pose "sampling" = .ok (r.envelopSamplingMesh l pose) := by
      intro l; simp [Rib.envelopMesh]
    have g2 : (if loc = [] then Res.ok (false, r.noContact pose) else
      r.envelopMesh (Shell.ribCandidates pose "sampling" loc r) pose "sampling") = .ok (f1 i, r1 i) := g2
    have g2' : (if loc' = [] then Res.ok (false, r.noContact pose) else
      r.envelopMesh (Shell.ribCandidates pose "sampling" loc' r) pose "sampling") = .ok (f2 i, r2 i) := g2'
    rw [hcand, hen] at g2 g2'
    by_cases hnil : loc = []
    · have hnil' : loc' = [] := by rw [hnil] at hperm; exact hperm.symm.eq_nil
      rw [if_pos hnil] at g2
      rw [if_pos hnil', g2] at g2'
      obtain ⟨k1, k2⟩ := Prod.mk.inj (Res.ok.inj g2')
      rw [k1, k2]; simp
    · have hnil' : loc' ≠ [] := by
        intro hc; rw [hc] at hperm; exact hnil hperm.eq_nil
      rw [if_neg hnil] at g2
      rw [if_neg hnil'] at g2'
      have := C29_order_independent r pose hperm
      dsimp only at this
      rw [Res.ok.inj g2, Res.ok.inj g2'] at this
      exact ⟨this.1, this.2.1, this.2.2.1, this.2.2.2.1, this.2.2.2.2.1, this.2.2.2.2.2.1⟩
  constructor
  · rw [Bool.eq_iff_iff, c1, c2]
    constructor
    · rintro ⟨i, hi, h⟩; exact ⟨i, hi, by rw [← (hsame i hi).1]; exact h⟩
    · rintro ⟨i, hi, h⟩; exact ⟨i, hi, by rw [(hsame i hi).1]; exact h⟩
  · intro i hi
    obtain ⟨_, _, _, g⟩ := a1 i hi
    obtain ⟨_, _, _, g'⟩ := a2 i hi
    exact ⟨_, _, g, g', (hsame i hi).2⟩

/-- **C62, geometric method (partial).**  The same holds for the geometric method, including the friction, when no
triangle near the shell is cut by a rib in a segment shorter than `eps`.  Missing: such triangles, for which the order
of the triangles matters (`C34_order_refuted`, `C62_far_triangle_refuted`). -/
theorem C62_geometric_local_partial (pol : Policy) (s s1 s2 : Shell ℝ) (hs : s.Reachable pol) (hx : 0 ≤ s.shape.rx)
    (m m' : Mesh ℝ) (hm : BuiltMesh m) (hm' : BuiltMesh m') (pose : Affine ℝ)
    (hnear : SameNear (reach s pose) m m')
    (hlen : ∀ t ∈ m.triangles, Near (reach s pose) t → ∀ r ∈ s.ribs, ∀ seg,
      Inter.triangleDisk t.tri (r.diskGrd pose) Scalar.eps = .ok (some seg) → Scalar.eps ≤ dist3 seg.v0 seg.v1)
    (b1 b2 : Bool)
    (h1 : s.setupMesh pol m pose "geometric" = .ok s1 b1) (h2 : s.setupMesh pol m' pose "geometric" = .ok s2 b2) :
    b1 = b2 ∧ ∀ i < s.size, ∃ o, s1.out.read pol i = .ok o ∧ s2.out.read pol i = .ok o := by
  obtain ⟨loc, loc', hl1, hl2, hperm, hmem⟩ := hnear.loc hx hm hm'
  obtain ⟨f1, r1, a1, c1⟩ := C38_mesh_flag pol s s1 hs m pose "geometric" loc b1 hl1 h1
  obtain ⟨f2, r2, a2, c2⟩ := C38_mesh_flag pol s s2 hs m' pose "geometric" loc' b2 hl2 h2
  have e1 := (Shell.setupMesh_rel (.inl ⟨b1, h1⟩)).ribs
  have e2 := (Shell.setupMesh_rel (.inl ⟨b2, h2⟩)).ribs
  have hsame : ∀ i < s.size, f1 i = f2 i ∧ r1 i = r2 i := by
    intro i hi
    obtain ⟨r, g1, g2, -⟩ := a1 i hi
    obtain ⟨r', g1', g2', -⟩ := a2 i hi
    rw [e1] at g1
    rw [e2, ← e1, e1, g1] at g1'
    cases g1'
    have g2 : (if loc = [] then Res.ok (false, r.noContact pose) else
      r.envelopMesh (Shell.ribCandidates pose "geometric" loc r) pose "geometric") = .ok (f1 i, r1 i) := g2
    have g2' : (if loc' = [] then Res.ok (false, r.noContact pose) else
      r.envelopMesh (Shell.ribCandidates pose "geometric" loc' r) pose "geometric") = .ok (f2 i, r2 i) := g2'
    have hr : r ∈ s.ribs := List.mem_of_getElem? g1
    have href : Shell.refines "geometric" loc = Shell.refines "geometric" loc' := by
      simp [Shell.refines, hperm.length_eq]
    have hcp : (Shell.ribCandidates pose "geometric" loc r).Perm (Shell.ribCandidates pose "geometric" loc' r) := by
      unfold Shell.ribCandidates
      rw [href]
      exact hperm.filter _
    have heval := C34_order_partial r pose _ _ hcp (by
      intro t ht seg hseg
      obtain ⟨q1, q2⟩ := hmem t (List.mem_filter.1 ht).1
      exact hlen t q1 q2 r hr seg hseg)
    have : (Res.ok (f1 i, r1 i) : Res (Bool × Output ℝ)) = .ok (f2 i, r2 i) := by
      rw [← g2, ← g2']
      by_cases hnil : loc = []
      · have hnil' : loc' = [] := by rw [hnil] at hperm; exact hperm.symm.eq_nil
        rw [if_pos hnil, if_pos hnil']
      · have hnil' : loc' ≠ [] := by
          intro hc; rw [hc] at hperm; exact hnil hperm.eq_nil
        rw [if_neg hnil, if_neg hnil']
        simp only [Rib.envelopMesh, if_true]
        exact heval
    exact Prod.mk.inj (Res.ok.inj this)
  constructor
  · rw [Bool.eq_iff_iff, c1, c2]
    constructor
    · rintro ⟨i, hi, h⟩; exact ⟨i, hi, by rw [← (hsame i hi).1]; exact h⟩
    · rintro ⟨i, hi, h⟩; exact ⟨i, hi, by rw [(hsame i hi).1]; exact h⟩
  · intro i hi
    obtain ⟨_, _, _, g⟩ := a1 i hi
    obtain ⟨_, _, _, g'⟩ := a2 i hi
    exact ⟨_, g, by rw [(hsame i hi).2]; exact g'⟩

open Classical in
/-- The hypothesis of C62 is met by a mesh with and without a distant triangle. -/
example (s : Shell ℝ) (hs : s.shape.rx = 5 / 4) : SameNear (reach s (Demo.upright (1 / 2)))
    (Mesh.ofTriangles [Demo.field, Demo.strip]) (Mesh.ofTriangles [Demo.field]) := by
  have hfar : ¬ Near (reach s (Demo.upright (1 / 2))) Demo.strip := by
    rintro ⟨p, hp, hq⟩
    have hmin : Demo.strip.bbox.min.y = 5 := by
      simp [Demo.strip, TriangleGround.updateBBox, TriangleGround.updateNormal, Box.clamp]
      norm_num
    have h1 := hp.2.1.1
    have h2 := hq.2.1.2
    rw [hmin] at h1
    simp only [reach, Demo.upright, hs] at h2
    linarith
  show (List.filter _ ([Demo.field] ++ [Demo.strip])).Perm (List.filter _ [Demo.field])
  rw [List.filter_append, List.filter_cons_of_neg (a := Demo.strip) (by rw [decide_eq_true_iff]; exact hfar),
    List.filter_nil, List.append_nil]

end Enve
