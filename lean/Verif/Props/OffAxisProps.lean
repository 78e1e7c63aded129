import Verif.Props.InsideProps

/-! # Contacts without volume: C36, C130

A contact on a mesh is divided by its volume.  The volume vanishes only if the plane of a triangle contains the centre of the rib. -/

namespace Enve
open Scalar Spec

/-- The sector of the disk behind a cut that is not radial has an area. -/
theorem Spec.section_pos {R a b x : ℝ} (hR : 0 < R) (ha : 0 ≤ a) (ha' : a ≤ R) (hb : 0 ≤ b) (hb' : b ≤ R) (hx : 0 < x) :
    0 < R * R * (x / 2) - a * b * Real.sin x / 2 := by
  have hRR : 0 < R * R := mul_pos hR hR
  rcases le_or_gt (Real.sin x) 0 with h | h
  · have : a * b * Real.sin x ≤ 0 := mul_nonpos_of_nonneg_of_nonpos (mul_nonneg ha hb) h
    have := mul_pos hRR hx
    linarith
  · have h1 : a * b ≤ R * R := mul_le_mul ha' hb' hb hR.le
    have h2 := mul_le_mul_of_nonneg_right h1 h.le
    have h3 := mul_lt_mul_of_pos_left (Real.sin_lt hx) hRR
    linarith

/-- A triangle that contributes no volume has a radial cut: the centre of the rib is on its plane. -/
theorem Rib.contrib_zero {r : Rib ℝ} (hr : IsRib r) (hw : 0 < r.width) {pose : Affine ℝ} (hp : IsRigid pose) {t : TriangleGround ℝ}
    {seg : Segment ℝ} (hseg : Inter.triangleDisk t.tri (r.diskGrd pose) Scalar.eps = .ok (some seg))
    {c : Rib.Contrib ℝ} (h : r.contrib pose t seg = some c) (hv : c.volume ≤ 0) :
    OnPlane t.tri.layingPlane (pose.apply ⟨0, r.y, 0⟩) := by
  have hR : IsRotation pose.linear := hp
  have hcen : r.centerGrd pose = pose.apply ⟨0, r.y, 0⟩ := by
    rw [Rib.centerGrd_eq]
    show pose.apply r.disk.plane.origin = _
    rw [hr.center]
  have hng : (r.diskGrd pose).plane.normal = pose.linear.c1 := Rib.normalGrd_eq hr pose
  have hog : (r.diskGrd pose).plane.origin = r.centerGrd pose := rfl
  obtain ⟨⟨hp0, hp1⟩, ⟨hd0, hd1⟩, -⟩ := C53_triangle_disk t.tri (r.diskGrd pose) (by rw [hng]; exact hp.unit1) hr.radius_pos.le Scalar.eps
    real_eps_pos seg hseg
  have hrad : 0 < r.radius := hr.radius_pos
  unfold Rib.contrib at h
  dsimp only at h
  rw [Option.ite_none_left_eq_some] at h
  obtain ⟨hbreak, h⟩ := h
  have h := Option.some.inj h
  subst h
  simp only [real_min, real_atan2, real_lt, real_div, real_mul, real_sub, real_two, real_sin] at hv hbreak
  set pa := M3.mulVec (M3.transpose pose.linear) (V3.sub seg.v0 (r.centerGrd pose)) with hpa
  set pb := M3.mulVec (M3.transpose pose.linear) (V3.sub seg.v1 (r.centerGrd pose)) with hpb
  have hna := V3.norm_nonneg pa
  have hnb := V3.norm_nonneg pb
  have harg : Complex.arg ⟨pa.x, pa.z⟩ = Complex.arg ⟨pb.x, pb.z⟩ := by
    by_contra hne
    refine absurd hv (not_le.2 ?_)
    refine mul_pos ?_ hw
    refine section_pos hrad (le_min hrad.le hna) (min_le_left _ _) (le_min hrad.le hnb) (min_le_left _ _) ?_
    split
    · rename_i hc; rw [decide_eq_true_eq] at hc; linarith
    · rename_i hc
      rw [decide_eq_true_eq] at hc
      have := lt_of_le_of_ne (not_lt.1 hc) hne
      linarith
  have hlen : 0 < seg.length := by
    by_contra hl
    apply hbreak
    rw [harg]
    have := real_eps_pos
    simp only [lt_irrefl, decide_false, Bool.false_eq_true, if_false, sub_self, this, decide_true, Bool.true_and, decide_eq_true_eq]
    linarith
  -- the two ends are on one ray from the centre
  have hya : pa.y = 0 := by
    rw [hpa]
    unfold OnPlane at hd0
    rw [hng, hog] at hd0
    simp only [dot3, minus] at hd0
    simp only [M3.mulVec, M3.transpose, V3.real_sub, real_add, real_mul]
    linarith
  have hyb : pb.y = 0 := by
    rw [hpb]
    unfold OnPlane at hd1
    rw [hng, hog] at hd1
    simp only [dot3, minus] at hd1
    simp only [M3.mulVec, M3.transpose, V3.real_sub, real_add, real_mul]
    linarith
  have ra := Complex.norm_mul_cos_arg ⟨pa.x, pa.z⟩
  have ra' := Complex.norm_mul_sin_arg ⟨pa.x, pa.z⟩
  have rb := Complex.norm_mul_cos_arg ⟨pb.x, pb.z⟩
  have rb' := Complex.norm_mul_sin_arg ⟨pb.x, pb.z⟩
  rw [harg] at ra ra'
  generalize Complex.arg ⟨pb.x, pb.z⟩ = θ at ra ra' rb rb'
  generalize ‖(⟨pa.x, pa.z⟩ : ℂ)‖ = A at ra ra'
  generalize ‖(⟨pb.x, pb.z⟩ : ℂ)‖ = B at rb rb'
  dsimp only at ra ra' rb rb'
  set u := M3.mulVec pose.linear ⟨Real.cos θ, 0, Real.sin θ⟩ with hu
  have ray : ∀ (v q : V3 ℝ) (K : ℝ), q = M3.mulVec (M3.transpose pose.linear) (V3.sub v (r.centerGrd pose)) → q.y = 0 →
      K * Real.cos θ = q.x → K * Real.sin θ = q.z →
      v.x = (r.centerGrd pose).x + K * u.x ∧ v.y = (r.centerGrd pose).y + K * u.y ∧ v.z = (r.centerGrd pose).z + K * u.z := by
    intro v q K hq h1 h2 h3
    have e := hR.mulVec_transpose (V3.sub v (r.centerGrd pose))
    rw [← hq] at e
    have ex := congrArg V3.x e
    have ey := congrArg V3.y e
    have ez := congrArg V3.z e
    simp only [M3.mulVec, V3.real_sub, real_add, real_mul, h1, ← h2, ← h3] at ex ey ez
    rw [hu]
    simp only [M3.mulVec, real_add, real_mul]
    refine ⟨by linarith, by linarith, by linarith⟩
  obtain ⟨a1, a2, a3⟩ := ray seg.v0 pa A hpa hya ra ra'
  obtain ⟨b1, b2, b3⟩ := ray seg.v1 pb B hpb hyb rb rb'
  have hAB : A - B ≠ 0 := by
    intro hAB
    have hAB : A = B := by linarith
    rw [hAB] at a1 a2 a3
    have : seg.v0 = seg.v1 := by ext <;> linarith
    rw [Segment.length, V3.norm_sub, this, dist3] at hlen
    simp at hlen
  rw [← hcen]
  unfold OnPlane at hp0 hp1 ⊢
  simp only [dot3, minus, a1, a2, a3, b1, b2, b3] at hp0 hp1 ⊢
  generalize t.tri.layingPlane.normal = n at *
  generalize t.tri.layingPlane.origin = o at *
  have hg : u.x * n.x + u.y * n.y + u.z * n.z = 0 := by
    refine (mul_eq_zero.1 ?_).resolve_left hAB
    linear_combination hp0 - hp1
  linear_combination hp0 - A * hg

/-- The contributions to a geometric contact on a mesh whose planes miss the centre of the rib. -/
theorem Rib.geomLoop_pos {r : Rib ℝ} (hr : IsRib r) (hw : 0 < r.width) {pose : Affine ℝ} (hp : IsRigid pose)
    {ts : List (TriangleGround ℝ)} (hoff : ∀ t ∈ ts, ¬ OnPlane t.tri.layingPlane (pose.apply ⟨0, r.y, 0⟩))
    {acc acc' : Rib.Acc ℝ} (h : r.geomLoop pose ts acc = .ok acc') :
    ∃ cs : List (Rib.Contrib ℝ), acc' = cs.foldl Rib.Acc.add acc ∧ ∀ c ∈ cs, 0 < c.volume := by
  induction ts generalizing acc with
  | nil => exact ⟨[], by simpa [Rib.geomLoop] using h.symm, by simp⟩
  | cons t ts ih =>
    have ih := fun {acc} => ih (acc := acc) fun u hu => hoff u (List.mem_cons_of_mem _ hu)
    rw [Rib.geomLoop, Res.bind_eq_ok] at h
    obtain ⟨o, ho, h⟩ := h
    cases o with
    | none => exact ih h
    | some seg =>
      dsimp only at h
      cases hc : r.contrib pose t seg with
      | none =>
        rw [hc] at h
        exact ⟨[], by simpa using (Res.ok.inj h).symm, by simp⟩
      | some c =>
        rw [hc] at h
        obtain ⟨cs, h1, h2⟩ := ih h
        refine ⟨c :: cs, by simpa using h1, fun d hd => ?_⟩
        rcases List.mem_cons.1 hd with rfl | hd
        · by_contra hv
          exact hoff t List.mem_cons_self (Rib.contrib_zero hr hw hp ho hc (not_lt.1 hv))
        · exact h2 d hd

/-- A rib without width never reports a contact. -/
theorem Rib.contact_width {r : Rib ℝ} (hr : IsRib r) {pose : Affine ℝ} {ts : List (TriangleGround ℝ)} {o : Output ℝ}
    (h : r.envelopGeometricMesh ts pose = .ok (true, o)) : 0 < r.width := by
  refine lt_of_le_of_ne hr.width_nonneg fun hw => ?_
  have key : ∀ {ts : List (TriangleGround ℝ)} {acc acc' : Rib.Acc ℝ}, r.geomLoop pose ts acc = .ok acc' →
      acc'.area = acc.area ∧ acc'.volume = acc.volume := by
    intro ts
    induction ts with
    | nil =>
      intro acc acc' h
      have h : acc = acc' := by simpa [Rib.geomLoop] using h
      rw [h]; exact ⟨rfl, rfl⟩
    | cons t ts ih =>
      intro acc acc' h
      rw [Rib.geomLoop, Res.bind_eq_ok] at h
      obtain ⟨q, -, h⟩ := h
      cases q with
      | none => exact ih h
      | some seg =>
        dsimp only at h
        cases hc : r.contrib pose t seg with
        | none =>
          rw [hc] at h
          have h : acc = acc' := by simpa using h
          rw [h]; exact ⟨rfl, rfl⟩
        | some c =>
          rw [hc] at h
          obtain ⟨h1, h2⟩ := ih h
          have hc0 : c.area = 0 ∧ c.volume = 0 := by
            unfold Rib.contrib at hc
            dsimp only at hc
            rw [Option.ite_none_left_eq_some] at hc
            have hc := Option.some.inj hc.2
            rw [← hc]
            simp only [real_mul, ← hw, mul_zero, and_self]
          rw [h1, h2]
          simp [Rib.Acc.add, hc0.1, hc0.2]
  unfold Rib.envelopGeometricMesh at h
  rw [Res.bind_eq_ok] at h
  obtain ⟨acc, hl, h⟩ := h
  have h := Res.ok.inj h
  obtain ⟨h1, h2⟩ := key hl
  unfold Rib.geomFinish at h
  split at h
  · rename_i hc
    have := real_eps_pos
    simp only [h1, h2, Rib.Acc.init, real_zero, real_lt, Bool.and_eq_true, Bool.or_eq_true, decide_eq_true_eq, or_self] at hc
    linarith [hc.2]
  · cases h

/-- **C36 (partial).**  If no plane of a triangle contains the centre of the rib, a contact that the geometric method reports has a volume: the
weighted averages are defined, and the friction is between the frictions of the triangles. -/
theorem C36_volume_pos_partial {r : Rib ℝ} (hr : IsRib r) {pose : Affine ℝ} (hp : IsRigid pose)
    {ts : List (TriangleGround ℝ)} (hoff : ∀ t ∈ ts, ¬ OnPlane t.tri.layingPlane (pose.apply ⟨0, r.y, 0⟩))
    {o : Output ℝ} (h : r.envelopGeometricMesh ts pose = .ok (true, o)) :
    0 < o.volume ∧ ∀ lo hi, (∀ t ∈ ts, lo ≤ t.friction ∧ t.friction ≤ hi) → lo ≤ o.friction ∧ o.friction ≤ hi := by
  have hw := Rib.contact_width hr h
  have hw36 := C36_weights_partial hr pose ts true o h
  have hpos : 0 < o.volume := by
    have h' := h
    unfold Rib.envelopGeometricMesh at h
    rw [Res.bind_eq_ok] at h
    obtain ⟨acc, hl, h⟩ := h
    have h := Res.ok.inj h
    obtain ⟨cs, h1, h2⟩ := Rib.geomLoop_pos hr hw hp hoff hl
    obtain ⟨-, f2, -, f4⟩ := Rib.foldl_add cs Rib.Acc.init
    rw [← h1] at f2 f4
    simp only [Rib.Acc.init, real_zero, zero_add, Bool.false_or] at f2 f4
    unfold Rib.geomFinish at h
    split at h
    · rename_i hc
      simp only [Bool.and_eq_true] at hc
      cases h
      dsimp only
      rw [f2]
      cases cs with
      | nil => rw [f4] at hc; exact absurd hc.1 (by simp)
      | cons c cs =>
        simp only [List.map_cons, List.sum_cons]
        have := h2 c List.mem_cons_self
        have := list_sum_nonneg cs (·.volume) fun d hd => (h2 d (List.mem_cons_of_mem _ hd)).le
        linarith
    · cases h
  exact ⟨hpos, hw36.2.2.2 rfl hpos.ne'⟩

/-- **C130, meshes (partial).**  If no plane of a triangle contains the centre of the rib, the contact point of the rib is in its disk whatever the
mesh is. -/
theorem C130_mesh_partial {r : Rib ℝ} (hr : IsRib r) {pose : Affine ℝ} (hp : IsRigid pose)
    {ts : List (TriangleGround ℝ)} (hoff : ∀ t ∈ ts, ¬ OnPlane t.tri.layingPlane (pose.apply ⟨0, r.y, 0⟩))
    {b : Bool} {o : Output ℝ} (h : r.envelopMesh ts pose "geometric" = .ok (b, o)) :
    OnRibDisk pose r o.point ∧ o.depth = r.radius - dist3 o.point (pose.apply ⟨0, r.y, 0⟩) ∧ 0 ≤ o.depth := by
  have hv : o.area ≠ 0 → o.volume ≠ 0 := by
    cases b with
    | false => rw [Rib.envelopMesh_false h]; simp [Rib.noContact]
    | true => exact fun _ => (C36_volume_pos_partial hr hp hoff (by simpa [Rib.envelopMesh] using h)).1.ne'
  obtain ⟨h1, h2⟩ := C130_geometric_partial hr hp (.mesh ts b h) hv
  exact ⟨h1, h2, by linarith [h1.dist_le hr hp]⟩

theorem Mesh.lookupAll_mem {m : Mesh ℝ} : ∀ {ps : List (Box ℝ × Box ℝ)} {ts : List (TriangleGround ℝ)}, m.lookupAll ps = .ok ts →
    ∀ t ∈ ts, t ∈ m.triangles
  | [], ts, h => by
    simp only [Mesh.lookupAll] at h
    cases h
    simp
  | p :: ps, ts, h => by
    rw [Mesh.lookupAll, Res.bind_eq_ok] at h
    obtain ⟨t, ht, h⟩ := h
    rw [Res.bind_eq_ok] at h
    obtain ⟨us, hu, h⟩ := h
    cases Res.ok.inj h
    intro u hm
    rcases List.mem_cons.1 hm with rfl | hm
    · unfold Mesh.ptrTriangleground at ht
      split at ht
      · split at ht
        · cases ht
          exact List.mem_of_getElem? ‹_›
        · cases ht
      · cases ht
    · exact Mesh.lookupAll_mem hu u hm

theorem Shell.ribCandidates_sub {pose : Affine ℝ} {method : String} {loc : List (TriangleGround ℝ)} {r : Rib ℝ} {t : TriangleGround ℝ}
    (h : t ∈ Shell.ribCandidates pose method loc r) : t ∈ loc := (List.mem_filter.1 h).1

/-- **C130, tyres on meshes (partial).**  After a setup on a mesh with the geometric method: if the plane of no triangle of the mesh contains the
centre of a rib, then every rib that touches the ground reports a positive volume, the contact point of the tyre is inside the tyre,
and its depth is at most the largest radius (or `eps`). -/
theorem C130_mesh_tyre_partial {pol : Policy} {s s' : Shell ℝ} (hs : s.Reachable pol) {pose : Affine ℝ} (hp : IsRigid pose)
    {m : Mesh ℝ} {b : Bool} (h : s.setupMesh pol m pose "geometric" = .ok s' b) (hn : 1 ≤ s'.size) {R L : ℝ}
    (hribs : ∀ r ∈ s.ribs, r.radius ≤ R ∧ |r.center.y| ≤ L)
    (hoff : ∀ r ∈ s.ribs, ∀ t ∈ m.triangles, ¬ OnPlane t.tri.layingPlane (pose.apply ⟨0, r.y, 0⟩)) :
    (∃ o, Reports pol s' o ∧ ∀ i < s'.size, (o i).area ≠ 0 → 0 < (o i).volume) ∧
    (∃ x y z, s'.contactPoint pol = .ok (pose.apply ⟨x, y, z⟩) ∧ x ^ 2 + z ^ 2 ≤ R ^ 2 ∧ |y| ≤ L) ∧
    ∃ d, s'.contactDepth pol = .ok d ∧ 0 ≤ d ∧ d ≤ Max.max R Scalar.eps := by
  have hsize : s'.size = s.size := by rw [Shell.size, (Shell.setupMesh_rel (.inl ⟨_, h⟩)).ribs]; rfl
  have hvol : ∀ o : Nat → Output ℝ, Reports pol s' o → ∀ i < s'.size, (o i).area ≠ 0 → 0 < (o i).volume := by
    intro o ho i hi
    obtain ⟨loc, hloc⟩ : ∃ loc, m.intersection (s.transform pose).updateBBox.bbox = .ok loc := by
      cases hi : m.intersection (s.transform pose).updateBBox.bbox with
      | ok loc => exact ⟨loc, rfl⟩
      | throw e => simp [Shell.setupMesh, hi] at h
      | ub w => simp [Shell.setupMesh, hi] at h
    obtain ⟨flags, recs, h1, -⟩ := C38_mesh_flag pol s s' hs m pose "geometric" loc b hloc h
    obtain ⟨r, a, c, e⟩ := h1 i (by omega)
    have := Res.ok.inj ((Shell.reports_iff.1 ho i hi).symm.trans e)
    rw [this]
    rw [(Shell.setupMesh_rel (.inl ⟨_, h⟩)).ribs] at a
    have hr := hs.isRib r (List.mem_of_getElem? a)
    have hrm := List.mem_of_getElem? a
    split at c
    · rw [← (Prod.mk.inj (Res.ok.inj c)).2]
      simp [Rib.noContact]
    · have hmem : ∀ t ∈ loc, t ∈ m.triangles := by
        unfold Mesh.intersection at hloc
        rw [Res.bind_eq_ok] at hloc
        obtain ⟨ps, -, hps⟩ := hloc
        exact Mesh.lookupAll_mem hps
      cases hf : flags i with
      | false =>
        rw [hf] at c
        rw [Rib.envelopMesh_false c]
        simp [Rib.noContact]
      | true =>
        rw [hf] at c
        exact fun _ => (C36_volume_pos_partial hr hp (ts := Shell.ribCandidates pose "geometric" loc r)
          (fun t ht => hoff r hrm t (hmem t (Shell.ribCandidates_sub ht))) (by simpa [Rib.envelopMesh] using c)).1
  obtain ⟨⟨x, y, z, e1, e2, -, e4⟩, hd⟩ := C130_tyre_partial hs hp (.inl ⟨m, h⟩) hn hribs (R := R) (L := L) 
    fun _ _ o ho i hi ha => (hvol o ho i hi ha).ne'
  obtain ⟨o, ho, -⟩ := Spec.SetUp.evaluated hs (.inl ⟨m, h⟩ : SetUp pol s pose "geometric" s' b)
  exact ⟨⟨o, ho, hvol o ho⟩, ⟨x, y, z, e1, e2, e4 rfl⟩, hd⟩

/-- The plane of the demonstration field is the plane `z = 0`. -/
theorem Demo.field_plane (p : V3 ℝ) : OnPlane Demo.field.tri.layingPlane p ↔ p.z = 0 := by
  have hn : (Demo.field : TriangleGround ℝ).tri.layingPlane.normal = ⟨0, 0, 1⟩ := by
    show V3.normalized (V3.cross (V3.sub ⟨-30, -10, 0⟩ ⟨0, 10, 0⟩) (V3.sub ⟨30, -10, 0⟩ ⟨0, 10, 0⟩)) = _
    have e : V3.cross (V3.sub (⟨-30, -10, 0⟩ : V3 ℝ) ⟨0, 10, 0⟩) (V3.sub ⟨30, -10, 0⟩ ⟨0, 10, 0⟩) = V3.smul 1200 ⟨0, 0, 1⟩ := by
      rw [V3.real_sub, V3.real_sub, V3.real_cross, V3.real_smul]; norm_num
    rw [e, V3.real_smul]
    exact (V3.normalized_smul (a := ⟨0, 0, 1⟩) (by norm_num)).trans (V3.normalized_unit (by norm_num))
  have ho : (Demo.field : TriangleGround ℝ).tri.layingPlane.origin.z = 0 := by
    simp [Demo.field, TriangleGround.updateBBox, TriangleGround.updateNormal, Triangle.layingPlane, Triangle.centroid, V3.sdiv, V3.add]
  unfold OnPlane
  rw [hn]
  simp only [dot3, minus, ho]
  constructor <;> intro h <;> linarith

theorem Demo.upright_z (h x y z : ℝ) : ((Demo.upright h).apply ⟨x, y, z⟩).z = z + h := by
  simp only [Demo.upright, Affine.apply]
  v3
  ring

/-- A wheel over a field meets the hypotheses: its centre is half a unit above the field. -/
example (fresh : Nat → Output ℝ) : ∃ s s' : Shell ℝ, s.Reachable .raw ∧ 1 ≤ s'.size ∧
    s.setupMesh .raw (Mesh.ofTriangles [Demo.field]) (Demo.upright (1 / 2)) "geometric" = .ok s' true ∧
    ∀ r ∈ s.ribs, ∀ t ∈ (Mesh.ofTriangles [Demo.field]).triangles,
      ¬ OnPlane t.tri.layingPlane ((Demo.upright (1 / 2)).apply ⟨0, r.y, 0⟩) := by
  obtain ⟨s, s', r, o, h1, -, h2, h3, h4, -, -⟩ := Demo.oneRib_on_field fresh
  refine ⟨s, s', h1, by simp [Shell.size, h4], h3, fun r _ t ht => ?_⟩
  rw [show (Mesh.ofTriangles [Demo.field]).triangles = [Demo.field] from rfl, List.mem_singleton] at ht
  rw [ht, Demo.field_plane, Demo.upright_z]
  norm_num

end Enve
