import Verif.Props.OffAxisProps

/-! # Contact normals of the geometric method on meshes: C45

The normals of a rib are unit vectors, and point to the side of the wheel axis that the wheel calls up, if the planes of the
triangles pass below the axis inside the disk of the rib. -/

namespace Enve
open Scalar Spec

/-- Normalising keeps the side of a plane. -/
theorem Spec.normalized_up {n u : V3 ℝ} (h : 0 < dot3 n u) : length3 (V3.normalized n) = 1 ∧ 0 < dot3 (V3.normalized n) u := by
  have hne : n ≠ ⟨0, 0, 0⟩ := by
    rintro rfl
    simp [dot3] at h
  refine ⟨Real.sqrt_eq_one.2 (V3.sq_normalized hne), ?_⟩
  rw [V3.normalized_of_ne hne]
  have hpos := V3.norm_pos.2 hne
  have e : dot3 (⟨n.x / V3.norm n, n.y / V3.norm n, n.z / V3.norm n⟩ : V3 ℝ) u = dot3 n u / V3.norm n := by
    simp only [dot3]; ring
  rw [e]
  exact div_pos h hpos

/-- A triangle that is cut below the axis contributes a unit normal that points up. -/
theorem Rib.contrib_up {r : Rib ℝ} (hr : IsRib r) {pose : Affine ℝ} (hp : IsRigid pose) {t : TriangleGround ℝ}
    (hbelow : ∀ x z, x ^ 2 + z ^ 2 ≤ r.radius ^ 2 → OnPlane t.tri.layingPlane (pose.apply ⟨x, r.y, z⟩) → z < 0)
    {seg : Segment ℝ} (hseg : Inter.triangleDisk t.tri (r.diskGrd pose) Scalar.eps = .ok (some seg))
    {c : Rib.Contrib ℝ} (h : r.contrib pose t seg = some c) : 0 < dot3 c.normal pose.linear.c2 := by
  have hR : IsRotation pose.linear := hp
  have hcen : r.centerGrd pose = pose.apply ⟨0, r.y, 0⟩ := by
    rw [Rib.centerGrd_eq]
    show pose.apply r.disk.plane.origin = _
    rw [hr.center]
  have hng : (r.diskGrd pose).plane.normal = pose.linear.c1 := Rib.normalGrd_eq hr pose
  have hog : (r.diskGrd pose).plane.origin = r.centerGrd pose := rfl
  obtain ⟨⟨hp0, hp1⟩, ⟨hd0, hd1⟩, -, hin⟩ := C53_triangle_disk t.tri (r.diskGrd pose) (by rw [hng]; exact hp.unit1) hr.radius_pos.le Scalar.eps
    real_eps_pos seg hseg
  unfold Rib.contrib at h
  dsimp only at h
  rw [Option.ite_none_left_eq_some] at h
  obtain ⟨hbreak, h⟩ := h
  have h := Option.some.inj h
  subst h
  simp only [real_atan2, real_lt, real_div, real_mul, real_sub, real_two, real_sin, real_cos, real_add, real_neg, real_zero] at hbreak ⊢
  have hne : seg.v0 ≠ seg.v1 := by
    intro e
    apply hbreak
    have hl : seg.length = 0 := by rw [Segment.length, V3.norm_sub, e, dist3]; simp
    rw [e, hl]
    have := real_eps_pos
    simp [this]
  obtain ⟨hi0, hi1⟩ := hin hne
  set pa := M3.mulVec (M3.transpose pose.linear) (V3.sub seg.v0 (r.centerGrd pose)) with hpa
  set pb := M3.mulVec (M3.transpose pose.linear) (V3.sub seg.v1 (r.centerGrd pose)) with hpb
  have low : ∀ (v q : V3 ℝ), q = M3.mulVec (M3.transpose pose.linear) (V3.sub v (r.centerGrd pose)) → OnPlane t.tri.layingPlane v →
      OnPlane (r.diskGrd pose).plane v → InDisk (r.diskGrd pose) v → q.z < 0 := by
    intro v q hq h1 h2 h3
    have hy : q.y = 0 := by
      rw [hq]
      unfold OnPlane at h2
      rw [hng, hog] at h2
      simp only [dot3, minus] at h2
      simp only [M3.mulVec, M3.transpose, V3.real_sub, real_add, real_mul]
      linarith
    have hv : v = pose.apply ⟨q.x, r.y, q.z⟩ := by
      have e := hR.mulVec_transpose (V3.sub v (r.centerGrd pose))
      rw [← hq, hcen] at e
      have ex := congrArg V3.x e
      have ey := congrArg V3.y e
      have ez := congrArg V3.z e
      simp only [Affine.apply, M3.mulVec, V3.real_sub, V3.real_add, real_add, real_mul, hy] at ex ey ez ⊢
      ext
      · dsimp only; linarith
      · dsimp only; linarith
      · dsimp only; linarith
    refine hbelow q.x q.z ?_ (hv ▸ h1)
    have h4 := h3.2
    rw [hog, hcen, hv, Affine.dist_apply hp] at h4
    have h5 := dist3_sq (⟨q.x, r.y, q.z⟩ : V3 ℝ) ⟨0, r.y, 0⟩
    have h6 := pow_le_pow_left₀ (dist3_nonneg (⟨q.x, r.y, q.z⟩ : V3 ℝ) ⟨0, r.y, 0⟩) h4 2
    rw [h5] at h6
    have h7 : (r.diskGrd pose).radius = r.radius := rfl
    rw [h7] at h6
    dsimp only at h6
    linarith
  have hza := low _ _ hpa hp0 hd0 hi0
  have hzb := low _ _ hpb hp1 hd1 hi1
  have arga : Complex.arg ⟨pa.x, pa.z⟩ < 0 := Complex.arg_neg_iff.2 hza
  have argb : Complex.arg ⟨pb.x, pb.z⟩ < 0 := Complex.arg_neg_iff.2 hzb
  have arga' := Complex.neg_pi_lt_arg ⟨pa.x, pa.z⟩
  have argb' := Complex.neg_pi_lt_arg ⟨pb.x, pb.z⟩
  refine (normalized_up ?_).2
  set tc := ((if decide (Complex.arg ⟨pb.x, pb.z⟩ < Complex.arg ⟨pa.x, pa.z⟩) = true then Complex.arg ⟨pb.x, pb.z⟩ else Complex.arg ⟨pa.x, pa.z⟩) +
    (if decide (Complex.arg ⟨pb.x, pb.z⟩ < Complex.arg ⟨pa.x, pa.z⟩) = true then Complex.arg ⟨pa.x, pa.z⟩ else Complex.arg ⟨pb.x, pb.z⟩)) / 2 with htc
  have h1 : tc < 0 := by rw [htc]; split <;> linarith
  have h2 : -Real.pi < tc := by rw [htc]; split <;> linarith
  have hs := Real.sin_neg_of_neg_of_neg_pi_lt h1 h2
  have hngr : r.normalGrd pose = pose.linear.c1 := Rib.normalGrd_eq hr pose
  rw [hngr]
  generalize V3.dot _ pose.linear.c1 = k
  have e : dot3 (V3.add (M3.mulVec pose.linear ⟨-Real.cos tc, 0, -Real.sin tc⟩) (V3.smul k pose.linear.c1)) pose.linear.c2 = -Real.sin tc := by
    simp only [dot3, M3.mulVec, V3.real_add, V3.real_smul, real_add, real_mul]
    linear_combination -Real.cos tc * hR.orth02 - Real.sin tc * hR.unit2 + k * hR.orth12
  rw [e]
  linarith

/-- The contributions to a geometric contact on a mesh that passes below the axis. -/
theorem Rib.geomLoop_up {r : Rib ℝ} (hr : IsRib r) (hw : 0 < r.width) {pose : Affine ℝ} (hp : IsRigid pose) {ts : List (TriangleGround ℝ)}
    (hbelow : ∀ t ∈ ts, ∀ x z, x ^ 2 + z ^ 2 ≤ r.radius ^ 2 → OnPlane t.tri.layingPlane (pose.apply ⟨x, r.y, z⟩) → z < 0)
    {acc acc' : Rib.Acc ℝ} (h : r.geomLoop pose ts acc = .ok acc') :
    ∃ cs : List (Rib.Contrib ℝ), acc' = cs.foldl Rib.Acc.add acc ∧ ∀ c ∈ cs, 0 < c.volume ∧ 0 < dot3 c.normal pose.linear.c2 := by
  induction ts generalizing acc with
  | nil => exact ⟨[], by simpa [Rib.geomLoop] using h.symm, by simp⟩
  | cons t ts ih =>
    have ih := fun {acc} => ih (acc := acc) fun u hu => hbelow u (List.mem_cons_of_mem _ hu)
    rw [Rib.geomLoop, Res.bind_eq_ok] at h
    obtain ⟨o, ho, h⟩ := h
    cases o with
    | none => exact ih h
    | some seg =>
      dsimp only at h
      cases hc : r.contrib pose t seg with
      | none =>
        rw [hc] at h
        exact ⟨[], by simpa using (Res.ok.inj h).symm, by simp⟩
      | some c =>
        rw [hc] at h
        obtain ⟨cs, h1, h2⟩ := ih h
        refine ⟨c :: cs, by simpa using h1, fun d hd => ?_⟩
        have hb := hbelow t List.mem_cons_self
        rcases List.mem_cons.1 hd with rfl | hd
        · refine ⟨?_, Rib.contrib_up hr hp hb ho hc⟩
          by_contra hv
          have := hb 0 0 (by simpa using sq_nonneg r.radius) (Rib.contrib_zero hr hw hp ho hc (not_lt.1 hv))
          exact lt_irrefl _ this
        · exact h2 d hd

theorem Spec.wsum_up {u : V3 ℝ} : ∀ {cs : List (Rib.Contrib ℝ)}, cs ≠ [] → (∀ c ∈ cs, 0 < c.volume ∧ 0 < dot3 c.normal u) →
    0 < dot3 (wsum (·.volume) (·.normal) cs) u
  | [], h, _ => absurd rfl h
  | c :: cs, _, h => by
    have h1 := h c List.mem_cons_self
    have e : dot3 (wsum (·.volume) (·.normal) (c :: cs)) u = c.volume * dot3 c.normal u + dot3 (wsum (·.volume) (·.normal) cs) u := by
      simp only [wsum, dot3, List.map_cons, List.sum_cons]; ring
    rw [e]
    have h2 := mul_pos h1.1 h1.2
    cases cs with
    | nil => simp only [wsum, dot3, List.map_nil, List.sum_nil, zero_mul, add_zero]; exact h2
    | cons d ds =>
      have := wsum_up (List.cons_ne_nil d ds) fun x hx => h x (List.mem_cons_of_mem _ hx)
      linarith

/-- **C45, geometric method on a mesh (partial).**  If inside the disk of the rib the planes of the triangles are below the wheel axis (in the axes
of the wheel), the contact normal of the rib is a unit vector and points to the upper side of the wheel. -/
theorem C45_mesh_partial {r : Rib ℝ} (hr : IsRib r) {pose : Affine ℝ} (hp : IsRigid pose) {ts : List (TriangleGround ℝ)}
    (hbelow : ∀ t ∈ ts, ∀ x z, x ^ 2 + z ^ 2 ≤ r.radius ^ 2 → OnPlane t.tri.layingPlane (pose.apply ⟨x, r.y, z⟩) → z < 0)
    {b : Bool} {o : Output ℝ} (h : r.envelopMesh ts pose "geometric" = .ok (b, o)) :
    length3 o.normal = 1 ∧ 0 < dot3 o.normal pose.linear.c2 := by
  have hR : IsRotation pose.linear := hp
  cases b with
  | false =>
    rw [Rib.envelopMesh_false h]
    refine ⟨r.noContact_unit hp, ?_⟩
    have e : (r.noContact pose).normal = pose.linear.c2 := by
      simp only [Rib.noContact, M3.mulVec, V3.ez]; v3; simp
    rw [e]
    have := hR.unit2
    simp only [dot3]
    nlinarith
  | true =>
    have h' : r.envelopGeometricMesh ts pose = .ok (true, o) := by simpa [Rib.envelopMesh] using h
    have hw := Rib.contact_width hr h'
    unfold Rib.envelopGeometricMesh at h'
    rw [Res.bind_eq_ok] at h'
    obtain ⟨acc, hl, h'⟩ := h'
    have h' := Res.ok.inj h'
    obtain ⟨cs, h1, h2⟩ := Rib.geomLoop_up hr hw hp hbelow hl
    obtain ⟨-, f2, -, f4⟩ := Rib.foldl_add cs Rib.Acc.init
    obtain ⟨-, f5⟩ := Rib.foldl_add_vec cs Rib.Acc.init
    rw [← h1] at f2 f4 f5
    simp only [Rib.Acc.init, real_zero, zero_add, Bool.false_or] at f2 f4
    unfold Rib.geomFinish at h'
    split at h'
    · rename_i hc
      simp only [Bool.and_eq_true] at hc
      have hcs : cs ≠ [] := by
        rintro rfl
        rw [f4] at hc
        exact absurd hc.1 (by simp)
      have hN := wsum_up hcs h2
      have hV : 0 < acc.volume := by
        rw [f2]
        cases cs with
        | nil => exact absurd rfl hcs
        | cons c cs =>
          simp only [List.map_cons, List.sum_cons]
          have := (h2 c List.mem_cons_self).1
          have := list_sum_nonneg cs (·.volume) fun d hd => (h2 d (List.mem_cons_of_mem _ hd)).1.le
          linarith
      rw [← (Prod.mk.inj h').2]
      refine normalized_up ?_
      have e : dot3 (V3.sdiv acc.normal acc.volume) pose.linear.c2 = dot3 (wsum (·.volume) (·.normal) cs) pose.linear.c2 / acc.volume := by
        rw [f5, V3.real_sdiv, V3.real_add]
        simp only [Rib.Acc.init, V3.zeros, real_zero, zero_add, dot3]
        ring
      rw [e]
      exact div_pos hN hV
    · cases h'

/-- **C45, tyres on meshes (partial).**  After a setup on a mesh with the geometric method: if inside the disks of the ribs the planes of the
triangles of the mesh are below the wheel axis, the normal of every rib and the normal of the tyre are unit vectors that point to
the upper side of the wheel. -/
theorem C45_mesh_tyre_partial {pol : Policy} {s s' : Shell ℝ} (hs : s.Reachable pol) {pose : Affine ℝ} (hp : IsRigid pose)
    {m : Mesh ℝ} {b : Bool} (h : s.setupMesh pol m pose "geometric" = .ok s' b) (hn : 1 ≤ s'.size)
    (hbelow : ∀ r ∈ s.ribs, ∀ t ∈ m.triangles, ∀ x z, x ^ 2 + z ^ 2 ≤ r.radius ^ 2 →
      OnPlane t.tri.layingPlane (pose.apply ⟨x, r.y, z⟩) → z < 0) :
    (∀ i < s'.size, ∃ n, s'.contactNormalAt pol i = .ok n ∧ length3 n = 1 ∧ 0 < dot3 n pose.linear.c2) ∧
    ∃ n, s'.contactNormal pol = .ok n ∧ length3 n = 1 ∧ 0 < dot3 n pose.linear.c2 := by
  have hR : IsRotation pose.linear := hp
  have hrel := Shell.setupMesh_rel (.inl ⟨_, h⟩ : (∃ b, s.setupMesh pol m pose "geometric" = .ok s' b) ∨ _)
  have hsize : s'.size = s.size := by rw [Shell.size, hrel.ribs]; rfl
  obtain ⟨loc, hloc⟩ : ∃ loc, m.intersection (s.transform pose).updateBBox.bbox = .ok loc := by
    cases hi : m.intersection (s.transform pose).updateBBox.bbox with
    | ok loc => exact ⟨loc, rfl⟩
    | throw e => simp [Shell.setupMesh, hi] at h
    | ub w => simp [Shell.setupMesh, hi] at h
  have hmem : ∀ t ∈ loc, t ∈ m.triangles := by
    unfold Mesh.intersection at hloc
    rw [Res.bind_eq_ok] at hloc
    obtain ⟨ps, -, hps⟩ := hloc
    exact Mesh.lookupAll_mem hps
  obtain ⟨flags, recs, h1, -⟩ := C38_mesh_flag pol s s' hs m pose "geometric" loc b hloc h
  have hrep : Reports pol s' recs := by
    rw [Shell.reports_iff, hsize]
    intro i hi
    obtain ⟨_, -, -, e⟩ := h1 i hi
    exact e
  have hup : ∀ i < s'.size, length3 (recs i).normal = 1 ∧ 0 < dot3 (recs i).normal pose.linear.c2 := by
    intro i hi
    obtain ⟨r, a, c, e⟩ := h1 i (by omega)
    rw [hrel.ribs] at a
    have hrm := List.mem_of_getElem? a
    have hr := hs.isRib r hrm
    split at c
    · rw [← (Prod.mk.inj (Res.ok.inj c)).2]
      refine ⟨r.noContact_unit hp, ?_⟩
      have e : (r.noContact pose).normal = pose.linear.c2 := by
        simp only [Rib.noContact]; ext <;> v3 <;> ring
      rw [e]
      have := hR.unit2
      simp only [dot3]
      nlinarith
    · exact C45_mesh_partial hr hp (fun t ht => hbelow r hrm t (hmem t (Shell.ribCandidates_sub ht))) c
  have hvol : ∀ i < s'.size, 0 ≤ (recs i).volume := by
    intro i hi
    obtain ⟨o, ho, hev⟩ := Spec.SetUp.evaluated hs (.inl ⟨m, h⟩ : SetUp pol s pose "geometric" s' b)
    obtain ⟨r, -, h2, h3⟩ := hev i hi
    have := Res.ok.inj ((Shell.reports_iff.1 ho i hi).symm.trans (Shell.reports_iff.1 hrep i hi))
    rw [← this]
    exact (h3.weights h2 hp).1
  refine ⟨fun i hi => ?_, ?_⟩
  · obtain ⟨_, -, -, e⟩ := h1 i (by omega)
    exact ⟨(recs i).normal, by simp [Shell.contactNormalAt, e], hup i hi⟩
  · obtain ⟨w0, w1, -⟩ := C43_average hrep hn hvol
    obtain ⟨n, e1, e2, -⟩ := C45_shell_normal hrep
    set w := ribWeight s'.size fun i => (recs i).volume with hw
    set N : V3 ℝ := ⟨∑ i ∈ Finset.range s'.size, w i * (recs i).normal.x, ∑ i ∈ Finset.range s'.size, w i * (recs i).normal.y,
      ∑ i ∈ Finset.range s'.size, w i * (recs i).normal.z⟩ with hN
    have hdot : dot3 N pose.linear.c2 = ∑ i ∈ Finset.range s'.size, w i * dot3 (recs i).normal pose.linear.c2 := by
      simp only [hN, dot3, Finset.sum_mul, ← Finset.sum_add_distrib]
      exact Finset.sum_congr rfl fun i _ => by ring
    have hpos : 0 < dot3 N pose.linear.c2 := by
      rw [hdot]
      obtain ⟨j, hj, hwj⟩ : ∃ j ∈ Finset.range s'.size, 0 < w j := by
        by_contra hall
        push Not at hall
        have := Finset.sum_nonpos hall
        linarith
      refine Finset.sum_pos' (fun i hi => mul_nonneg (w0 i (Finset.mem_range.1 hi)) (hup i (Finset.mem_range.1 hi)).2.le)
        ⟨j, hj, mul_pos hwj (hup j (Finset.mem_range.1 hj)).2⟩
    have hne : N ≠ ⟨0, 0, 0⟩ := by
      intro h0
      rw [h0] at hpos
      simp [dot3] at hpos
    obtain ⟨e3, e4⟩ := e2 hne
    refine ⟨n, e1, e3, ?_⟩
    have hl : 0 < length3 N := by rw [← V3.norm_eq]; exact V3.norm_pos.2 hne
    rw [e4]
    have : dot3 (⟨N.x / length3 N, N.y / length3 N, N.z / length3 N⟩ : V3 ℝ) pose.linear.c2 = dot3 N pose.linear.c2 / length3 N := by
      simp only [dot3]; ring
    rw [this]
    exact div_pos hpos hl

theorem Spec.up_not_parallel {m : M3 ℝ} (h : IsRotation m) {n : V3 ℝ} (hn : 0 < dot3 n m.c2) : ¬ Parallel3 m.c1 n := by
  rintro ⟨h1, h2, h3⟩
  have h4 := h.orth12
  have h5 := h.unit1
  simp only [dot3] at hn
  -- n = (n · c1) c1
  have ex : n.x = dot3 n m.c1 * m.c1.x := by
    simp only [dot3]; linear_combination -n.x * h5 - m.c1.y * h3 + m.c1.z * h2
  have ey : n.y = dot3 n m.c1 * m.c1.y := by
    simp only [dot3]; linear_combination -n.y * h5 + m.c1.x * h3 - m.c1.z * h1
  have ez : n.z = dot3 n m.c1 * m.c1.z := by
    simp only [dot3]; linear_combination -n.z * h5 - m.c1.x * h2 + m.c1.y * h1
  rw [ex, ey, ez] at hn
  have : dot3 n m.c1 * m.c1.x * m.c2.x + dot3 n m.c1 * m.c1.y * m.c2.y + dot3 n m.c1 * m.c1.z * m.c2.z = 0 := by
    linear_combination dot3 n m.c1 * h4
  linarith

/-- **C46, tyres on meshes.**  Under the same conditions the contact frames of the ribs and of the tyre are right-handed orthonormal frames at the
contact points with the contact normals as z axes. -/
theorem C46_mesh_tyre {pol : Policy} {s s' : Shell ℝ} (hs : s.Reachable pol) {pose : Affine ℝ} (hp : IsRigid pose)
    {m : Mesh ℝ} {b : Bool} (h : s.setupMesh pol m pose "geometric" = .ok s' b) (hn : 1 ≤ s'.size)
    (hbelow : ∀ r ∈ s.ribs, ∀ t ∈ m.triangles, ∀ x z, x ^ 2 + z ^ 2 ≤ r.radius ^ 2 →
      OnPlane t.tri.layingPlane (pose.apply ⟨x, r.y, z⟩) → z < 0) :
    (∀ i < s'.size, ∃ p n f, s'.contactPointAt pol i = .ok p ∧ s'.contactNormalAt pol i = .ok n ∧
      s'.contactPointAffineAt pol i = .ok f ∧ IsContactFrame pose.linear.c1 n p f) ∧
    ∃ p n f, s'.contactPoint pol = .ok p ∧ s'.contactNormal pol = .ok n ∧ s'.contactPointAffine pol = .ok f ∧
      IsContactFrame pose.linear.c1 n p f := by
  have hrel := Shell.setupMesh_rel (.inl ⟨_, h⟩ : (∃ b, s.setupMesh pol m pose "geometric" = .ok s' b) ∨ _)
  obtain ⟨h1, n, h2, h3, h4⟩ := C45_mesh_tyre_partial hs hp h hn hbelow
  obtain ⟨o, ho, hev⟩ := Spec.SetUp.evaluated hs (.inl ⟨m, h⟩ : SetUp pol s pose "geometric" s' b)
  have hvol : ∀ i < s'.size, 0 ≤ (o i).volume := fun i hi => by
    obtain ⟨r, -, h5, h6⟩ := hev i hi
    exact (h6.weights h5 hp).1
  obtain ⟨-, -, hpt, -⟩ := C43_average ho hn hvol
  refine ⟨fun i hi => ?_, ?_⟩
  · obtain ⟨n, e1, e2, e3⟩ := h1 i hi
    have e4 : s'.contactPointAt pol i = .ok (o i).point := ho.point i hi
    obtain ⟨f, f1, f2⟩ := C46_rib_frame e4 e1 e2 (by rw [hrel.pose]; exact up_not_parallel hp e3)
    rw [hrel.pose] at f2
    exact ⟨_, n, f, e4, e1, f1, f2⟩
  · obtain ⟨f, f1, f2⟩ := C46_shell_frame hpt h2 h3 (by rw [hrel.pose]; exact up_not_parallel hp h4)
    rw [hrel.pose] at f2
    exact ⟨_, n, f, hpt, h2, f1, f2⟩

/-- A wheel over a field meets the hypotheses: the field is half a unit below the axis. -/
example (fresh : Nat → Output ℝ) : ∃ s s' : Shell ℝ, s.Reachable .raw ∧ 1 ≤ s'.size ∧
    s.setupMesh .raw (Mesh.ofTriangles [Demo.field]) (Demo.upright (1 / 2)) "geometric" = .ok s' true ∧
    ∀ r ∈ s.ribs, ∀ t ∈ (Mesh.ofTriangles [Demo.field]).triangles, ∀ x z, x ^ 2 + z ^ 2 ≤ r.radius ^ 2 →
      OnPlane t.tri.layingPlane ((Demo.upright (1 / 2)).apply ⟨x, r.y, z⟩) → z < 0 := by
  obtain ⟨s, s', r, o, h1, -, h2, h3, h4, -, -⟩ := Demo.oneRib_on_field fresh
  refine ⟨s, s', h1, by simp [Shell.size, h4], h3, fun r _ t ht x z _ hp => ?_⟩
  rw [show (Mesh.ofTriangles [Demo.field]).triangles = [Demo.field] from rfl, List.mem_singleton] at ht
  rw [ht, Demo.field_plane, Demo.upright_z] at hp
  linarith

end Enve
