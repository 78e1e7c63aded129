import Verif.Props.RecordProps
import Verif.Spec.Frame

/-! # Contact normals, contact frames, vector getters, relative angles (C45, C46, C47, C56) -/

namespace Enve
open Scalar Spec

/-! ## C45: unit normals -/

/-- **C45**, the shell: the reported normal is the direction of the weighted sum of the rib normals and
has length one, unless that sum is zero (then the zero vector is reported). -/
theorem C45_shell_normal {pol : Policy} {s : Shell ℝ} {o : Nat → Output ℝ} (h : Reports pol s o) :
    let w := ribWeight s.size fun i => (o i).volume
    let N : V3 ℝ := ⟨∑ i ∈ Finset.range s.size, w i * (o i).normal.x,
      ∑ i ∈ Finset.range s.size, w i * (o i).normal.y, ∑ i ∈ Finset.range s.size, w i * (o i).normal.z⟩
    ∃ n, s.contactNormal pol = .ok n ∧
      (N ≠ ⟨0, 0, 0⟩ → length3 n = 1 ∧ n = ⟨N.x / length3 N, N.y / length3 N, N.z / length3 N⟩) ∧
      (N = ⟨0, 0, 0⟩ → n = ⟨0, 0, 0⟩) := by
  intro w N
  have hV := C42_total_real h
  have hr := Shell.records_of_reports h
  have hsz : (Scalar.ofNat s.size : ℝ) = s.size := by simp
  have key : s.contactNormal pol = .ok (V3.normalized N) := by
    rw [Shell.contactNormal, hV, hr, Res.bind_ok, Res.bind_ok]
    simp only [real_lt, decide_eq_true_eq]
    split
    · rename_i hl
      simp only [Res.pure_eq, Shell.foldl_range3 o (·.normal), hsz, V3.real_sdiv, ribSum_real, N, w,
        ribWeight_light hl]
    · rename_i hl
      rw [Shell.foldl_range3 o (fun r => V3.smul r.volume r.normal)]
      simp only [Res.pure_eq, V3.real_sdiv, V3.real_smul, ribSum_real, N, w, ribWeight_heavy hl]
  refine ⟨_, key, fun hne => ⟨?_, ?_⟩, fun he => by rw [V3.normalized_zero he, he]⟩
  · rw [← V3.norm_eq]; exact V3.norm_normalized hne
  · rw [V3.normalized_of_ne hne, V3.norm_eq]

theorem Spec.unit_length {a : V3 ℝ} (h : Unit3 a) : length3 a = 1 := by
  rw [length3, show a.x ^ 2 + a.y ^ 2 + a.z ^ 2 = 1 from h, Real.sqrt_one]

theorem Rib.noContact_unit (r : Rib ℝ) {pose : Affine ℝ} (hp : IsRigid pose) :
    length3 (r.noContact pose).normal = 1 := by
  have e : (r.noContact pose).normal = pose.linear.c2 := by
    simp only [Rib.noContact]; ext <;> v3 <;> ring
  rw [e]
  exact unit_length hp.unit2

theorem Rib.sampling_unit {r : Rib ℝ} {f : Line ℝ → Option (V3 ℝ × ℝ)} {pose : Affine ℝ}
    {o : Output ℝ} (h : r.envelopSampling f pose = (true, o)) : length3 o.normal = 1 := by
  have hd := Rib.envelopSampling_true h
  unfold Rib.envelopSampling at h
  split at h
  · rename_i p0 f0 p1 f1 p2 f2 p3 f3 e0 e1 e2 e3
    dsimp only at h
    split at h
    · have h := (Prod.mk.inj h).2
      have hdep := congrArg Output.depth h.symm
      dsimp only at hdep
      rw [← h]
      dsimp only
      generalize V3.cross (V3.sub p0 p1) (V3.sub p2 p3) = c at *
      by_cases hc : c = ⟨0, 0, 0⟩
      · exfalso
        rw [V3.normalized_zero hc, hc] at hdep
        simp only [real_lt, real_zero, decide_eq_true_eq] at hd
        have h0 : ∀ z : V3 ℝ, V3.dot ⟨0, 0, 0⟩ z = 0 := fun z => by simp [V3.real_dot]
        rw [hdep, h0] at hd
        simp only [real_sub, real_mul, real_abs, abs_zero, mul_zero, zero_sub] at hd
        linarith [V3.norm_nonneg (V3.sub (V3.sdiv (V3.add (V3.add (V3.add p0 p1) p2) p3) (lit 4 1))
          (r.centerGrd pose))]
      · rw [← V3.norm_eq]; exact V3.norm_normalized hc
    · cases h
  · cases h

/-- **C45**, the ribs, for a rigid pose: the reported normal has length one — without contact, on flat
ground by either method, on a mesh by the sampling method. -/
theorem C45_rib_normal {r : Rib ℝ} (hr : IsRib r) {pose : Affine ℝ} (hp : IsRigid pose) {o : Output ℝ} {b : Bool} :
    (∀ f og n g method, Flat.make f og n = .ok g → r.envelopFlat g pose method = .ok (b, o) →
      length3 o.normal = 1) ∧
    (∀ ts, r.envelopMesh ts pose "sampling" = .ok (b, o) → length3 o.normal = 1) ∧
    (∀ ts method, r.envelopMesh ts pose method = .ok (false, o) → length3 o.normal = 1) ∧
    length3 (r.noContact pose).normal = 1 := by
  have hno := r.noContact_unit hp
  refine ⟨fun f og n g method hg h => ?_, fun ts h => ?_, fun ts method h => ?_, hno⟩
  · cases b with
    | false => rw [Rib.envelopFlat_false h]; exact hno
    | true =>
      unfold Rib.envelopFlat at h
      split at h
      · have h := Res.ok.inj h
        have := (C32_contact hr hp hg (by rw [h])).2.2.2.1
        rw [h] at this
        rw [this]
        exact unit_length (Flat.make_unit hg)
      · split at h
        · exact Rib.sampling_unit (Res.ok.inj h)
        · cases h
  · cases b with
    | false => rw [Rib.envelopMesh_false h]; exact hno
    | true =>
      rw [Rib.envelopMesh, if_neg (by decide), if_pos rfl] at h
      exact Rib.sampling_unit (Res.ok.inj h)
  · rw [Rib.envelopMesh_false h]; exact hno

/-- **C45**, the geometric method on a mesh: the normal has length one or is zero. -/
theorem C45_geometric_mesh_partial (r : Rib ℝ) {pose : Affine ℝ} (hp : IsRigid pose)
    (ts : List (TriangleGround ℝ)) (b : Bool) (o : Output ℝ) (h : r.envelopGeometricMesh ts pose = .ok (b, o)) :
    length3 o.normal = 1 ∨ (b = true ∧ o.normal = ⟨0, 0, 0⟩) := by
  unfold Rib.envelopGeometricMesh at h
  rw [Res.bind_eq_ok] at h
  obtain ⟨acc, -, h⟩ := h
  have h := Res.ok.inj h
  unfold Rib.geomFinish at h
  split at h
  · obtain ⟨hb, ho⟩ := Prod.mk.inj h
    rw [← ho]
    dsimp only
    generalize V3.sdiv acc.normal acc.volume = c
    by_cases hc : c = ⟨0, 0, 0⟩
    · exact .inr ⟨hb.symm, by rw [V3.normalized_zero hc, hc]⟩
    · left; rw [← V3.norm_eq]; exact V3.norm_normalized hc
  · rw [← (Prod.mk.inj h).2]
    exact .inl (r.noContact_unit hp)

/-- **C45 is false for the geometric method on a mesh**: in the contact of zero volume shown for C36 the
reported normal is the quotient of a zero vector and zero, hence not of length one. -/
theorem C45_geometric_mesh_refuted :
    ∃ (r : Rib ℝ) (pose : Affine ℝ) (t : TriangleGround ℝ) (o : Output ℝ), IsRib r ∧ IsRigid pose ∧
      TriangleGround.make 0 1 ⟨1 / 5, 1, 0⟩ ⟨1 / 5, -1, 0⟩ ⟨7 / 5, -1, 0⟩ = .ok t ∧
      r.envelopGeometricMesh [t] pose = .ok (true, o) ∧ length3 o.normal = 0 := by
  obtain ⟨r, pose, t, o, h1, h2, h3, h4, -, h6, -⟩ := C36_zero_volume_refuted
  refine ⟨r, pose, t, o, h1, h2, h3, h4, ?_⟩
  unfold Rib.envelopGeometricMesh at h4
  rw [Res.bind_eq_ok] at h4
  obtain ⟨acc, -, h⟩ := h4
  have h := Res.ok.inj h
  unfold Rib.geomFinish at h
  split at h
  · have ho := (Prod.mk.inj h).2
    have hv : acc.volume = 0 := by rw [← h6, ← ho]
    rw [← ho]
    dsimp only
    rw [hv, ← V3.norm_eq, V3.norm_eq_zero, V3.normalized_zero] <;> simp [V3.real_sdiv]
  · cases h

/-- After every setup on a flat ground with a rigid pose, and after every setup on a mesh by the sampling
method, all rib normals have length one. -/
theorem C45_after_setup {pol : Policy} {s s' : Shell ℝ} (hs : s.Reachable pol) {pose : Affine ℝ}
    (hp : IsRigid pose) {method : String} {b : Bool}
    (h : (∃ f og n g, Flat.make f og n = .ok g ∧ s.setupFlat pol g pose method = .ok s' b) ∨
      (∃ ground, method = "sampling" ∧ s.setupMesh pol ground pose method = .ok s' b)) :
    ∀ i < s'.size, ∃ n, s'.contactNormalAt pol i = .ok n ∧ length3 n = 1 := by
  have hsu : SetUp pol s pose method s' b := by
    rcases h with h | ⟨g, -, h⟩
    · exact .inr h
    · exact .inl ⟨g, h⟩
  have hrib : ∀ (i : Nat) r, s'.ribs[i]? = some r → IsRib r := by
    intro i r hr
    rw [hsu.rel.ribs] at hr
    exact hs.isRib r (List.mem_of_getElem? hr)
  have hsize : s'.size = s.size := by rw [Shell.size, hsu.rel.ribs]; rfl
  rw [hsize]
  intro i hi
  rcases h with ⟨f, og, n, g, hg, h⟩ | ⟨g, rfl, h⟩
  · obtain ⟨flags, recs, h1, -⟩ := C38_flat_flag_partial pol s s' g pose method b h
    obtain ⟨r, a, c, e⟩ := h1 i hi
    refine ⟨(recs i).normal, by simp [Shell.contactNormalAt, e], ?_⟩
    exact (C45_rib_normal (hrib i r a) hp).1 f og n g method hg c
  · obtain ⟨loc, hloc⟩ : ∃ loc, g.intersection (s.transform pose).updateBBox.bbox = .ok loc := by
      cases hi : g.intersection (s.transform pose).updateBBox.bbox with
      | ok loc => exact ⟨loc, rfl⟩
      | throw m => simp [Shell.setupMesh, hi] at h
      | ub w => simp [Shell.setupMesh, hi] at h
    obtain ⟨flags, recs, h1, -⟩ := C38_mesh_flag pol s s' hs g pose "sampling" loc b hloc h
    obtain ⟨r, a, c, e⟩ := h1 i hi
    refine ⟨(recs i).normal, by simp [Shell.contactNormalAt, e], ?_⟩
    split at c
    · rw [← (Prod.mk.inj (Res.ok.inj c)).2]; exact r.noContact_unit hp
    · exact (C45_rib_normal (hrib i r a) hp).2.1 _ c

/-- The hypotheses of C45 are met. -/
example (fresh : Nat → Output ℝ) : ∃ (s' : Shell ℝ), s'.contactNormal .raw = .ok ⟨0, 0, 1⟩ := by
  have heps := real_eps_le_half
  obtain ⟨s, s', h1, h2, -, h3, h4⟩ := Demo.oneRib_road fresh (h := 0) le_rfl (by norm_num; linarith)
  obtain ⟨n, hn, h5, -⟩ := C45_shell_normal h4
  refine ⟨s', ?_⟩
  have hw := ribWeight_sum (n := s'.size) (by omega) fun _ => Rib.depthVolume 1 2 ((1 : ℝ) - 0)
  simp only [mul_zero, mul_one, Finset.sum_const_zero, hw] at h5
  have h6 := (h5 (by simp)).2
  rw [hn, h6]
  norm_num [length3]

/-! ## C46: contact frames -/

/-- What a contact frame is: a right-handed orthonormal frame at `point` whose z axis is `normal`, whose
x axis is orthogonal to the wheel axis `y` and whose y axis is on the side of the wheel axis. -/
structure Spec.IsContactFrame (y normal point : V3 ℝ) (f : Affine ℝ) : Prop where
  rotation : IsRotation f.linear
  z_axis : f.linear.c2 = normal
  x_axis : dot3 f.linear.c0 y = 0
  y_axis : 0 < dot3 f.linear.c1 y
  origin : f.trans = point

theorem Shell.contactFrame_spec {y n p : V3 ℝ} (hn : length3 n = 1) (hpar : ¬ Parallel3 y n) :
    IsContactFrame y n p (Shell.contactFrame y n p) := by
  have hn1 : n.x ^ 2 + n.y ^ 2 + n.z ^ 2 = 1 := V3.norm_eq_one.1 (by rw [V3.norm_eq, hn])
  have hne : V3.cross y n ≠ ⟨0, 0, 0⟩ := by
    intro h
    rw [V3.real_cross, V3.mk.injEq] at h
    exact hpar h
  have hx1 := V3.sq_normalized hne
  have hxe := V3.normalized_of_ne hne
  have hpos := V3.norm_pos.2 hne
  have hsq := V3.norm_sq (V3.cross y n)
  unfold Shell.contactFrame
  dsimp only
  generalize V3.norm (V3.cross y n) = k at *
  generalize hx : V3.normalized (V3.cross y n) = x at *
  rw [V3.real_cross] at hxe hsq
  dsimp only at hxe hsq
  have hx' := hxe
  rw [V3.ext_iff] at hx'
  obtain ⟨ex, ey, ez⟩ := hx'
  dsimp only at ex ey ez
  rw [eq_div_iff hpos.ne'] at ex ey ez
  have hxn : x.x * n.x + x.y * n.y + x.z * n.z = 0 := by
    have : (x.x * n.x + x.y * n.y + x.z * n.z) * k = 0 := by linear_combination n.x * ex + n.y * ey + n.z * ez
    exact (mul_eq_zero.1 this).resolve_right hpos.ne'
  have hxy : x.x * y.x + x.y * y.y + x.z * y.z = 0 := by
    have : (x.x * y.x + x.y * y.y + x.z * y.z) * k = 0 := by linear_combination y.x * ex + y.y * ey + y.z * ez
    exact (mul_eq_zero.1 this).resolve_right hpos.ne'
  have hu : (V3.cross n x).x ^ 2 + (V3.cross n x).y ^ 2 + (V3.cross n x).z ^ 2 = 1 := by
    rw [V3.real_cross]
    dsimp only
    linear_combination (n.x ^ 2 + n.y ^ 2 + n.z ^ 2) * hx1 + hn1 - (x.x * n.x + x.y * n.y + x.z * n.z) * hxn
  rw [V3.normalized_unit hu]
  refine ⟨⟨?_, ?_, ?_, ?_, ?_, ?_, ?_⟩, rfl, ?_, ?_, rfl⟩
  · linear_combination hx1
  · linear_combination hu
  · linear_combination hn1
  · v3; ring
  · linear_combination hxn
  · v3; ring
  · v3
    linear_combination (n.x ^ 2 + n.y ^ 2 + n.z ^ 2) * hx1 + hn1 - (x.x * n.x + x.y * n.y + x.z * n.z) * hxn
  · simp only [dot3]; linear_combination hxy
  · have : dot3 (V3.cross n x) y = k := by
      simp only [dot3, V3.real_cross]
      have : ((n.y * x.z - n.z * x.y) * y.x + (n.z * x.x - n.x * x.z) * y.y + (n.x * x.y - n.y * x.x) * y.z) * k = k * k := by
        linear_combination (y.y * n.z - y.z * n.y) * ex + (y.z * n.x - y.x * n.z) * ey + (y.x * n.y - y.y * n.x) * ez - hsq
      exact mul_right_cancel₀ hpos.ne' this
    rw [this]; exact hpos

/-- **C46**, the whole shell. -/
theorem C46_shell_frame {pol : Policy} {s : Shell ℝ} {p n : V3 ℝ} (hp : s.contactPoint pol = .ok p)
    (hn : s.contactNormal pol = .ok n) (h1 : length3 n = 1) (hpar : ¬ Parallel3 s.pose.linear.c1 n) :
    ∃ f, s.contactPointAffine pol = .ok f ∧ IsContactFrame s.pose.linear.c1 n p f := by
  refine ⟨Shell.contactFrame s.pose.linear.c1 n p, ?_, Shell.contactFrame_spec h1 hpar⟩
  rw [Shell.contactPointAffine, hp, hn]; rfl

/-- **C46**, one rib. -/
theorem C46_rib_frame {pol : Policy} {s : Shell ℝ} {i : Nat} {p n : V3 ℝ} (hp : s.contactPointAt pol i = .ok p)
    (hn : s.contactNormalAt pol i = .ok n) (h1 : length3 n = 1) (hpar : ¬ Parallel3 s.pose.linear.c1 n) :
    ∃ f, s.contactPointAffineAt pol i = .ok f ∧ IsContactFrame s.pose.linear.c1 n p f := by
  refine ⟨Shell.contactFrame s.pose.linear.c1 n p, ?_, Shell.contactFrame_spec h1 hpar⟩
  obtain ⟨o, ho⟩ | ho := Shell.read_ok_or_ub pol s.out i
  · simp only [Shell.contactPointAt, Shell.contactNormalAt, ho, Res.bind_ok, Res.pure_eq, Res.ok.injEq] at hp hn
    rw [Shell.contactPointAffineAt, ho, ← hp, ← hn]; rfl
  · have : (s.contactPointAt pol i).isUb = true := Shell.isUb_bind ho
    rw [hp] at this; cases this

/-- When the normal is parallel to the wheel axis (a tyre lying on its side) there is no such frame: the
code then reports a matrix with a zero column. -/
theorem C46_parallel {y n p : V3 ℝ} (hpar : Parallel3 y n) :
    (Shell.contactFrame y n p).linear.c0 = ⟨0, 0, 0⟩ := by
  unfold Shell.contactFrame
  dsimp only
  have : V3.cross y n = ⟨0, 0, 0⟩ := by
    rw [V3.real_cross, hpar.1, hpar.2.1, hpar.2.2]
  rw [V3.normalized_zero this, this]

/-- The pose of the demonstration shell after the setup is the one it was given. -/
theorem Demo.oneRib_frame (fresh : Nat → Output ℝ) : ∃ (s' : Shell ℝ), s'.Reachable .raw ∧
    s'.pose = Demo.upright 0 ∧ s'.size = 1 ∧ s'.contactPoint .raw = .ok ⟨0, 0, 0⟩ ∧
    s'.contactNormal .raw = .ok ⟨0, 0, 1⟩ ∧ s'.contactNormalAt .raw 0 = .ok ⟨0, 0, 1⟩ := by
  have heps := real_eps_le_half
  obtain ⟨s, s', h1, h2, hre, h3, h4⟩ := Demo.oneRib_road fresh (h := 0) le_rfl (by norm_num; linarith)
  have hv : Rib.depthVolume 1 2 ((1 : ℝ) - 0) = Real.pi := by simp [Rib.depthVolume]
  obtain ⟨n, hn, h5, -⟩ := C45_shell_normal h4
  have hw := ribWeight_sum (n := s'.size) (by omega) fun _ => Rib.depthVolume 1 2 ((1 : ℝ) - 0)
  simp only [mul_zero, mul_one, Finset.sum_const_zero, hw] at h5
  have h6 := (h5 (by simp)).2
  refine ⟨s', hre, h3.rel.pose, h2, ?_, ?_, h4.normal 0 (by omega)⟩
  · refine (C43_bounds h4 (by omega) fun _ _ => ?_).2.2.2.1 _ fun _ _ => rfl
    dsimp only
    rw [hv]; exact Real.pi_pos.le
  · rw [hn, h6]
    norm_num [length3]

/-- The hypotheses of C46 are met. -/
example (fresh : Nat → Output ℝ) : ∃ (s' : Shell ℝ) (f : Affine ℝ), s'.Reachable .raw ∧
    s'.contactPointAffine .raw = .ok f ∧ IsContactFrame ⟨0, 1, 0⟩ ⟨0, 0, 1⟩ ⟨0, 0, 0⟩ f := by
  obtain ⟨s', hre, hpose, -, hp, hn, -⟩ := Demo.oneRib_frame fresh
  have hc1 : s'.pose.linear.c1 = ⟨0, 1, 0⟩ := by rw [hpose]; rfl
  obtain ⟨f, h1, h2⟩ := C46_shell_frame hp hn (by norm_num [length3]) (by
    rw [hc1]; intro h; have := h.1; norm_num at this)
  exact ⟨s', f, hre, h1, by rwa [hc1] at h2⟩

/-! ## C47: vector getters -/

section
variable {α : Type} [Scalar α]

/-- The vector `l` has one entry per rib, the one reported by the per-rib getter `f`. -/
def Spec.PerRib {β : Type} (n : Nat) (f : Nat → Res β) (l : List β) : Prop :=
  l.length = n ∧ ∀ i < n, ∃ b, f i = .ok b ∧ l[i]? = some b

theorem Shell.fill_perRib {β : Type} {f : Nat → Res β} {n : Nat} (hf : ∀ i < n, ∃ b, f i = .ok b) (d : β)
    (v : List β) : ∃ l, Shell.fillLoop f n 0 (Shell.resizeVec v n d) = .ok l ∧ PerRib n f l := by
  have hb : ∃ b : Nat → β, ∀ i < n, f i = .ok (b i) := by
    refine ⟨fun i => if h : i < n then Classical.choose (hf i h) else d, fun i hi => ?_⟩
    dsimp only
    rw [dif_pos hi]
    exact Classical.choose_spec (hf i hi)
  obtain ⟨b, hb⟩ := hb
  obtain ⟨l, h1, h2, h3⟩ := Shell.fillLoop_ok (f := f) (b := b) n 0 (Shell.resizeVec v n d)
    (by rw [Shell.resizeVec_length]; omega) fun j _ hj => hb j (by omega)
  refine ⟨l, h1, by rw [h2, Shell.resizeVec_length], fun i hi => ⟨b i, hb i hi, ?_⟩⟩
  rw [h3, if_pos (by omega)]

omit [Scalar α] in
/-- **C47** for contact point, normal, friction, depth, area and volume: whenever the records can be read,
each vector getter returns one entry per rib, equal to the per-rib getter, whatever vector is passed in
(scalars of any kind). -/
theorem C47_vector_getters {pol : Policy} {s : Shell α} {o : Nat → Output α} (h : Reports pol s o) :
    (∀ d v, ∃ l, s.contactPointVec pol d v = .ok l ∧ PerRib s.size (s.contactPointAt pol) l) ∧
    (∀ d v, ∃ l, s.contactNormalVec pol d v = .ok l ∧ PerRib s.size (s.contactNormalAt pol) l) ∧
    (∀ d v, ∃ l, s.contactFrictionVec pol d v = .ok l ∧ PerRib s.size (s.contactFrictionAt pol) l) ∧
    (∀ d v, ∃ l, s.contactDepthVec pol d v = .ok l ∧ PerRib s.size (s.contactDepthAt pol) l) ∧
    (∀ d v, ∃ l, s.contactAreaVec pol d v = .ok l ∧ PerRib s.size (s.contactAreaAt pol) l) ∧
    (∀ d v, ∃ l, s.contactVolumeVec pol d v = .ok l ∧ PerRib s.size (s.contactVolumeAt pol) l) :=
  ⟨Shell.fill_perRib fun i hi => ⟨_, h.point i hi⟩, Shell.fill_perRib fun i hi => ⟨_, h.normal i hi⟩,
    Shell.fill_perRib fun i hi => ⟨_, h.friction i hi⟩, Shell.fill_perRib fun i hi => ⟨_, h.depth i hi⟩,
    Shell.fill_perRib fun i hi => ⟨_, h.area i hi⟩, Shell.fill_perRib fun i hi => ⟨_, h.volume i hi⟩⟩

/-- When the records can be read, so can the frames and angles of all ribs. -/
theorem Spec.Reports.frames {pol : Policy} {s : Shell α} {o : Nat → Output α} (h : Reports pol s o) :
    (∀ i < s.size, ∃ f, s.contactPointAffineAt pol i = .ok f) ∧
    ∀ i < s.size, ∃ a, s.relativeAnglesAt pol i = .ok a := by
  rw [Shell.reports_iff] at h
  have h1 : ∀ i < s.size, ∃ f, s.contactPointAffineAt pol i = .ok f := fun i hi => by
    rw [Shell.contactPointAffineAt, h i hi]; exact ⟨_, rfl⟩
  refine ⟨h1, fun i hi => ?_⟩
  obtain ⟨f, hf⟩ := h1 i hi
  have : s.ribs[i]? = some s.ribs[i] := List.getElem?_eq_getElem hi
  rw [Shell.relativeAnglesAt, hf, Res.bind_ok, Shell.ribAt, this]
  exact ⟨_, rfl⟩

theorem Shell.fill_prefix {β : Type} {f : Nat → Res β} {n : Nat} (hf : ∀ i < n, ∃ b, f i = .ok b)
    (hn : 1 ≤ n) (v : List β) (hv : n ≤ v.length) : ∃ l, Shell.fillLoop f n 0 v = .ok l ∧ PerRib n f (l.take n) ∧
      l.drop n = v.drop n := by
  have hb : ∃ b : Nat → β, ∀ i < n, f i = .ok (b i) := by
    obtain ⟨d, -⟩ := hf 0 hn
    refine ⟨fun i => if h : i < n then Classical.choose (hf i h) else d, fun i hi => ?_⟩
    dsimp only
    rw [dif_pos hi]
    exact Classical.choose_spec (hf i hi)
  obtain ⟨b, hb⟩ := hb
  obtain ⟨l, h1, h2, h3⟩ := Shell.fillLoop_ok (f := f) (b := b) n 0 v (by omega) fun j _ hj => hb j (by omega)
  refine ⟨l, h1, ⟨by rw [List.length_take]; omega, fun i hi => ⟨b i, hb i hi, ?_⟩⟩, ?_⟩
  · rw [List.getElem?_take_of_lt hi, h3, if_pos (by omega)]
  · refine List.ext_getElem? fun i => ?_
    rw [List.getElem?_drop, List.getElem?_drop, h3, if_neg (by omega)]

/-- **C47 for contact frames and relative angles, what holds**: if the caller's vector has at least one
entry per rib, the first entries are those of the per-rib getters and the others are left alone; if it has
exactly one entry per rib the result is the specified one. -/
theorem C47_frames_partial {pol : Policy} {s : Shell α} {o : Nat → Output α} (h : Reports pol s o)
    (hn : 1 ≤ s.size) :
    (∀ v : List (Affine α), s.size ≤ v.length → ∃ l, s.contactPointAffineVec pol v = .ok l ∧
      PerRib s.size (s.contactPointAffineAt pol) (l.take s.size) ∧ l.drop s.size = v.drop s.size) ∧
    (∀ v : List (V3 α), s.size ≤ v.length → ∃ l, s.relativeAnglesVec pol v = .ok l ∧
      PerRib s.size (s.relativeAnglesAt pol) (l.take s.size) ∧ l.drop s.size = v.drop s.size) :=
  ⟨fun v hv => Shell.fill_prefix h.frames.1 hn v hv, fun v hv => Shell.fill_prefix h.frames.2 hn v hv⟩

/-- **C47 is false for contact frames and relative angles.**  The caller's vector is not resized: if it is
shorter than the number of ribs (for instance, empty) the behaviour is undefined, if it is longer the result
has more entries than ribs. -/
theorem C47_frames_refuted {pol : Policy} {s : Shell α} {o : Nat → Output α} (h : Reports pol s o)
    (hn : 1 ≤ s.size) :
    (∀ v, v.length < s.size → (s.contactPointAffineVec pol v).isUb = true ∧
      ∀ u, u.length < s.size → (s.relativeAnglesVec pol u).isUb = true) ∧
    (∀ v l, s.size < v.length → s.contactPointAffineVec pol v = .ok l → s.size < l.length) ∧
    (∀ v l, s.size < v.length → s.relativeAnglesVec pol v = .ok l → s.size < l.length) := by
  have hex := (Shell.reports_iff.1 h)
  have hub : ∀ (i : Nat), (s.contactPointAffineAt pol i).isOk = true ∨ (s.contactPointAffineAt pol i).isUb = true := by
    intro i
    obtain ⟨o, ho⟩ | ho := Shell.read_ok_or_ub pol s.out i
    · left; rw [Shell.contactPointAffineAt, ho]; rfl
    · right; exact Shell.isUb_bind ho
  have hub' : ∀ (i : Nat), (s.relativeAnglesAt pol i).isOk = true ∨ (s.relativeAnglesAt pol i).isUb = true := by
    intro i
    have := hub i
    unfold Shell.relativeAnglesAt
    cases hc : s.contactPointAffineAt pol i with
    | ok f =>
      rw [Res.bind_ok]
      cases hr : s.ribAt i with
      | ok r => left; rfl
      | throw m => unfold Shell.ribAt at hr; split at hr <;> cases hr
      | ub w => right; rfl
    | throw m => rw [hc] at this; rcases this with h | h <;> cases h
    | ub w => right; rfl
  have hlen : ∀ {β : Type} (f : Nat → Res β) (k i : Nat) (v l : List β), Shell.fillLoop f k i v = .ok l →
      l.length = v.length := by
    intro β f k
    induction k with
    | zero => intro i v l h; cases h; rfl
    | succ k ih =>
      intro i v l h
      rw [Shell.fillLoop] at h
      split at h
      · rw [Res.bind_eq_ok] at h
        obtain ⟨b, -, h⟩ := h
        rw [ih _ _ _ h, List.length_set]
      · cases h
  refine ⟨fun v hv => ⟨Shell.fillLoop_ub hub _ _ _ (.inl (by omega)) (by omega), fun u hu =>
    Shell.fillLoop_ub hub' _ _ _ (.inl (by omega)) (by omega)⟩, fun v l hv hl => ?_, fun v l hv hl => ?_⟩
  · rw [hlen _ _ _ _ _ hl]; exact hv
  · rw [hlen _ _ _ _ _ hl]; exact hv

end

/-- The hypotheses of C47 are met after every setup; here by a shell with one rib. -/
example (fresh : Nat → Output ℝ) : ∃ (s' : Shell ℝ) (o : Nat → Output ℝ), Reports .raw s' o ∧ s'.size = 1 ∧
    (s'.contactPointAffineVec .raw []).isUb = true ∧ s'.contactDepthVec .raw 0 [5, 6, 7] = .ok [1] := by
  have heps := real_eps_le_half
  obtain ⟨s, s', h1, h2, -, h3, h4⟩ := Demo.oneRib_road fresh (h := 0) le_rfl (by norm_num; linarith)
  refine ⟨s', _, h4, h2, ((C47_frames_refuted h4 (by omega)).1 [] (by simp [h2])).1, ?_⟩
  obtain ⟨l, hl, h5, h6⟩ := (C47_vector_getters h4).2.2.2.1 0 [5, 6, 7]
  obtain ⟨b, h7, h8⟩ := h6 0 (by omega)
  rw [h4.depth 0 (by omega)] at h7
  rw [h2] at h5
  match l, h5 with
  | [x], _ =>
    rw [hl]
    have h7 := Res.ok.inj h7
    have h8 : x = b := by simpa using h8
    rw [h8, ← h7]
    norm_num

/-! ## C56: relative angles -/

theorem Spec.arg_polar {x y ρ : ℝ} (hρ : 0 ≤ ρ) (h : x ^ 2 + y ^ 2 = ρ ^ 2) :
    x = ρ * Real.cos (Complex.arg ⟨x, y⟩) ∧ y = ρ * Real.sin (Complex.arg ⟨x, y⟩) := by
  have hn : ‖(⟨x, y⟩ : ℂ)‖ = ρ := by
    rw [Complex.norm_def, Complex.normSq_mk, show x * x + y * y = ρ ^ 2 by linear_combination h, Real.sqrt_sq hρ]
  have h1 := Complex.norm_mul_cos_arg (⟨x, y⟩ : ℂ)
  have h2 := Complex.norm_mul_sin_arg (⟨x, y⟩ : ℂ)
  rw [hn] at h1 h2
  exact ⟨h1.symm, h2.symm⟩

theorem Spec.fromAngles_eq (a b c : ℝ) : fromAngles a b c =
    ⟨⟨Real.cos a * Real.cos c - Real.sin a * Real.sin b * Real.sin c,
      Real.sin a * Real.cos c + Real.cos a * Real.sin b * Real.sin c, -(Real.cos b * Real.sin c)⟩,
     ⟨-(Real.sin a * Real.cos b), Real.cos a * Real.cos b, Real.sin b⟩,
     ⟨Real.cos a * Real.sin c + Real.sin a * Real.sin b * Real.cos c,
      Real.sin a * Real.sin c - Real.cos a * Real.sin b * Real.cos c, Real.cos b * Real.cos c⟩⟩ := by
  simp only [fromAngles, M3.mul, M3.mulVec, rotX, rotY, rotZ, real_add, real_mul]
  congr 1 <;> congr 1 <;> ring

/-- The angles computed by the code rebuild every rotation, the degenerate cases included, and the yaw is
in `[0, π)`. -/
theorem Shell.eulerAngles_spec {m : M3 ℝ} (hm : IsRotation m) :
    let e := Shell.eulerAngles m
    fromAngles e.x e.y e.z = m ∧ 0 ≤ e.x ∧ e.x < Real.pi := by
  intro e
  obtain ⟨⟨-, -, hr2⟩, -⟩ := hm.rows
  have hu1 := hm.unit1
  set ρ := Real.sqrt (m.c2.z * m.c2.z + m.c0.z * m.c0.z) with hρdef
  have hρ0 : 0 ≤ ρ := Real.sqrt_nonneg _
  have hρ2 : ρ ^ 2 = m.c2.z ^ 2 + m.c0.z ^ 2 := by
    rw [hρdef, Real.sq_sqrt (by nlinarith [sq_nonneg m.c2.z, sq_nonneg m.c0.z])]; ring
  have hρ1 : m.c1.y ^ 2 + m.c1.x ^ 2 = ρ ^ 2 := by rw [hρ2]; linear_combination hu1 - hr2
  have hρt : ρ ^ 2 + (-m.c1.z) ^ 2 = 1 ^ 2 := by rw [hρ2]; linear_combination hr2
  -- the first two angles
  have key : ∃ a0 a1 : ℝ, -Real.pi < a0 ∧ a0 ≤ 0 ∧ m.c1.x = Real.cos a1 * Real.sin a0 ∧
      m.c1.y = Real.cos a1 * Real.cos a0 ∧ m.c1.z = - Real.sin a1 ∧ e =
      ⟨-a0, -a1, -(Complex.arg ⟨Real.cos a0 * m.c0.x - Real.sin a0 * m.c0.y,
        Real.sin a0 * m.c2.y - Real.cos a0 * m.c2.x⟩)⟩ := by
    obtain ⟨hy, hx⟩ := arg_polar hρ0 hρ1
    have hle := Complex.arg_le_pi ⟨m.c1.y, m.c1.x⟩
    have hgt := Complex.neg_pi_lt_arg ⟨m.c1.y, m.c1.x⟩
    have he : e = Shell.eulerAngles m := rfl
    simp only [Shell.eulerAngles, real_atan2, real_lt, real_zero, real_sub, real_mul, real_add, real_neg, real_sqrt,
      real_sin, real_cos, real_pi, decide_eq_true_eq] at he
    rw [← hρdef] at he
    by_cases hf : 0 < Complex.arg ⟨m.c1.y, m.c1.x⟩
    · simp only [hf, if_true] at he
      obtain ⟨hc, hs⟩ := arg_polar (x := -ρ) (y := -m.c1.z) (ρ := 1) zero_le_one (by linear_combination hρt)
      refine ⟨_, _, ?_, ?_, ?_, ?_, ?_, he⟩
      · linarith
      · linarith
      · rw [Real.sin_sub_pi]; linear_combination hx - Real.sin (Complex.arg ⟨m.c1.y, m.c1.x⟩) * hc
      · rw [Real.cos_sub_pi]; linear_combination hy - Real.cos (Complex.arg ⟨m.c1.y, m.c1.x⟩) * hc
      · linear_combination -hs
    · simp only [hf, if_false] at he
      obtain ⟨hc, hs⟩ := arg_polar (x := ρ) (y := -m.c1.z) (ρ := 1) zero_le_one (by linear_combination hρt)
      refine ⟨_, _, ?_, ?_, ?_, ?_, ?_, he⟩
      · linarith
      · linarith
      · linear_combination hx + Real.sin (Complex.arg ⟨m.c1.y, m.c1.x⟩) * hc
      · linear_combination hy + Real.cos (Complex.arg ⟨m.c1.y, m.c1.x⟩) * hc
      · linear_combination -hs
  obtain ⟨a0, a1, h0, h0', hx, hy, hz, he⟩ := key
  refine ⟨?_, by rw [he]; simpa using h0', by rw [he]; dsimp only; linarith⟩
  -- the third angle
  have sc0 := Real.sin_sq_add_cos_sq a0
  set v := Real.cos a0 * m.c0.x - Real.sin a0 * m.c0.y with hv
  set u := Real.sin a0 * m.c2.y - Real.cos a0 * m.c2.x with hu
  have hw : M3.mulVec (M3.transpose m) ⟨Real.cos a0, -Real.sin a0, 0⟩ = ⟨v, 0, -u⟩ := by
    ext
    · v3; rw [hv]; ring
    · v3; linear_combination Real.cos a0 * hx - Real.sin a0 * hy
    · v3; rw [hu]; ring
  have huv : v ^ 2 + u ^ 2 = 1 ^ 2 := by
    have := hm.transpose.dot_mulVec ⟨Real.cos a0, -Real.sin a0, 0⟩ ⟨Real.cos a0, -Real.sin a0, 0⟩
    rw [hw] at this
    simp only [dot3] at this
    linear_combination this + sc0
  obtain ⟨hc2, hs2⟩ := arg_polar zero_le_one huv
  rw [he]
  dsimp only
  generalize Complex.arg ⟨v, u⟩ = a2 at *
  rw [one_mul] at hc2 hs2
  -- the images of the frame
  have i0 : M3.mulVec m ⟨v, 0, -u⟩ = ⟨Real.cos a0, -Real.sin a0, 0⟩ := by rw [← hw, hm.mulVec_transpose]
  have i1 : M3.mulVec m ⟨0, 1, 0⟩ = m.c1 := by ext <;> v3 <;> ring
  have i2 : M3.mulVec m ⟨u, 0, v⟩ = ⟨Real.sin a0 * Real.sin a1, Real.cos a0 * Real.sin a1, Real.cos a1⟩ := by
    have hcr : V3.cross (⟨v, 0, -u⟩ : V3 ℝ) ⟨0, 1, 0⟩ = ⟨u, 0, v⟩ := by v3; congr 1 <;> ring
    rw [← hcr, hm.mulVec_cross, i0, i1]
    ext
    · v3; rw [hz]; ring
    · v3; rw [hz]; ring
    · v3; rw [hx, hy]; linear_combination Real.cos a1 * sc0
  rw [V3.ext_iff] at i0 i2
  obtain ⟨p0, p1, p2⟩ := i0
  obtain ⟨q0, q1, q2⟩ := i2
  simp only [M3.mulVec, real_add, real_mul] at p0 p1 p2 q0 q1 q2
  rw [fromAngles_eq]
  simp only [Real.cos_neg, Real.sin_neg]
  rw [← hc2, ← hs2]
  refine M3.ext ?_ ?_ ?_
  · ext
    · dsimp only; linear_combination -v * p0 - u * q0 + m.c0.x * huv
    · dsimp only; linear_combination -v * p1 - u * q1 + m.c0.y * huv
    · dsimp only; linear_combination -v * p2 - u * q2 + m.c0.z * huv
  · ext
    · dsimp only; linear_combination -hx
    · dsimp only; linear_combination -hy
    · dsimp only; linear_combination -hz
  · ext
    · dsimp only; linear_combination u * p0 - v * q0 + m.c2.x * huv
    · dsimp only; linear_combination u * p1 - v * q1 + m.c2.y * huv
    · dsimp only; linear_combination u * p2 - v * q2 + m.c2.z * huv

theorem Shell.relative_rebuild {f p : M3 ℝ} (hf : IsRotation f) (hp : IsRotation p) :
    let e := Shell.eulerAngles (M3.mul (M3.transpose f) p)
    M3.mul f (fromAngles e.x e.y e.z) = p ∧ 0 ≤ e.x ∧ e.x < Real.pi := by
  intro e
  obtain ⟨h1, h2, h3⟩ := Shell.eulerAngles_spec (hf.transpose.mul hp)
  refine ⟨?_, h2, h3⟩
  rw [h1]
  simp only [M3.mul]
  rw [hf.mulVec_transpose, hf.mulVec_transpose, hf.mulVec_transpose]

/-- **C56.**  For a rigid pose and a unit contact normal not parallel to the wheel axis, turning the contact
frame by the reported yaw (about z), camber (about the new x) and pitch (about the new y) gives the
orientation of the wheel. -/
theorem C56_shell {pol : Policy} {s : Shell ℝ} {p n : V3 ℝ} (hpose : IsRigid s.pose)
    (hp : s.contactPoint pol = .ok p) (hn : s.contactNormal pol = .ok n) (h1 : length3 n = 1)
    (hpar : ¬ Parallel3 s.pose.linear.c1 n) :
    ∃ f e, s.contactPointAffine pol = .ok f ∧ s.relativeAngles pol = .ok e ∧
      M3.mul f.linear (fromAngles e.x e.y e.z) = s.pose.linear ∧ 0 ≤ e.x ∧ e.x < Real.pi := by
  obtain ⟨f, hf, hs⟩ := C46_shell_frame hp hn h1 hpar
  refine ⟨f, _, hf, by rw [Shell.relativeAngles, hf]; rfl, ?_⟩
  exact Shell.relative_rebuild hs.rotation hpose

/-- **C56**, one rib: the same after adding the rib's angle to the reported first angle, from which the
code subtracts it. -/
theorem C56_rib {pol : Policy} {s : Shell ℝ} {i : Nat} {p n : V3 ℝ} {angle : ℝ} (hpose : IsRigid s.pose)
    (hp : s.contactPointAt pol i = .ok p) (hn : s.contactNormalAt pol i = .ok n) (h1 : length3 n = 1)
    (hpar : ¬ Parallel3 s.pose.linear.c1 n) (ha : s.ribAngle i = .ok angle) :
    ∃ f e, s.contactPointAffineAt pol i = .ok f ∧ s.relativeAnglesAt pol i = .ok e ∧
      M3.mul f.linear (fromAngles (e.x + angle) e.y e.z) = s.pose.linear ∧
      0 ≤ e.x + angle ∧ e.x + angle < Real.pi := by
  obtain ⟨f, hf, hs⟩ := C46_rib_frame hp hn h1 hpar
  cases hr : s.ribAt i with
  | throw m => rw [Shell.ribAngle, hr] at ha; cases ha
  | ub w => rw [Shell.ribAngle, hr] at ha; cases ha
  | ok r =>
    rw [Shell.ribAngle, hr] at ha
    have ha : r.angle = angle := Res.ok.inj ha
    refine ⟨f, _, hf, by rw [Shell.relativeAnglesAt, hf, Res.bind_ok, hr]; rfl, ?_⟩
    dsimp only
    rw [real_sub, ha, sub_add_cancel]
    exact Shell.relative_rebuild hs.rotation hpose

/-- The hypotheses of C56 are met. -/
example (fresh : Nat → Output ℝ) : ∃ (s' : Shell ℝ) (f : Affine ℝ) (e : V3 ℝ), s'.Reachable .raw ∧
    s'.contactPointAffine .raw = .ok f ∧ s'.relativeAngles .raw = .ok e ∧
    M3.mul f.linear (fromAngles e.x e.y e.z) = (Demo.upright 0).linear := by
  obtain ⟨s', hre, hpose, -, hp, hn, -⟩ := Demo.oneRib_frame fresh
  obtain ⟨f, e, h1, h2, h3, -⟩ := C56_shell (by rw [hpose]; exact Demo.upright_rigid 0) hp hn (by norm_num [length3]) (by
    rw [hpose]; intro h; have := h.1; norm_num [Demo.upright] at this)
  exact ⟨s', f, e, hre, h1, h2, by rw [← hpose]; exact h3⟩

end Enve
