import Verif.Props.MirrorProps
import Verif.Props.FrameProps
import Verif.Lemmas.YawedWheel

/-! # C100: what the relative angles of the wheel are -/

namespace Enve

open Scalar Spec

/-- The angles `e` of a wheel in the orientation `R` over ground with the unit normal `n`, where `X` is the direction
in the ground plane at right angles to the wheel axis (the x axis of the contact frame): no yaw; the camber is the
angle between the wheel axis and the ground plane; the pitch is the angle by which the wheel is turned about its axis,
measured from `X`. -/
structure Spec.WheelAngles (R : M3 ℝ) (n X e : V3 ℝ) : Prop where
  yaw : e.x = 0
  camber : e.y = Real.arcsin (dot3 n R.c1)
  turned : R.c0 = V3.sub (V3.smul (Real.cos e.z) X) (V3.smul (Real.sin e.z) (V3.cross X R.c1))
  lower : -Real.pi ≤ e.z
  upper : e.z < Real.pi

theorem Spec.WheelAngles.unique {R : M3 ℝ} {n X e e' : V3 ℝ} (hR : IsRotation R) (hX : length3 X = 1)
    (hXy : dot3 X R.c1 = 0) (h : WheelAngles R n X e) (h' : WheelAngles R n X e') : e = e' := by
  have hX1 : X.x ^ 2 + X.y ^ 2 + X.z ^ 2 = 1 := Real.sqrt_eq_one.1 hX
  have hu : R.c1.x ^ 2 + R.c1.y ^ 2 + R.c1.z ^ 2 = 1 := IsRotation.unit1 hR
  simp only [dot3] at hXy
  have key : ∀ {a : V3 ℝ}, WheelAngles R n X a → Real.cos a.z = dot3 R.c0 X ∧
      Real.sin a.z = -dot3 R.c0 (V3.cross X R.c1) := by
    intro a ha
    rw [ha.turned]
    simp only [V3.real_sub, V3.real_smul, V3.real_cross, dot3]
    constructor
    · linear_combination -Real.cos a.z * hX1
    · linear_combination Real.sin a.z * (-(R.c1.x ^ 2 + R.c1.y ^ 2 + R.c1.z ^ 2) * hX1 - hu +
        (X.x * R.c1.x + X.y * R.c1.y + X.z * R.c1.z) * hXy)
  obtain ⟨c1, s1⟩ := key h
  obtain ⟨c2, s2⟩ := key h'
  have hz : e.z = e'.z := by
    have hc : Real.cos (e.z - e'.z) = 1 := by
      rw [Real.cos_sub, c1, s1, ← c2, ← s2, ← sq, ← sq, Real.cos_sq_add_sin_sq]
    have h1 := h.lower; have h2 := h.upper; have h3 := h'.lower; have h4 := h'.upper
    have := (Real.cos_eq_one_iff_of_lt_of_lt (by linarith) (by linarith)).1 hc
    linarith
  ext
  · rw [h.yaw, h'.yaw]
  · rw [h.camber, h'.camber]
  · exact hz

/-- The relative angles for a contact frame. -/
theorem Shell.eulerAngles_frame {n p : V3 ℝ} {f : Affine ℝ} {R : M3 ℝ} (hR : IsRotation R)
    (hf : IsContactFrame R.c1 n p f) :
    WheelAngles R n f.linear.c0 (Shell.eulerAngles (M3.mul (M3.transpose f.linear) R)) := by
  set m := M3.mul (M3.transpose f.linear) R with hm
  have hmx : m.c1.x = 0 := by
    rw [← hf.x_axis, hm]; simp only [M3.mul, M3.transpose, M3.mulVec, real_add, real_mul, dot3]
  have hmy : m.c1.y = dot3 f.linear.c1 R.c1 := by
    rw [hm]; simp only [M3.mul, M3.transpose, M3.mulVec, real_add, real_mul, dot3]
  have hmz : m.c1.z = dot3 n R.c1 := by
    rw [hm, ← hf.z_axis]; simp only [M3.mul, M3.transpose, M3.mulVec, real_add, real_mul, dot3]
  have hpos : 0 < m.c1.y := by rw [hmy]; exact hf.y_axis
  have hrot : IsRotation m := hf.rotation.transpose.mul hR
  obtain ⟨hreb, -, -⟩ := Shell.eulerAngles_spec hrot
  have harg : Complex.arg ⟨m.c1.y, m.c1.x⟩ = 0 := by
    rw [hmx, Complex.arg_eq_zero_iff]; exact ⟨hpos.le, rfl⟩
  have hx : (Shell.eulerAngles m).x = 0 := by
    simp [Shell.eulerAngles, harg]
  have hρ : 0 < Real.sqrt (m.c2.z * m.c2.z + m.c0.z * m.c0.z) := by
    obtain ⟨⟨-, -, hr2⟩, -⟩ := hrot.rows
    have hu1 : m.c1.x ^ 2 + m.c1.y ^ 2 + m.c1.z ^ 2 = 1 := IsRotation.unit1 hrot
    rw [hmx] at hu1
    refine Real.sqrt_pos.2 ?_
    nlinarith [sq_pos_of_pos hpos]
  have hy : (Shell.eulerAngles m).y =
      -Complex.arg ⟨Real.sqrt (m.c2.z * m.c2.z + m.c0.z * m.c0.z), -m.c1.z⟩ := by
    simp [Shell.eulerAngles, harg]
  have hz : ∃ w : ℂ, (Shell.eulerAngles m).z = -Complex.arg w := ⟨_, rfl⟩
  set e := Shell.eulerAngles m with he
  rw [hx, fromAngles_eq] at hreb
  simp only [Real.cos_zero, Real.sin_zero, one_mul, zero_mul, sub_zero, zero_add, neg_zero, add_zero, zero_sub] at hreb
  refine ⟨hx, ?_, ?_, ?_, ?_⟩
  · have hs : Real.sin e.y = dot3 n R.c1 := by
      rw [← hmz, ← hreb]
    rw [← hs, Real.arcsin_sin]
    · rw [hy]
      have := (abs_lt.1 (Complex.abs_arg_lt_pi_div_two_iff (z := ⟨Real.sqrt (m.c2.z * m.c2.z + m.c0.z * m.c0.z), -m.c1.z⟩).2 (.inl hρ))).2
      linarith
    · rw [hy]
      have := (abs_lt.1 (Complex.abs_arg_lt_pi_div_two_iff (z := ⟨Real.sqrt (m.c2.z * m.c2.z + m.c0.z * m.c0.z), -m.c1.z⟩).2 (.inl hρ))).1
      linarith
  · have h0 : M3.mulVec f.linear m.c0 = R.c0 := by rw [hm]; simp only [M3.mul]; rw [hf.rotation.mulVec_transpose]
    have h1 : M3.mulVec f.linear m.c1 = R.c1 := by rw [hm]; simp only [M3.mul]; rw [hf.rotation.mulVec_transpose]
    have hX : f.linear.c0 = M3.mulVec f.linear ⟨1, 0, 0⟩ := by ext <;> v3 <;> ring
    rw [← h1, hX, ← hf.rotation.mulVec_cross, ← h0, ← hreb]
    simp only [V3.real_cross, V3.real_sub, V3.real_smul, M3.mulVec, real_add, real_mul]
    congr 1 <;> ring
  · obtain ⟨w, hw⟩ := hz
    rw [hw]; linarith [Complex.arg_le_pi w]
  · obtain ⟨w, hw⟩ := hz
    rw [hw]; linarith [Complex.neg_pi_lt_arg w]

/-- **C100 for the whole tyre.** -/
theorem C100_shell_partial {pol : Policy} {s : Shell ℝ} {p n : V3 ℝ} (hpose : IsRigid s.pose)
    (hp : s.contactPoint pol = .ok p) (hn : s.contactNormal pol = .ok n) (h1 : length3 n = 1)
    (hpar : ¬ Parallel3 s.pose.linear.c1 n) :
    ∃ f e, s.contactPointAffine pol = .ok f ∧ s.relativeAngles pol = .ok e ∧
      WheelAngles s.pose.linear n f.linear.c0 e := by
  obtain ⟨f, hf, hs⟩ := C46_shell_frame hp hn h1 hpar
  exact ⟨f, _, hf, by rw [Shell.relativeAngles, hf]; rfl, Shell.eulerAngles_frame hpose hs⟩

/-- **C100 for one rib**: the code subtracts the angle of the rib from the first of the angles. -/
theorem C100_rib_partial {pol : Policy} {s : Shell ℝ} {i : Nat} {p n : V3 ℝ} {angle : ℝ} (hpose : IsRigid s.pose)
    (hp : s.contactPointAt pol i = .ok p) (hn : s.contactNormalAt pol i = .ok n) (h1 : length3 n = 1)
    (hpar : ¬ Parallel3 s.pose.linear.c1 n) (ha : s.ribAngle i = .ok angle) :
    ∃ f e, s.contactPointAffineAt pol i = .ok f ∧ s.relativeAnglesAt pol i = .ok e ∧
      WheelAngles s.pose.linear n f.linear.c0 ⟨e.x + angle, e.y, e.z⟩ := by
  obtain ⟨f, hf, hs⟩ := C46_rib_frame hp hn h1 hpar
  cases hr : s.ribAt i with
  | throw m => rw [Shell.ribAngle, hr] at ha; cases ha
  | ub w => rw [Shell.ribAngle, hr] at ha; cases ha
  | ok r =>
    rw [Shell.ribAngle, hr] at ha
    have ha : r.angle = angle := Res.ok.inj ha
    refine ⟨f, _, hf, by rw [Shell.relativeAnglesAt, hf, Res.bind_ok, hr]; rfl, ?_⟩
    dsimp only
    rw [real_sub, ha, sub_add_cancel]
    exact Shell.eulerAngles_frame hpose hs

/-- **C100, mirrored scenes**: the camber changes its sign, the pitch stays. -/
theorem C100_mirror_partial {pol : Policy} {s s' : Shell ℝ} (h : MirrorShell pol s s') {p n : V3 ℝ} (hpose : IsRigid s.pose)
    (hp : s.contactPoint pol = .ok p) (hn : s.contactNormal pol = .ok n) (h1 : length3 n = 1)
    (hpar : ¬ Parallel3 s.pose.linear.c1 n) :
    ∃ e, s.relativeAngles pol = .ok e ∧ s'.relativeAngles pol = .ok ⟨e.x, -e.y, e.z⟩ := by
  obtain ⟨-, -, ⟨p₂, a1, a2⟩, ⟨n₂, b1, b2⟩, ⟨F, c1, c2⟩, -⟩ := C99_values h
  rw [hp] at a1; rw [hn] at b1
  cases a1; cases b1
  obtain ⟨f, e, f1, f2, f3⟩ := C100_shell_partial hpose hp hn h1 hpar
  have hpose' : IsRigid s'.pose := by rw [h.pose]; exact mirrorPose_rigid hpose
  have h1' : length3 (mirror n) = 1 := by
    rw [← h1]; unfold length3; simp [mirror]
  have hpar' : ¬ Parallel3 s'.pose.linear.c1 (mirror n) := by
    rw [h.pose]
    intro hc
    apply hpar
    simp only [Parallel3, mirrorPose, mirror] at hc ⊢
    obtain ⟨k1, k2, k3⟩ := hc
    exact ⟨by linarith, by linarith, by linarith⟩
  obtain ⟨f', e', g1, g2, g3⟩ := C100_shell_partial hpose' a2 b2 h1' hpar'
  obtain ⟨f₂, hf₂, hs₂⟩ := C46_shell_frame a2 b2 h1' hpar'
  refine ⟨e, f2, ?_⟩
  rw [g2]
  congr 1
  rw [g1] at hf₂ c2
  cases hf₂
  have hF : f' = mirrorPose f := by rw [c1] at f1; cases f1; exact Res.ok.inj c2
  refine WheelAngles.unique (R := s'.pose.linear) (n := mirror n) (X := f'.linear.c0) hpose' ?_ hs₂.x_axis g3 ?_
  · exact Real.sqrt_eq_one.2 hs₂.rotation.unit0
  · refine ⟨f3.yaw, ?_, ?_, f3.lower, f3.upper⟩
    · rw [f3.camber, ← Real.arcsin_neg, h.pose]
      simp only [dot3, mirrorPose, mirror]
      congr 1; ring
    · have := f3.turned
      rw [hF, h.pose]
      simp only [mirrorPose]
      rw [this]
      simp only [V3.real_sub, V3.real_smul, V3.real_cross, mirror]
      congr 1 <;> ring

/-- The hypotheses of C100 are met: a wheel on a level road. -/
example (fresh : Nat → Output ℝ) : ∃ (s' : Shell ℝ) (f : Affine ℝ) (e : V3 ℝ), s'.Reachable .raw ∧
    s'.contactPointAffine .raw = .ok f ∧ s'.relativeAngles .raw = .ok e ∧
    WheelAngles s'.pose.linear ⟨0, 0, 1⟩ f.linear.c0 e ∧ e.x = 0 ∧ e.y = 0 := by
  obtain ⟨s', hre, hpose, hsz, hp, hn, -⟩ := Demo.oneRib_frame fresh
  obtain ⟨f, e, h1, h2, h3⟩ := C100_shell_partial (by rw [hpose]; exact Demo.upright_rigid 0) hp hn
    (by norm_num [length3]) (by rw [hpose]; intro h; have := h.1; norm_num [Demo.upright] at this)
  refine ⟨s', f, e, hre, h1, h2, h3, h3.yaw, ?_⟩
  rw [h3.camber, hpose]
  norm_num [Demo.upright, dot3]

/-! ## Doubles -/

/-- A rounded number is not rounded again. -/
theorem B64.round_round {a : XR} {y : ℝ} (h : B64.round a = .fin y) : B64.round (.fin y) = .fin y := by
  cases a with
  | fin x =>
    rw [B64.round_def] at h
    split_ifs at h with h1 h2
    · cases h
    · cases h
    · obtain rfl : B64.near x = y := by cases h; rfl
      have hr := B64.rep_near x
      exact B64.round_fin_of (le_antisymm (B64.near_le hr le_rfl) (B64.near_neg_le hr le_rfl))
        (abs_lt.2 ⟨by linarith, by linarith⟩)
  | pinf => cases h
  | ninf => cases h
  | nan => cases h

/-- The entries of `m` are the entries of `R`, each rounded to the nearest double. -/
def Spec.RoundedMatrix (R : M3 ℝ) (m : M3 B64) : Prop :=
  m = ⟨⟨B64.round (.fin R.c0.x), B64.round (.fin R.c0.y), B64.round (.fin R.c0.z)⟩,
    ⟨B64.round (.fin R.c1.x), B64.round (.fin R.c1.y), B64.round (.fin R.c1.z)⟩,
    ⟨B64.round (.fin R.c2.x), B64.round (.fin R.c2.y), B64.round (.fin R.c2.z)⟩⟩

theorem Yawed.exact_rotation : IsRotation Yawed.exact := by
  refine ⟨?_, ?_, ?_, ?_, ?_, ?_, ?_⟩ <;> norm_num [Yawed.exact]

theorem Yawed.exact_rounded : RoundedMatrix Yawed.exact Yawed.pose.linear := by
  simp only [RoundedMatrix, Yawed.exact, Yawed.round_s, Yawed.round_c, Yawed.round_ms, DoubleDemo.r0, DoubleDemo.r1]
  rfl

/-- **C100 is false in double arithmetic.**  An upright wheel, yawed by the angle with the sine 51/149 and the cosine
140/149, stands on a level road: the yaw it reports relative to the contact frame is at least 3. -/
theorem C100_double_refuted (fresh : Nat → Output B64) :
    ∃ (s s' : Shell B64) (road : Flat B64) (pose : Affine B64) (R : M3 ℝ) (e : V3 B64) (yaw : ℝ),
      Shell.make fresh 1 (.fin 1) (.fin 1) (.fin 1) (.fin 2) (.fin 1) = .ok s ∧
      Flat.make (.fin 1) ⟨.fin 0, .fin 0, .fin 0⟩ ⟨.fin 0, .fin 0, .fin 1⟩ = .ok road ∧
      IsRotation R ∧ R.c1.z = 0 ∧ RoundedMatrix R pose.linear ∧
      s.setupFlat .raw road pose "sampling" = .ok s' true ∧
      s'.contactNormal .raw = .ok ⟨.fin 0, .fin 0, .fin 1⟩ ∧
      s'.relativeAngles .raw = .ok e ∧ e.x = .fin yaw ∧ 3 ≤ yaw := by
  obtain ⟨s, hs, -, hribs⟩ := DoubleDemo.shell fresh
  have hsz : s.size = 1 := by show s.ribs.length = 1; rw [hribs]; rfl
  obtain ⟨s', b, hset⟩ := Shell.setupFlat_total (.make hs) (by omega) Yawed.road Yawed.pose (method := "sampling")
    (.inr rfl)
  obtain ⟨flags, recs, h1, h2, -⟩ := C38_flat_flag_partial .raw s s' _ _ _ b hset
  obtain ⟨r, hr, he, hread⟩ := h1 0 (by omega)
  have hpose : s'.pose = Yawed.pose ∧ s'.ribs = s.ribs := by
    unfold Shell.setupFlat Shell.withOut at hset
    dsimp only at hset
    split at hset
    · cases hset; exact ⟨rfl, rfl⟩
    · cases hset
    · cases hset
  obtain ⟨hpose, hribs'⟩ := hpose
  have hsz' : s'.size = 1 := by show s'.ribs.length = 1; rw [hribs']; exact hsz
  obtain rfl : r = Yawed.rib := by
    rw [hribs', hribs] at hr; exact (Option.some.inj hr).symm
  obtain ⟨hc1, hc2, hc3⟩ := Yawed.contact
  have he' : Yawed.rib.envelopSamplingFlat Yawed.road Yawed.pose = (flags 0, recs 0) := Res.ok.inj he
  rw [he'] at hc1 hc2 hc3
  dsimp only at hc1 hc2 hc3
  have hrep : Reports .raw s' recs := by
    rw [Shell.reports_iff]
    intro i hi
    obtain rfl : i = 0 := by omega
    exact hread
  have hrecs : s'.records .raw = .ok [recs 0] := by
    rw [Shell.records_of_reports hrep, hsz']; rfl
  obtain ⟨-, v, hv⟩ := C95_values_partial (R := 1) (w := 2) (d := 1 / 2) B64.rep_one
    ⟨1, -1, by norm_num, by norm_num, by norm_num⟩ one_pos (by norm_num) (by norm_num) (by norm_num) (by norm_num)
    (by norm_num)
  have hv' : (recs 0).volume = .fin v := hc3.trans hv
  have hvr : B64.round (.fin v) = .fin v := B64.round_round (a := _) hv
  have hvol : s'.contactVolume .raw = .ok (.fin v) := by
    rw [Shell.contactVolume, hrecs, Res.bind_ok, Res.pure_eq]
    simp only [List.foldl_cons, List.foldl_nil, hv', B64.zero_eq, B64.add_fin, zero_add, hvr]
  have hunit : V3.normalized (⟨.fin 0, .fin 0, .fin 1⟩ : V3 B64) = ⟨.fin 0, .fin 0, .fin 1⟩ := by
    have : V3.normalized (⟨Yawed.v0, Yawed.v0, Yawed.v1⟩ : V3 B64) = ⟨Yawed.v0, Yawed.v0, Yawed.v1⟩ :=
      Yawed.unit
    exact this
  have hn : s'.contactNormal .raw = .ok ⟨.fin 0, .fin 0, .fin 1⟩ := by
    have hn0 : (recs 0).normal = ⟨.fin 0, .fin 0, .fin 1⟩ := hc2
    rw [Shell.contactNormal, hvol, Res.bind_ok, hrecs, Res.bind_ok]
    simp only [List.foldl_cons, List.foldl_nil, hsz', DoubleDemo.nat1, hv', hn0, V3.zeros, B64.zero_eq, V3.add, V3.smul,
      V3.sdiv, B64.add_fin, B64.mul_fin, zero_add, mul_zero, mul_one, DoubleDemo.r0, DoubleDemo.r1, hvr]
    have heps : ((.fin v : B64) <. Scalar.eps) = decide (v < Scalar.eps) := rfl
    rw [heps]
    by_cases h : v < Scalar.eps
    · rw [if_pos (decide_eq_true h), B64.div_fin _ one_ne_zero, B64.div_fin _ one_ne_zero, zero_div, div_one,
        DoubleDemo.r0, DoubleDemo.r1, hunit]
      rfl
    · have hv0 : v ≠ 0 := by have := real_eps_pos; intro h0; apply h; rw [h0]; exact this
      rw [if_neg (by simpa using h), B64.div_fin _ hv0, B64.div_fin _ hv0, zero_div, div_self hv0,
        DoubleDemo.r0, DoubleDemo.r1, hunit]
      rfl
  obtain ⟨p, hp⟩ : ∃ p, s'.contactPoint .raw = .ok p := by
    rw [Shell.contactPoint, hvol, Res.bind_ok, hrecs, Res.bind_ok]
    split_ifs <;> exact ⟨_, rfl⟩
  obtain ⟨y, hy, hy3⟩ := Yawed.yaw _ (Yawed.axis p)
  refine ⟨s, s', Yawed.road, Yawed.pose, Yawed.exact, _, y, hs, ?_, Yawed.exact_rotation, rfl, Yawed.exact_rounded, ?_, hn, ?_,
    hy, hy3⟩
  · have := Yawed.road_make
    rwa [V3.zeros, V3.ez, B64.zero_eq, B64.one_eq] at this
  · rw [hset, h2, hsz]; simp [hc1]
  · rw [Shell.relativeAngles, Shell.contactPointAffine, hp, Res.bind_ok, hn, Res.bind_ok, Res.pure_eq, Res.bind_ok,
      Shell.yAxis, hpose]
    rfl

end Enve
