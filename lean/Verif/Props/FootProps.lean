import Verif.Props.OneFrictionProps
import Verif.Props.InsideProps

/-! # C149: on flat ground the contact point of the tyre lies on the ground, on level ground straight below the wheel -/

namespace Enve
open Scalar Spec

namespace Foot

/-- A rib in contact with flat ground reports a point of the ground. -/
theorem onPlane {r : Rib ℝ} (hr : IsRib r) {pose : Affine ℝ} (hp : IsRigid pose) {f : ℝ} {og n : V3 ℝ} {g : Flat ℝ}
    (hg : Flat.make f og n = .ok g) {method : String} {o : Output ℝ} (h : r.envelopFlat g pose method = .ok (true, o)) :
    OnPlane g.plane o.point := by
  by_cases hme : method = "geometric"
  · subst hme
    have h : r.envelopGeometricFlat g pose = (true, o) := by simpa [Rib.envelopFlat] using h
    have hc := C32_contact hr hp hg (by rw [h])
    rw [h] at hc
    exact hc.1.1
  · by_cases hms : method = "sampling"
    · subst hms
      have h : r.envelopSampling (Rib.samplingLineFlat g) pose = (true, o) := by
        simpa [Rib.envelopFlat, Rib.envelopSamplingFlat] using h
      have hs : ∀ l p f', Rib.samplingLineFlat g l = some (p, f') → OnPlane g.plane p := by
        intro l p f' hl
        rw [Rib.samplingLineFlat, Option.map_eq_some_iff] at hl
        obtain ⟨q, hq, he⟩ := hl
        obtain ⟨rfl, -⟩ := Prod.mk.inj he
        exact ((C49_line_plane l g.plane Scalar.eps real_eps_pos.le).2 _ hq).2.1
      unfold Rib.envelopSampling at h
      split at h
      · rename_i p0 f0 p1 f1 p2 f2 p3 f3 e0 e1 e2 e3
        dsimp only at h
        split at h
        · have h := (Prod.mk.inj h).2
          have h0 := hs _ _ _ e0; have h1 := hs _ _ _ e1; have h2 := hs _ _ _ e2; have h3 := hs _ _ _ e3
          rw [← h]
          simp only [OnPlane, dot3, minus, V3.sdiv, V3.add, real_add, real_div, real_lit] at h0 h1 h2 h3 ⊢
          norm_num
          linear_combination (h0 + h1 + h2 + h3) / 4
        · cases (Prod.mk.inj h).1
      · cases (Prod.mk.inj h).1
    · simp [Rib.envelopFlat, hme, hms] at h

/-- The records of the ribs on flat ground. -/
theorem records {pol : Policy} {s s' : Shell ℝ} {pose : Affine ℝ} {g : Flat ℝ} {method : String} {b : Bool}
    (h : s.setupFlat pol g pose method = .ok s' b) {o : Nat → Output ℝ} (ho : Reports pol s' o) :
    s'.size = s.size ∧ ∀ i < s'.size, ∃ r c, s.ribs[i]? = some r ∧ r.envelopFlat g pose method = .ok (c, o i) := by
  have hrel : Shell.SetupRel s s' pose := Shell.setupFlat_rel (.inl ⟨_, h⟩)
  have hsize : s'.size = s.size := by rw [Shell.size, hrel.ribs]; rfl
  refine ⟨hsize, fun i hi => ?_⟩
  obtain ⟨flags, recs, k1, -⟩ := C38_flat_flag_partial pol s s' g pose method b h
  obtain ⟨r, a, c, e⟩ := k1 i (by omega)
  rw [Res.ok.inj ((Shell.reports_iff.1 ho i hi).symm.trans e)]
  rw [hrel.ribs] at a
  exact ⟨r, flags i, a, c⟩

/-- A weighted mean of values that are `c` wherever the weight is not zero, up to values whose weighted sum is zero. -/
theorem mean {n : Nat} {v x y : Nat → ℝ} {A B : ℝ} (hV : 0 < ∑ i ∈ Finset.range n, v i) (hx : ∀ i < n, v i ≠ 0 → x i = A + B * y i)
    (hy : ∑ i ∈ Finset.range n, v i * y i = 0) : (∑ i ∈ Finset.range n, v i * x i) / ∑ i ∈ Finset.range n, v i = A := by
  have e : ∀ i ∈ Finset.range n, v i * x i = A * v i + B * (v i * y i) := by
    intro i hi
    rcases eq_or_ne (v i) 0 with h0 | h0
    · simp [h0]
    · rw [hx i (Finset.mem_range.1 hi) h0]; ring
  rw [Finset.sum_congr rfl e, Finset.sum_add_distrib, ← Finset.mul_sum, ← Finset.mul_sum, hy, mul_zero, add_zero, mul_div_assoc,
    div_self hV.ne', mul_one]

end Foot

/-- **C149, on the ground (partial).**  A tyre set up on flat ground, at any pose and with either method: if the total volume reaches the
threshold, the contact point is a point of the ground. -/
theorem C149_plane_partial {pol : Policy} {s s' : Shell ℝ} (hs : s.Reachable pol) {pose : Affine ℝ} (hp : IsRigid pose) {f : ℝ}
    {og n : V3 ℝ} {g : Flat ℝ} (hg : Flat.make f og n = .ok g) {method : String} {b : Bool}
    (h : s.setupFlat pol g pose method = .ok s' b) {v : ℝ} (hv : s'.contactVolume pol = .ok v) (hheavy : Scalar.eps ≤ v) :
    ∃ p, s'.contactPoint pol = .ok p ∧ OnPlane g.plane p := by
  obtain ⟨o, ho, hvol⟩ := C43_after_setup hs hp (.inr ⟨f, og, n, g, hg, h⟩ : SetUp pol s pose method s' b)
  obtain ⟨hsize, hrec⟩ := Foot.records h ho
  have hV : v = ∑ i ∈ Finset.range s'.size, (o i).volume := by
    rw [C42_total_real ho] at hv; exact (Res.ok.inj hv).symm
  have heps := real_eps_pos
  have hpos : 0 < ∑ i ∈ Finset.range s'.size, (o i).volume := by linarith
  have hn : 1 ≤ s'.size := by
    by_contra hn
    have : s'.size = 0 := by omega
    rw [this] at hpos
    simp at hpos
  have hlt : ¬ ∑ i ∈ Finset.range s'.size, (o i).volume < Scalar.eps := by rw [← hV]; exact not_lt.2 hheavy
  obtain ⟨-, -, h3, -⟩ := C43_average ho hn hvol
  refine ⟨_, h3, ?_⟩
  have hon : ∀ i < s'.size, (o i).volume ≠ 0 → OnPlane g.plane (o i).point := by
    intro i hi h0
    obtain ⟨r, c, a, e⟩ := hrec i hi
    have hr := hs.isRib r (List.mem_of_getElem? a)
    cases c with
    | false => rw [Rib.envelopFlat_false e] at h0; simp [Rib.noContact] at h0
    | true => exact Foot.onPlane hr hp hg e
  have key := Foot.mean (A := dot3 g.plane.origin g.plane.normal) (B := 0) (y := fun _ => 0)
    (x := fun i => dot3 (o i).point g.plane.normal) hpos (fun i hi h0 => by
      have := hon i hi h0
      simp only [OnPlane, dot3, minus] at this ⊢
      linarith) (by simp)
  rw [ribWeight_heavy hlt fun i => (o i).point.x, ribWeight_heavy hlt fun i => (o i).point.y, ribWeight_heavy hlt fun i => (o i).point.z]
  have e : ∑ i ∈ Finset.range s'.size, (o i).volume * dot3 (o i).point g.plane.normal =
      (∑ i ∈ Finset.range s'.size, (o i).volume * (o i).point.x) * g.plane.normal.x +
      (∑ i ∈ Finset.range s'.size, (o i).volume * (o i).point.y) * g.plane.normal.y +
      (∑ i ∈ Finset.range s'.size, (o i).volume * (o i).point.z) * g.plane.normal.z := by
    rw [Finset.sum_mul, Finset.sum_mul, Finset.sum_mul, ← Finset.sum_add_distrib, ← Finset.sum_add_distrib]
    refine Finset.sum_congr rfl fun i _ => ?_
    simp only [dot3]; ring
  rw [e] at key
  simp only [OnPlane, dot3, minus] at key ⊢
  rw [div_eq_iff hpos.ne'] at key
  field_simp
  linear_combination key

namespace Foot

/-- What a rib of radius `ρ` and width `w` at height `h` over level ground has as contact volume, by method. -/
noncomputable def levelVolume (method : String) (h w ρ : ℝ) : ℝ :=
  if method = "geometric" then
    if Scalar.eps ≤ ρ ^ 2 - h ^ 2 ∧ Scalar.eps < 2 * Real.sqrt (ρ ^ 2 - h ^ 2) then Rib.depthVolume ρ w (ρ - |h|) else 0
  else if h - ρ < 0 then Rib.depthVolume ρ w (ρ - h) else 0

/-- A rib of a wheel with level axis over level ground. -/
theorem level {r : Rib ℝ} (hr : IsRib r) {pose : Affine ℝ} (hp : IsRigid pose) (hax : pose.linear.c1.z = 0) {f : ℝ} {og n : V3 ℝ}
    {g : Flat ℝ} (hg : Flat.make f og n = .ok g) (hx : n.x = 0) (hy : n.y = 0) {method : String} {c : Bool} {o : Output ℝ}
    (hme : method = "geometric" ∨ (pose.linear.c2 = ⟨0, 0, 1⟩ ∧ og.z ≤ pose.trans.z ∧ 0 < r.width))
    (h : r.envelopFlat g pose method = .ok (c, o)) :
    o.volume = levelVolume method (pose.trans.z - og.z) r.width r.radius ∧
    (o.volume ≠ 0 → o.point = ⟨pose.trans.x + pose.linear.c1.x * r.y, pose.trans.y + pose.linear.c1.y * r.y, og.z⟩) := by
  have hR : 0 < r.radius := hr.radius_pos
  obtain ⟨g1, g2, g3⟩ := Flat.make_horizontal hg hx hy
  have hcen : ribCentre pose r = pose.apply ⟨0, r.y, 0⟩ := by
    rw [ribCentre, show r.center = ⟨0, r.y, 0⟩ from hr.center]
  have hc : pose.apply ⟨0, r.y, 0⟩ = ⟨pose.trans.x + pose.linear.c1.x * r.y, pose.trans.y + pose.linear.c1.y * r.y, pose.trans.z⟩ := by
    simp only [Affine.apply]
    ext <;> v3 <;> simp [hax] <;> ring
  by_cases hgm : method = "geometric"
  · subst hgm
    have h : r.envelopGeometricFlat g pose = (c, o) := by simpa [Rib.envelopFlat] using h
    have hS : sinSq g.plane.normal pose.linear.c1 = 1 := by rw [g1]; simp [sinSq, dot3, hax]
    have hH : height g.plane (ribCentre pose r) = pose.trans.z - og.z := by
      rw [hcen, hc, height, g1, g2]; simp [dot3, minus]
    have hcon : FlatContact g.plane pose r ↔ Scalar.eps ≤ r.radius ^ 2 - (pose.trans.z - og.z) ^ 2 ∧
        Scalar.eps < 2 * Real.sqrt (r.radius ^ 2 - (pose.trans.z - og.z) ^ 2) := by
      unfold FlatContact
      dsimp only
      rw [hS, hH, one_mul, div_one]
      have := real_eps_lt_one
      exact ⟨fun h => h.2, fun h => ⟨this.le, h⟩⟩
    rcases Rib.geometricFlat_closed hr hp (Flat.make_unit hg) with ⟨h1, h2⟩ | ⟨h1, h2⟩
    · rw [h2] at h
      rw [← (Prod.mk.inj h).2]
      dsimp only
      refine ⟨?_, fun _ => ?_⟩
      · rw [levelVolume, if_pos rfl, if_pos (hcon.1 h1), sectionDepth, hS, hH, Real.sqrt_one, div_one]
      · rw [sectionFoot, hS, hH, hcen, hc, g1]
        simp [along, minus, dot3, hax]
    · rw [h2] at h
      rw [← (Prod.mk.inj h).2]
      refine ⟨?_, fun h0 => absurd (by simp [Rib.noContact]) h0⟩
      rw [levelVolume, if_pos rfl, if_neg (fun h => h1 (hcon.2 h))]
      simp [Rib.noContact]
  · obtain ⟨hup, habove, hw⟩ := hme.resolve_left hgm
    have hms : method = "sampling" := by
      by_contra hms
      simp [Rib.envelopFlat, hgm, hms] at h
    subst hms
    have h : r.envelopSamplingFlat g pose = (c, o) := by simpa [Rib.envelopFlat] using h
    obtain ⟨-, -, k3, k4⟩ := C60_sampling_flat hr hw hp hup hg hx hy (by rw [hc]; exact habove)
    rw [h, hc] at k3 k4
    dsimp only at k3 k4
    cases c with
    | false =>
      have e : r.envelopFlat g pose "sampling" = .ok (false, o) := by simp [Rib.envelopFlat, h]
      rw [Rib.envelopFlat_false e]
      refine ⟨?_, fun h0 => absurd (by simp [Rib.noContact]) h0⟩
      rw [levelVolume, if_neg hgm, if_neg (fun hlt => by
        have := k3.2 (by linarith)
        cases this)]
      simp [Rib.noContact]
    | true =>
      have h1 := k3.1 rfl
      obtain ⟨h2, h3, -⟩ := k4 rfl
      obtain ⟨-, -, -, h4⟩ := Rib.envelopSampling_record hR h
      refine ⟨?_, fun _ => h3⟩
      rw [levelVolume, if_neg hgm, if_pos (by linarith), h4, h2]
      congr 1
      ring

end Foot

/-- **C149, below the wheel (partial).**  A new tyre whose axis is level, on level flat ground, at any heading, with the geometric method at
any angle of rotation: if the total volume reaches the threshold, the contact point is on the ground straight below the centre of the wheel.
With the sampling method for an upright wheel that is not turned about its axis and whose centre is above the ground. -/
theorem C149_below_partial {fresh : Nat → Output ℝ} {k : Nat} (hk : 1 ≤ k) {rx mx ry my ly : ℝ} (hprof : ValidProfile rx mx ry my ly)
    {s s' : Shell ℝ} (hmake : Shell.make fresh k rx mx ry my ly = .ok s) {pol : Policy} {pose : Affine ℝ} (hp : IsRigid pose)
    (hax : pose.linear.c1.z = 0) {f : ℝ} {og n : V3 ℝ} {g : Flat ℝ} (hg : Flat.make f og n = .ok g) (hx : n.x = 0) (hy : n.y = 0)
    {method : String} (hme : method = "geometric" ∨ (pose.linear.c2 = ⟨0, 0, 1⟩ ∧ og.z ≤ pose.trans.z)) {b : Bool}
    (h : s.setupFlat pol g pose method = .ok s' b) {v : ℝ} (hv : s'.contactVolume pol = .ok v) (hheavy : Scalar.eps ≤ v) :
    s'.contactPoint pol = .ok ⟨pose.trans.x, pose.trans.y, og.z⟩ := by
  have hs : s.Reachable pol := .make hmake
  obtain ⟨o, ho, hvol⟩ := C43_after_setup hs hp (.inr ⟨f, og, n, g, hg, h⟩ : SetUp pol s pose method s' b)
  obtain ⟨hsize, hrec⟩ := Foot.records h ho
  obtain ⟨s1, e1, hsz, -, -, hrb, -⟩ := C04_construct fresh k hk rx mx ry my ly hprof
  rw [hmake] at e1
  cases e1
  rw [hsz] at hsize
  have hk0 : (k : ℝ) ≠ 0 := by positivity
  have hly := hprof.ly_pos
  set y : Nat → ℝ := fun i => -ly + (2 * i + 1) * ly / k with hyd
  have hyr : ∀ i < k, y (k - 1 - i) = - y i := by
    intro i hi
    have e : ((k - 1 - i : Nat) : ℝ) = k - 1 - i := by
      rw [Nat.sub_sub, Nat.cast_sub (by omega)]; push_cast; ring
    simp only [hyd, e]
    field_simp
    ring
  -- the ribs
  have hone : ∀ i < k, (o i).volume = Foot.levelVolume method (pose.trans.z - og.z) (2 * ly / k) (radAt rx mx ry my (y i)) ∧
      ((o i).volume ≠ 0 → (o i).point = ⟨pose.trans.x + pose.linear.c1.x * y i, pose.trans.y + pose.linear.c1.y * y i, og.z⟩) := by
    intro i hi
    obtain ⟨r, c, a, e⟩ := hrec i (by omega)
    obtain ⟨ρ, -, hc, hw, hrad, hon⟩ := hrb i hi
    simp only [Shell.ribCenter, Shell.ribWidth, Shell.ribRadius, Shell.ribAt, a, Res.bind_ok, Res.pure_eq, Res.ok.injEq] at hc hw hrad
    have hr := hs.isRib r (List.mem_of_getElem? a)
    have hyi : r.y = y i := by
      have := (show r.center = ⟨0, r.y, 0⟩ from hr.center).symm.trans hc
      exact (V3.mk.inj this).2.1
    have hya : |y i| ≤ ly := (Shell.real_centre_abs hly hi).le
    have hwpos : 0 < r.width := by rw [hw]; positivity
    have := Foot.level hr hp hax hg hx hy (hme.imp id fun h => ⟨h.1, h.2, hwpos⟩) e
    rw [hyi, hw, hrad, (radAt_profile hprof hya ρ).1 hon] at this
    exact this
  have hsym : ∀ i < k, (o (k - 1 - i)).volume = (o i).volume := by
    intro i hi
    rw [(hone i hi).1, (hone (k - 1 - i) (by omega)).1, hyr i hi]
    congr 1
    have hya : |y i| ≤ ly := (Shell.real_centre_abs hly hi).le
    refine ((radAt_profile hprof (y := y i) hya _).1 ?_)
    have := (radAt_profile hprof (y := -y i) (by rw [abs_neg]; exact hya) _).2 rfl
    unfold OnProfile at this ⊢
    rwa [abs_neg] at this
  have hzero : ∑ i ∈ Finset.range k, (o i).volume * y i = 0 := by
    have h1 := Finset.sum_range_reflect (fun i => (o i).volume * y i) k
    have h2 : ∑ i ∈ Finset.range k, (o (k - 1 - i)).volume * y (k - 1 - i) = - ∑ i ∈ Finset.range k, (o i).volume * y i := by
      rw [← Finset.sum_neg_distrib]
      refine Finset.sum_congr rfl fun i hi => ?_
      have hi := Finset.mem_range.1 hi
      rw [hsym i hi, hyr i hi]; ring
    linarith
  have hV : v = ∑ i ∈ Finset.range s'.size, (o i).volume := by
    rw [C42_total_real ho] at hv; exact (Res.ok.inj hv).symm
  have heps := real_eps_pos
  have hlt : ¬ ∑ i ∈ Finset.range s'.size, (o i).volume < Scalar.eps := by rw [← hV]; exact not_lt.2 hheavy
  obtain ⟨-, -, h3, -⟩ := C43_average ho (by omega) hvol
  rw [h3, ribWeight_heavy hlt fun i => (o i).point.x, ribWeight_heavy hlt fun i => (o i).point.y,
    ribWeight_heavy hlt fun i => (o i).point.z, hsize]
  rw [hsize] at hV
  have hpos : 0 < ∑ i ∈ Finset.range k, (o i).volume := by linarith
  rw [Foot.mean (A := pose.trans.x) (B := pose.linear.c1.x) hpos (fun i hi h0 => by rw [(hone i hi).2 h0]) hzero,
    Foot.mean (A := pose.trans.y) (B := pose.linear.c1.y) hpos (fun i hi h0 => by rw [(hone i hi).2 h0]) hzero,
    Foot.mean (A := og.z) (B := 0) (y := y) hpos (fun i hi h0 => by rw [(hone i hi).2 h0]; simp) hzero]

/-- **C149 is false of a light contact.**  A tyre of two ribs leans on the road, one rib lightly on it and the other above it: the contact
point of the tyre is above the road. -/
theorem C149_light_refuted (fresh : Nat → Output ℝ) :
    ∃ (s s' : Shell ℝ) (g : Flat ℝ) (pose : Affine ℝ) (v : ℝ) (p : V3 ℝ),
      Shell.make fresh 2 1 2 2 2 1 = .ok s ∧ IsRigid pose ∧ Flat.make 1 ⟨0, 0, 0⟩ ⟨0, 0, 1⟩ = .ok g ∧
      s.setupFlat .raw g pose "geometric" = .ok s' true ∧ s'.contactVolume .raw = .ok v ∧ 0 < v ∧
      s'.contactPoint .raw = .ok p ∧ 0 < p.z ∧ ¬ OnPlane g.plane p := by
  obtain ⟨s, s', pose, q, q', v, h1, hp, hrun, hsize, ho, -, -, -, hv0, hv1, hz, hz', hV, hvp, hve⟩ := Demo.leaning fresh
  obtain ⟨-, -, h3, -⟩ := C43_average ho (by omega) (fun i _ => by split <;> assumption)
  have hsum : ∑ i ∈ Finset.range s'.size, (if i = 0 then q else q').volume < Scalar.eps := by
    rw [C42_total_real ho] at hV
    rw [Res.ok.inj hV]; exact hve
  have hpz : 0 < ∑ i ∈ Finset.range s'.size, ribWeight s'.size (fun i => (if i = 0 then q else q').volume) i * (if i = 0 then q else q').point.z := by
    simp only [ribWeight, if_pos hsum]
    rw [hsize, Finset.sum_range_succ, Finset.sum_range_one, if_pos rfl, if_neg (by norm_num), hz']
    norm_num
    exact hz
  refine ⟨s, s', Demo.road, pose, v, _, h1, hp, Demo.road_make, hrun, hV, hvp, h3, hpz, fun hon => ?_⟩
  simp [OnPlane, dot3, minus, Demo.road] at hon
  linarith

/-- The hypotheses are met: a tyre half sunk in the road. -/
example (fresh : Nat → Output ℝ) : ∃ (s s' : Shell ℝ) (pose : Affine ℝ) (v : ℝ), ValidProfile (1 : ℝ) 2 2 2 1 ∧
    Shell.make fresh 1 1 2 2 2 1 = .ok s ∧ IsRigid pose ∧ pose.linear.c1.z = 0 ∧ Flat.make 1 ⟨0, 0, 0⟩ ⟨0, 0, 1⟩ = .ok Demo.road ∧
    s.setupFlat .raw Demo.road pose "geometric" = .ok s' true ∧ s'.contactVolume .raw = .ok v ∧ Scalar.eps ≤ v := by
  obtain ⟨s, s', v, h1, h2, h3, h4⟩ := Demo.sunk fresh
  exact ⟨s, s', _, v, ⟨by norm_num, by norm_num, by norm_num, by norm_num, by norm_num, by norm_num⟩, h1, Demo.upright_rigid 0,
    by simp [Demo.upright], Demo.road_make, h2, h3, h4⟩

end Enve
