import Verif.Lemmas.SegmentRound
import Verif.Spec.SegmentRecord
import Verif.Props.RoadContactProps

/-! # C113: area and volume in doubles -/

namespace Enve
open Scalar Spec B64

/-- **C113**, the formulas: for every radius, width and depth, in doubles, area and volume are those of the circular segment up to the
stated errors. -/
theorem C113_values {r : Rib B64} {R w d : ℝ} (hr : SolidRib r R w) (h0 : 0 ≤ d) (h1 : d ≤ R) :
    SegmentRecord R w d (Rib.depthArea r.radius r.width (fin d)) (Rib.depthVolume r.radius r.width (fin d)) := by
  have hR : 0 < R := by have := hr.R_lo; linarith [show (0:ℝ) < 1 / 2 ^ 20 by norm_num]
  have hw : 0 ≤ w := by have := hr.w_lo; linarith [show (0:ℝ) < 1 / 2 ^ 20 by norm_num]
  rw [hr.radius, hr.width]
  constructor
  · obtain ⟨a, e, ha, h⟩ := SegRound.area hr.R_lo hr.R_hi hw hr.w_hi h0 h1
    obtain ⟨⟨c, hc, hA⟩, -⟩ := C31_area_volume w hR h0 (by linarith)
    rw [hA] at h
    exact ⟨a, c, e, ha, hc, h⟩
  · exact SegRound.volume_bounds hr.rep hr.R_lo hr.R_hi hr.w_lo hr.w_hi h0 h1

/-- **C113**: when the depth is more than `2 ^ (-24)` times the radius the volume is positive; when it is more than `2 ^ (-14)` times
the radius it has six correct digits. -/
theorem C113_positive {R w d : ℝ} {a v : B64} (hw : 0 < w) (hR : 0 < R) (h : SegmentRecord R w d a v) (hd : d ≤ R) :
    (R / 2 ^ 24 < d → ∃ x, v = fin x ∧ 0 < x) ∧
    (R / 2 ^ 14 ≤ d → ∃ x, v = fin x ∧ |x - w * segmentArea R d| ≤ w * segmentArea R d / 2 ^ 20) := by
  obtain ⟨x, e, -, h2⟩ := h.volume
  have key : ∀ k : ℝ, 0 < k → R / k < d ∨ R / k ≤ d → (R / d) ^ 2 ≤ k ^ 2 := by
    intro k hk hkd
    have hle : R / k ≤ d := hkd.elim le_of_lt id
    have hd0 : 0 < d := lt_of_lt_of_le (by positivity) hle
    refine pow_le_pow_left₀ (by positivity) ?_ 2
    rw [div_le_iff₀ hd0]; rw [div_le_iff₀ hk] at hle; linarith
  constructor
  · intro hlt
    have hd0 : 0 < d := lt_trans (by positivity) hlt
    have hs : 0 < segmentArea R d := lt_of_lt_of_le (by positivity) (SegRound.area_lower hR hd0.le hd)
    have h3 := h2 hd0
    have h4 : (R / d) ^ 2 < (2 ^ 24) ^ 2 := by
      refine pow_lt_pow_left₀ ?_ (by positivity) (by norm_num)
      rw [div_lt_iff₀ hd0]; rw [div_lt_iff₀ (by norm_num)] at hlt; linarith
    have h5 : (R / d) ^ 2 / 2 ^ 48 < 1 := by
      rw [div_lt_one (by norm_num)]; norm_num at h4 ⊢; exact h4
    have h6 : w * segmentArea R d * ((R / d) ^ 2 / 2 ^ 48) < w * segmentArea R d * 1 := mul_lt_mul_of_pos_left h5 (by positivity)
    exact ⟨x, e, by linarith [(abs_le.1 h3).1]⟩
  · intro hle
    have hd0 : 0 < d := lt_of_lt_of_le (by positivity) hle
    have hs : 0 < segmentArea R d := lt_of_lt_of_le (by positivity) (SegRound.area_lower hR hd0.le hd)
    refine ⟨x, e, (h2 hd0).trans ?_⟩
    rw [div_eq_mul_one_div (w * segmentArea R d)]
    refine mul_le_mul_of_nonneg_left ?_ (by positivity)
    have := key (2 ^ 14) (by norm_num) (Or.inr hle)
    rw [div_le_iff₀ (by norm_num)]; norm_num at this ⊢; exact this

/-- What a contact of the sampling method stores. -/
theorem SegRound.sampling {r : Rib B64} {f : Line B64 → Option (V3 B64 × B64)} {pose : Affine B64} {flag : Bool} {o : Output B64}
    (h : r.envelopSampling f pose = (flag, o)) {d : ℝ} (hd : o.depth = fin d) (h0 : 0 < d) :
    o.area = Rib.depthArea r.radius r.width (fin d) ∧ o.volume = Rib.depthVolume r.radius r.width (fin d) := by
  have hno : ∀ {b : Bool}, (b, r.noContact pose) = (flag, o) → False := by
    intro b e
    have e2 := (Prod.mk.inj e).2
    rw [← e2] at hd
    have : (Scalar.zero : B64) = fin d := hd
    rw [B64.zero_eq] at this
    injection this with this
    injection this with this
    linarith
  unfold Rib.envelopSampling at h
  split at h
  · dsimp only at h
    split_ifs at h with hz
    · have e2 := (Prod.mk.inj h).2
      rw [← e2] at hd ⊢
      dsimp only at hd ⊢
      rw [hd]
      exact ⟨rfl, rfl⟩
    · exact (hno h).elim
  · exact (hno h).elim

/-- What a contact of the geometric method with a flat ground stores. -/
theorem SegRound.geometric {r : Rib B64} {g : Flat B64} {pose : Affine B64} {flag : Bool} {o : Output B64}
    (h : r.envelopGeometricFlat g pose = (flag, o)) {d : ℝ} (hd : o.depth = fin d) (h0 : 0 < d) :
    o.area = Rib.depthArea r.radius r.width (fin d) ∧ o.volume = Rib.depthVolume r.radius r.width (fin d) := by
  have hno : ∀ {b : Bool}, (b, r.noContact pose) = (flag, o) → False := by
    intro b e
    have e2 := (Prod.mk.inj e).2
    rw [← e2] at hd
    have : (Scalar.zero : B64) = fin d := hd
    rw [B64.zero_eq] at this
    injection this with this
    injection this with this
    linarith
  unfold Rib.envelopGeometricFlat at h
  split at h
  · exact (hno h).elim
  · dsimp only at h
    split_ifs at h with hz
    · have e2 := (Prod.mk.inj h).2
      rw [← e2] at hd ⊢
      dsimp only at hd ⊢
      rw [hd]
      exact ⟨rfl, rfl⟩
    · exact (hno h).elim

/-- **C113 for the tyre, flat ground**: after a setup in doubles with either method, whatever the ground and the pose, a record with
a depth between zero and the radius holds the area and the volume of the segment of that depth. -/
theorem C113_flat {pol : Policy} {s s' : Shell B64} {g : Flat B64} {pose : Affine B64} {method : String} {b : Bool}
    (hset : s.setupFlat pol g pose method = .ok s' b) {i : Nat} {r : Rib B64} {out : Output B64} (h : Shows pol s' i r out)
    {R w d : ℝ} (hr : SolidRib r R w) (hd : out.depth = fin d) (h0 : 0 < d) (h1 : d ≤ R) :
    SegmentRecord R w d out.area out.volume := by
  obtain ⟨-, -, flag, he⟩ := h.flat hset
  have key : out.area = Rib.depthArea r.radius r.width (fin d) ∧ out.volume = Rib.depthVolume r.radius r.width (fin d) := by
    unfold Rib.envelopFlat at he
    split_ifs at he
    · exact SegRound.geometric (Res.ok.inj he) hd h0
    · exact SegRound.sampling (Res.ok.inj he) hd h0
  rw [key.1, key.2]
  exact C113_values hr h0.le h1

/-- **C113 for the tyre, mesh, sampling method**: the same after a setup on any mesh. -/
theorem C113_mesh_sampling {pol : Policy} {s s' : Shell B64} (hreach : s.Reachable pol) {m : Mesh B64} {pose : Affine B64} {b : Bool}
    (hset : s.setupMesh pol m pose "sampling" = .ok s' b) {i : Nat} {r : Rib B64} {out : Output B64} (h : Shows pol s' i r out)
    {R w d : ℝ} (hr : SolidRib r R w) (hd : out.depth = fin d) (h0 : 0 < d) (h1 : d ≤ R) :
    SegmentRecord R w d out.area out.volume := by
  obtain ⟨loc, hloc⟩ : ∃ loc, m.intersection (s.transform pose).updateBBox.bbox = .ok loc := by
    cases hi : m.intersection (s.transform pose).updateBBox.bbox with
    | ok loc => exact ⟨loc, rfl⟩
    | throw msg => simp [Shell.setupMesh, hi] at hset
    | ub msg => simp [Shell.setupMesh, hi] at hset
  have key : out.area = Rib.depthArea r.radius r.width (fin d) ∧ out.volume = Rib.depthVolume r.radius r.width (fin d) := by
    by_cases hne : loc = []
    · exfalso
      have hribs : s'.ribs = s.ribs := (Shell.setupMesh_rel (.inl ⟨b, hset⟩)).ribs
      obtain ⟨flags, recs, h1, -⟩ := C38_mesh_flag pol s s' hreach m pose "sampling" loc b hloc hset
      obtain ⟨h2, h3⟩ := h
      rw [hribs] at h2
      have hi : i < s.size := (List.getElem?_eq_some_iff.1 h2).1
      obtain ⟨r', e1, e2, e3⟩ := h1 i hi
      rw [h3] at e3
      cases e3
      simp only [if_pos hne] at e2
      have e4 := (Prod.mk.inj (Res.ok.inj e2)).2
      rw [← e4] at hd
      have : (Scalar.zero : B64) = fin d := hd
      rw [B64.zero_eq] at this
      injection this with this
      injection this with this
      linarith
    · obtain ⟨flag, he⟩ := RoadContact.shows hreach hset hloc hne h
      exact SegRound.sampling he hd h0
  rw [key.1, key.2]
  exact C113_values hr h0.le h1

/-! ## A negative volume -/

namespace Shallow

/-- A rib of radius 11/32 and width one. -/
noncomputable def rib : Rib B64 := ⟨⟨.fin (11 / 32), ⟨Far.vec 0 0 0, Far.vec 0 1 0⟩⟩, 0, .fin 0, .fin 1, .fin 0⟩
/-- The height of its centre, the double just below the radius. -/
noncomputable def h : ℝ := 11 / 32 - 1 / 2 ^ 54
/-- The upright wheel with its centre at that height. -/
noncomputable def pose : Affine B64 := ⟨⟨Far.vec 1 0 0, Far.vec 0 1 0, Far.vec 0 0 1⟩, Far.vec 0 0 h⟩

theorem arccos_le : Real.arccos (1 - 1 / 2 ^ 53) ≤ 17 / 16 / 2 ^ 26 := by
  have hx : (17 / 16 / 2 ^ 26 : ℝ) ≤ Real.pi := by linarith [Real.pi_gt_three, show (17 / 16 / 2 ^ 26 : ℝ) ≤ 1 by norm_num]
  rw [← Real.arccos_cos (x := 17 / 16 / 2 ^ 26) (by norm_num) hx]
  refine Real.arccos_le_arccos ?_
  have := Real.cos_bound (x := 17 / 16 / 2 ^ 26) (by rw [abs_of_pos (by norm_num)]; norm_num)
  have h2 := (abs_le.1 this).2
  rw [abs_of_pos (by norm_num)] at h2
  norm_num at h2 ⊢
  linarith

theorem volume : ∃ v, Rib.depthVolume (fin (11 / 32)) (fin 1) (fin (1 / 2 ^ 54)) = fin v ∧ v < 0 := by
  have c0 : B64.round (.fin (11 / 32 - 1 / 2 ^ 54)) = .fin (11 / 32 - 1 / 2 ^ 54) :=
    B64.exact 6192449487634431 (-54) (by norm_num) (by norm_num) (by norm_num) (by norm_num)
  have c1 : B64.round (.fin ((11 / 32 - 1 / 2 ^ 54) / (11 / 32))) = .fin (1 - 1 / 2 ^ 53) :=
    B64.round_eq (-1) 9007199254740991 (by norm_num) (by norm_num) (by norm_num)
      (by rw [abs_of_pos (by norm_num)]; norm_num) (by rw [abs_of_pos (by norm_num)]; norm_num)
      (by rw [abs_lt]; constructor <;> norm_num)
  have c2 : B64.round (.fin (11 / 32 * (11 / 32))) = .fin (121 / 1024) := by
    rw [show (11 / 32 * (11 / 32) : ℝ) = 121 / 1024 by norm_num]
    exact B64.exact 121 (-10) (by norm_num) (by norm_num) (by norm_num) (by norm_num)
  have c3 : B64.round (.fin (2 * (11 / 32))) = .fin (11 / 16) := by
    rw [show (2 * (11 / 32) : ℝ) = 11 / 16 by norm_num]
    exact B64.exact 11 (-4) (by norm_num) (by norm_num) (by norm_num) (by norm_num)
  obtain ⟨g, e1, -, g1, g2⟩ := B64.round_bounds (x := 11 / 16 - 1 / 2 ^ 54) (k := 0) (by norm_num)
    (by rw [abs_of_pos (by norm_num)]; norm_num)
  have g3 := g2 (43 / 64) ⟨43, -6, by norm_num, by norm_num, by norm_num⟩ (by norm_num)
  have g4 := g1 1 rep_one (by norm_num)
  obtain ⟨q, e2, -, q1, q2⟩ := B64.round_bounds (x := 1 / 2 ^ 54 * g) (k := 0) (by norm_num)
    (by rw [abs_of_nonneg (by positivity)]; norm_num at g4 ⊢; linarith)
  have q3 := q2 (43 / 2 ^ 60) ⟨43, -60, by norm_num, by norm_num, by norm_num⟩ (by norm_num at g3 ⊢; linarith)
  have q4 := q1 1 rep_one (by norm_num at g4 ⊢; linarith)
  have q0 : 0 ≤ q := le_trans (by norm_num) q3
  have r1 : 13 / 4 / 2 ^ 29 ≤ Real.sqrt q := Real.le_sqrt_of_sq_le (le_trans (by norm_num) q3)
  have r2 : Real.sqrt q ≤ 1 := Real.sqrt_le_one.2 q4
  obtain ⟨t, e3, -, t1, t2⟩ := B64.round_bounds (x := Real.sqrt q) (k := 0) (by norm_num)
    (by rw [abs_of_nonneg (Real.sqrt_nonneg _)]; simpa using r2)
  have t3 := t2 (13 / 4 / 2 ^ 29) ⟨13, -31, by norm_num, by norm_num, by norm_num⟩ r1
  have t4 := t1 1 rep_one r2
  have hac := arccos_le
  have hac0 := Real.arccos_nonneg (1 - 1 / 2 ^ 53)
  have eac : Scalar.acos (B64.fin (1 - 1 / 2 ^ 53)) = B64.round (.fin (Real.arccos (1 - 1 / 2 ^ 53))) := by
    show B64.round (Scalar.acos (XR.fin _)) = _
    have : Scalar.acos (XR.fin (1 - 1 / 2 ^ 53)) = XR.fin (Real.arccos (1 - 1 / 2 ^ 53)) := by
      show (if _ then _ else _) = _
      rw [if_pos ⟨by norm_num, by norm_num⟩]
    rw [this]
  generalize Real.arccos (1 - 1 / 2 ^ 53) = φ at *
  obtain ⟨θ, e4, -, θ1, θ2⟩ := B64.round_bounds (x := φ) (k := 0) (by norm_num)
    (by rw [abs_of_nonneg hac0]; norm_num at hac ⊢; linarith)
  have θ3 := θ1 (17 / 16 / 2 ^ 26) ⟨17, -30, by norm_num, by norm_num, by norm_num⟩ hac
  have θ4 := θ2 0 rep_zero hac0
  obtain ⟨x, e5, -, x1, x2⟩ := B64.round_bounds (x := 121 / 1024 * θ) (k := 0) (by norm_num)
    (by rw [abs_of_nonneg (by positivity)]; norm_num at θ3 ⊢; linarith)
  have x3 := x1 (33 / 32 / 2 ^ 29) ⟨33, -34, by norm_num, by norm_num, by norm_num⟩ (by norm_num at θ3 ⊢; linarith)
  have hct : (11 / 32 - 1 / 2 ^ 54) * (13 / 4 / 2 ^ 29) ≤ (11 / 32 - 1 / 2 ^ 54) * t := mul_le_mul_of_nonneg_left t3 (by norm_num)
  have hct' : (11 / 32 - 1 / 2 ^ 54) * t ≤ (11 / 32 - 1 / 2 ^ 54) * 1 := mul_le_mul_of_nonneg_left t4 (by norm_num)
  have x4 := x2 0 rep_zero (by positivity)
  obtain ⟨y, e6, -, y1, y2⟩ := B64.round_bounds (x := (11 / 32 - 1 / 2 ^ 54) * t) (k := 0) (by norm_num)
    (by rw [abs_of_nonneg (le_trans (by norm_num) hct)]; norm_num at hct' ⊢; linarith)
  have y3 := y2 (35 / 32 / 2 ^ 29) ⟨35, -34, by norm_num, by norm_num, by norm_num⟩ (le_trans (by norm_num) hct)
  have y4 := y1 1 rep_one (by norm_num at hct' ⊢; linarith)
  have hneg : Rep (-(1 / 2 ^ 33)) := ⟨-1, -33, by norm_num, by norm_num, by norm_num⟩
  obtain ⟨z, e7, z0, z1, -⟩ := B64.round_bounds (x := x - y) (k := 0) (by norm_num)
    (by rw [abs_le]; norm_num at x3 x4 y3 y4 ⊢; constructor <;> linarith)
  have z3 := z1 (-(1 / 2 ^ 33)) hneg (by norm_num at x3 y3 ⊢; linarith)
  obtain ⟨v, e8, -, v1, -⟩ := B64.round_bounds (x := z * 1) (k := 0) (by norm_num) (by rwa [mul_one])
  have v3 := v1 (-(1 / 2 ^ 33)) hneg (by linarith)
  refine ⟨v, ?_, lt_of_le_of_lt v3 (by norm_num)⟩
  rw [Rib.depthVolume, B64.two_eq, B64.mul_fin, c2, B64.sub_fin, c0, B64.div_fin _ (by norm_num), c1, eac, e4, B64.mul_fin, e5,
    B64.mul_fin, c3, B64.sub_fin, e1, B64.mul_fin, e2, B64.sqrt_fin q0, e3, B64.mul_fin, e6, B64.sub_fin, e7, B64.mul_fin, e8]

theorem normalized_ez {c q : ℝ} (hc : c ≠ 0) (h2 : B64.round (.fin (c * c)) = .fin q) (h1 : B64.round (.fin q) = .fin q) (hq : 0 < q)
    (h3 : B64.round (.fin (Real.sqrt q)) = .fin c) : V3.normalized (Far.vec 0 0 c) = Far.vec 0 0 1 := by
  have z0 := Far.z0
  have z1 := Far.z1
  have hs : Scalar.sqrt (B64.fin q) = .fin c := by rw [B64.sqrt_fin hq.le, h3]
  have e : V3.sqNorm (Far.vec 0 0 c) = .fin q := by
    norm_num [V3.sqNorm, V3.dot, Far.vec, z0, h2, h1]
  rw [V3.normalized]
  rw [e, B64.zero_eq, B64.lt_fin, if_pos (by simpa using hq), hs]
  norm_num [V3.sdiv, Far.vec, B64.div_fin _ hc, z0, div_self hc, z1]

/-- `delta_x`. -/
noncomputable def a : ℝ := 2476979795053773 / 2 ^ 56
/-- `delta_y`. -/
noncomputable def b : ℝ := 5404319552844595 / 2 ^ 54
/-- Length of the cross product of the differences of the samples. -/
noncomputable def c : ℝ := 5944751508129055 / 2 ^ 57

theorem sample {x y : ℝ} (hx : B64.round (.fin x) = .fin x) (hy : B64.round (.fin y) = .fin y)
    (hmx : B64.round (.fin (-x)) = .fin (-x)) (hmy : B64.round (.fin (-y)) = .fin (-y)) :
    Rib.samplingLineFlat Far.ground ⟨Far.vec x y h, V3.neg V3.ez⟩ = some (Far.vec x y 0, .fin 1) := by
  have z0 := Far.z0
  have z1 := Far.z1
  have zm1 := Far.zm1
  have hh : B64.round (.fin h) = .fin h :=
    B64.exact 6192449487634431 (-54) (by norm_num [h]) (by norm_num) (by norm_num) (by norm_num)
  have hmh : B64.round (.fin (-h)) = .fin (-h) :=
    B64.exact (-6192449487634431) (-54) (by norm_num [h]) (by norm_num) (by norm_num) (by norm_num)
  have hdir : (V3.neg V3.ez : V3 B64) = Far.vec 0 0 (-1) := by
    norm_num [V3.neg, V3.ez, Far.vec, B64.zero_eq, B64.one_eq, Far.neg_fin]
  rw [Rib.samplingLineFlat, Inter.linePlane, hdir, Far.ground]
  dsimp only
  have hdet : V3.dot (Far.vec 0 0 1) (Far.vec 0 0 (-1)) = .fin (-1) := by norm_num [V3.dot, Far.vec, z0, zm1]
  have hnum : V3.dot (V3.sub (Far.vec 0 0 0) (Far.vec x y h)) (Far.vec 0 0 1) = .fin (-h) := by
    norm_num [V3.dot, V3.sub, Far.vec, z0, hmx, hmy, hmh]
  rw [hdet, hnum, Far.abs_fin, Far.eps_eq, B64.lt_fin, abs_neg, abs_one, if_pos (by simpa using real_eps_lt_one),
    B64.div_fin _ (by norm_num), neg_div_neg_eq, div_one, hh]
  norm_num [V3.add, V3.smul, Far.vec, z0, hx, hy, hmh]

theorem record : ∃ o, rib.envelopSamplingFlat Far.ground pose = (true, o) ∧ o.depth = .fin (1 / 2 ^ 54) ∧
    o.volume = Rib.depthVolume (fin (11 / 32)) (fin 1) (fin (1 / 2 ^ 54)) := by
  have z0 := Far.z0
  have z1 := Far.z1
  have zm1 := Far.zm1
  have ha : B64.round (.fin a) = .fin a :=
    B64.exact 2476979795053773 (-56) (by norm_num [a]) (by norm_num) (by norm_num) (by norm_num)
  have hma : B64.round (.fin (-a)) = .fin (-a) :=
    B64.exact (-2476979795053773) (-56) (by norm_num [a]) (by norm_num) (by norm_num) (by norm_num)
  have h2a : B64.round (.fin (a + a)) = .fin (2 * a) := by
    rw [← two_mul]
    exact B64.exact 2476979795053773 (-55) (by norm_num [a]) (by norm_num) (by norm_num) (by norm_num)
  have hb : B64.round (.fin b) = .fin b :=
    B64.exact 5404319552844595 (-54) (by norm_num [b]) (by norm_num) (by norm_num) (by norm_num)
  have hmb : B64.round (.fin (-b)) = .fin (-b) :=
    B64.exact (-5404319552844595) (-54) (by norm_num [b]) (by norm_num) (by norm_num) (by norm_num)
  have h2b : B64.round (.fin (b + b)) = .fin (2 * b) := by
    rw [← two_mul]
    exact B64.exact 5404319552844595 (-53) (by norm_num [b]) (by norm_num) (by norm_num) (by norm_num)
  have hc : B64.round (.fin c) = .fin c :=
    B64.exact 5944751508129055 (-57) (by norm_num [c]) (by norm_num) (by norm_num) (by norm_num)
  have hh : B64.round (.fin h) = .fin h :=
    B64.exact 6192449487634431 (-54) (by norm_num [h]) (by norm_num) (by norm_num) (by norm_num)
  have hmh : B64.round (.fin (-h)) = .fin (-h) :=
    B64.exact (-6192449487634431) (-54) (by norm_num [h]) (by norm_num) (by norm_num) (by norm_num)
  have hR : B64.round (.fin (11 / 32)) = .fin (11 / 32) :=
    B64.exact 11 (-5) (by norm_num) (by norm_num) (by norm_num) (by norm_num)
  have t1 : (Scalar.lit 1 10 : B64) = .fin (3602879701896397 / 2 ^ 55) := by
    show B64.round (lit 1 10 : XR) = _
    rw [XR.lit_eq]
    exact B64.round_eq (-4) 7205759403792794 (by norm_num) (by norm_num) (by norm_num)
      (by rw [abs_of_pos (by norm_num)]; norm_num) (by rw [abs_of_pos (by norm_num)]; norm_num)
      (by rw [abs_lt]; constructor <;> norm_num)
  have t3 : (Scalar.lit 3 10 : B64) = .fin b := by
    show B64.round (lit 3 10 : XR) = _
    rw [XR.lit_eq]
    exact B64.round_eq (-2) 5404319552844595 (by norm_num [b]) (by norm_num) (by norm_num)
      (by rw [abs_of_pos (by norm_num)]; norm_num) (by rw [abs_of_pos (by norm_num)]; norm_num)
      (by rw [abs_lt]; constructor <;> norm_num [b])
  have dx : (Scalar.lit 1 10 : B64) *. rib.radius = .fin a := by
    rw [t1]
    show B64.fin _ *. B64.fin (11 / 32) = _
    rw [B64.mul_fin]
    exact B64.round_eq (-5) 4953959590107546 (by norm_num [a]) (by norm_num) (by norm_num)
      (by rw [abs_of_pos (by norm_num)]; norm_num) (by rw [abs_of_pos (by norm_num)]; norm_num)
      (by rw [abs_lt]; constructor <;> norm_num [a])
  have dy : (Scalar.lit 3 10 : B64) *. rib.width = .fin b := by
    rw [t3]
    show B64.fin _ *. B64.fin 1 = _
    rw [B64.mul_fin, mul_one, hb]
  have l0 : rib.lineXp pose = ⟨Far.vec a 0 h, V3.neg V3.ez⟩ := by
    rw [Rib.lineXp, dx]
    norm_num [rib, pose, Far.vec, Rib.center, Disk.center, V3.add, V3.smul, V3.ex, M3.mulVec, B64.zero_eq, B64.one_eq, z0, z1, ha, hh]
  have l1 : rib.lineXm pose = ⟨Far.vec (-a) 0 h, V3.neg V3.ez⟩ := by
    rw [Rib.lineXm, dx]
    norm_num [rib, pose, Far.vec, Rib.center, Disk.center, V3.add, V3.sub, V3.smul, V3.ex, M3.mulVec, B64.zero_eq, B64.one_eq, z0, z1, ha, hma, hh]
  have l2 : rib.lineYp pose = ⟨Far.vec 0 b h, V3.neg V3.ez⟩ := by
    rw [Rib.lineYp, dy]
    norm_num [rib, pose, Far.vec, Rib.center, Disk.center, V3.add, V3.smul, V3.ey, M3.mulVec, B64.zero_eq, B64.one_eq, z0, z1, hb, hh]
  have l3 : rib.lineYm pose = ⟨Far.vec 0 (-b) h, V3.neg V3.ez⟩ := by
    rw [Rib.lineYm, dy]
    norm_num [rib, pose, Far.vec, Rib.center, Disk.center, V3.add, V3.sub, V3.smul, V3.ey, M3.mulVec, B64.zero_eq, B64.one_eq, z0, z1, hb, hmb, hh]
  have z0' : B64.round (.fin (-0)) = .fin (-0) := by rw [neg_zero, z0]
  have s0 := sample ha z0 hma z0'
  have s1 := sample hma z0 (by rwa [neg_neg]) z0'
  have s2 := sample z0 hb z0' hmb
  have s3 := sample z0 hmb z0' (by rwa [neg_neg])
  have hcross : V3.cross (V3.sub (Far.vec a 0 0) (Far.vec (-a) 0 0)) (V3.sub (Far.vec 0 b 0) (Far.vec 0 (-b) 0)) = Far.vec 0 0 c := by
    have hp : B64.round (.fin (2 * a * (2 * b))) = .fin c :=
      B64.round_eq (-5) 5944751508129055 (by norm_num [c]) (by norm_num) (by norm_num)
        (by rw [abs_of_pos (by norm_num [a, b])]; norm_num [a, b]) (by rw [abs_of_pos (by norm_num [a, b])]; norm_num [a, b])
        (by rw [abs_lt]; constructor <;> norm_num [a, b, c])
    simp only [V3.cross, V3.sub, Far.vec, B64.sub_fin, sub_neg_eq_add, h2a, h2b, sub_zero, neg_zero, z0, B64.mul_fin, mul_zero, zero_mul, hp, hc]
  have hq : B64.round (.fin (7847071990730353 / 2 ^ 62)) = .fin (7847071990730353 / 2 ^ 62) :=
    B64.exact 7847071990730353 (-62) (by norm_num) (by norm_num) (by norm_num) (by norm_num)
  have hn : V3.normalized (Far.vec 0 0 c) = Far.vec 0 0 1 := by
    refine normalized_ez (q := 7847071990730353 / 2 ^ 62) (by norm_num [c]) ?_ hq (by norm_num) ?_
    · exact B64.round_eq (-10) 7847071990730353 (by norm_num) (by norm_num) (by norm_num)
        (by rw [abs_of_pos (by norm_num [c])]; norm_num [c]) (by rw [abs_of_pos (by norm_num [c])]; norm_num [c])
        (by rw [abs_lt]; constructor <;> norm_num [c])
    · have lo : c - 1 / 2 ^ 58 < Real.sqrt (7847071990730353 / 2 ^ 62) := by
        apply Real.lt_sqrt_of_sq_lt; norm_num [c]
      have hi : Real.sqrt (7847071990730353 / 2 ^ 62) < c + 1 / 2 ^ 58 := by
        rw [Real.sqrt_lt' (by norm_num [c])]; norm_num [c]
      generalize Real.sqrt (7847071990730353 / 2 ^ 62) = u at *
      unfold c at *
      refine B64.round_eq (-5) 5944751508129055 (by norm_num) (by norm_num) (by norm_num) ?_ ?_ ?_
      · rw [abs_of_pos (by norm_num at lo ⊢; linarith)]; norm_num at lo ⊢; linarith
      · rw [abs_of_pos (by norm_num at lo ⊢; linarith)]; norm_num at hi ⊢; linarith
      · rw [abs_lt]; norm_num at lo hi ⊢; constructor <;> linarith
  have hcen : rib.centerGrd pose = Far.vec 0 0 h := by
    norm_num [Rib.centerGrd, rib, pose, Far.vec, Rib.center, Disk.center, V3.add, M3.mulVec, z0, z1, hh]
  have hpoint : V3.sdiv (V3.add (V3.add (V3.add (Far.vec a 0 0) (Far.vec (-a) 0 0)) (Far.vec 0 b 0)) (Far.vec 0 (-b) 0)) (lit 4 1) =
      (Far.vec 0 0 0 : V3 B64) := by
    have e4 : (Scalar.lit 4 1 : B64) = .fin 4 := by
      show B64.round (lit 4 1 : XR) = _
      rw [XR.lit_eq]
      exact (B64.exact 4 0 (by norm_num) (by norm_num) (by norm_num) (by norm_num)).trans (by norm_num)
    simp [V3.sdiv, V3.add, Far.vec, e4, z0, hb, B64.div_fin]
  have hy : V3.normalized (Far.vec 0 1 0) = Far.vec 0 1 0 := by
    norm_num [V3.normalized, V3.sqNorm, V3.dot, V3.sdiv, Far.vec, z0, z1, B64.zero_eq, Far.sqrt1, B64.div_fin]
  have hx : V3.normalized (V3.cross (Far.vec 0 0 1) (Far.vec 0 1 0)) = Far.vec (-1) 0 0 := by
    norm_num [V3.normalized, V3.sqNorm, V3.dot, V3.sdiv, V3.cross, Far.vec, z0, z1, zm1, B64.zero_eq, Far.sqrt1, B64.div_fin]
  have hz : V3.normalized (V3.cross (Far.vec 0 1 0) (Far.vec (-1) 0 0)) = Far.vec 0 0 1 := by
    norm_num [V3.normalized, V3.sqNorm, V3.dot, V3.sdiv, V3.cross, Far.vec, z0, z1, zm1, B64.zero_eq, Far.sqrt1, B64.div_fin]
  have hnorm : V3.norm (V3.sub (Far.vec 0 0 0) (Far.vec 0 0 h)) = .fin h := by
    have hhh : B64.round (.fin (h * h)) = .fin (8514618045497341 / 2 ^ 56) :=
      B64.round_eq (-4) 8514618045497341 (by norm_num) (by norm_num) (by norm_num)
        (by rw [abs_of_pos (by norm_num [h])]; norm_num [h]) (by rw [abs_of_pos (by norm_num [h])]; norm_num [h])
        (by rw [abs_lt]; constructor <;> norm_num [h])
    have hq : B64.round (.fin (8514618045497341 / 2 ^ 56)) = .fin (8514618045497341 / 2 ^ 56) :=
      B64.exact 8514618045497341 (-56) (by norm_num) (by norm_num) (by norm_num) (by norm_num)
    have e : V3.sqNorm (V3.sub (Far.vec 0 0 0) (Far.vec 0 0 h)) = .fin (8514618045497341 / 2 ^ 56) := by
      simp only [V3.sqNorm, V3.dot, V3.sub, Far.vec, B64.sub_fin, B64.mul_fin, B64.add_fin, zero_sub, sub_zero, mul_zero, z0, hmh,
        neg_mul_neg, hhh, zero_add, hq]
    rw [V3.norm, e, B64.sqrt_fin (by norm_num)]
    have lo : h - 1 / 2 ^ 55 < Real.sqrt (8514618045497341 / 2 ^ 56) := by
      apply Real.lt_sqrt_of_sq_lt; norm_num [h]
    have hi : Real.sqrt (8514618045497341 / 2 ^ 56) < h + 1 / 2 ^ 55 := by
      rw [Real.sqrt_lt' (by norm_num [h])]; norm_num [h]
    generalize Real.sqrt (8514618045497341 / 2 ^ 56) = u at *
    unfold h at *
    refine B64.round_eq (-2) 6192449487634431 (by norm_num) (by norm_num) (by norm_num) ?_ ?_ ?_
    · rw [abs_of_pos (by norm_num at lo ⊢; linarith)]; norm_num at lo ⊢; linarith
    · rw [abs_of_pos (by norm_num at lo ⊢; linarith)]; norm_num at hi ⊢; linarith
    · rw [abs_lt]; norm_num at lo hi ⊢; constructor <;> linarith
  have hdot : Scalar.abs (V3.dot (Far.vec 0 0 1) (Far.vec 0 0 1)) = .fin 1 := by
    norm_num [V3.dot, Far.vec, z0, z1, Far.abs_fin]
  have hdepth : rib.radius *. B64.fin 1 -. .fin h = .fin (1 / 2 ^ 54) := by
    show B64.fin (11 / 32) *. B64.fin 1 -. .fin h = _
    rw [B64.mul_fin, mul_one, hR, B64.sub_fin, show (11 / 32 - h : ℝ) = 1 / 2 ^ 54 by rw [h]; ring]
    exact B64.exact 1 (-54) (by norm_num) (by norm_num) (by norm_num) (by norm_num)
  have hlin : pose.linear.c1 = Far.vec 0 1 0 := rfl
  rw [Rib.envelopSamplingFlat, Rib.envelopSampling, l0, l1, l2, l3, s0, s1, s2, s3]
  dsimp only
  rw [hcross, hn, hlin, hy, hx, hz, hdot, hpoint, hcen, hnorm, hdepth, B64.zero_eq, B64.lt_fin, if_pos (by norm_num)]
  exact ⟨_, rfl, rfl, rfl⟩

end Shallow

/-- **C113**, what fails: the volume of a contact may be negative.  A wheel of radius 0.34375 m with its centre at the double just below
that height over the plane of height zero: the sampling method reports contact with the true depth `2 ^ (-54)` m and a negative volume,
although all values that enter are exact. -/
theorem C113_negative_refuted :
    SolidRib Shallow.rib (11 / 32) 1 ∧ ∃ o v, Shallow.rib.envelopSamplingFlat Far.ground Shallow.pose = (true, o) ∧
      o.depth = fin (1 / 2 ^ 54) ∧ o.volume = fin v ∧ v < 0 := by
  refine ⟨⟨rfl, rfl, ⟨11, -5, by norm_num, by norm_num, by norm_num⟩, by norm_num, by norm_num, by norm_num, by norm_num⟩, ?_⟩
  obtain ⟨o, e1, e2, e3⟩ := Shallow.record
  obtain ⟨v, e4, e5⟩ := Shallow.volume
  exact ⟨o, v, e1, e2, e3.trans e4, e5⟩

/-- The hypotheses of `C113_values` and `C113_positive` hold, and the volume is positive, for a wheel of radius 5/16 m and depth 1/16 m. -/
example : SolidRib AtOrigin.rib (5 / 16) 1 ∧ ∃ x, Rib.depthVolume AtOrigin.rib.radius AtOrigin.rib.width (fin (1 / 16)) = fin x ∧ 0 < x := by
  have h : SolidRib AtOrigin.rib (5 / 16) 1 :=
    ⟨rfl, rfl, ⟨5, -4, by norm_num, by norm_num, by norm_num⟩, by norm_num, by norm_num, by norm_num, by norm_num⟩
  exact ⟨h, (C113_positive (by norm_num) (by norm_num) (C113_values h (d := 1 / 16) (by norm_num) (by norm_num)) (by norm_num)).1
    (by norm_num)⟩
end Enve
