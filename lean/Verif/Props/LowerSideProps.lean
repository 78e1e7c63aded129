import Verif.Props.FootProps
import Verif.Props.BiggerProps
import Verif.Props.FootprintProps

/-! # C151: a tyre that leans carries on its lower side -/

namespace Enve
open Scalar Spec

namespace LowerSide

/-- Of two equal ribs the one nearer the ground reports no less. -/
theorem nearer {r r' : Rib ℝ} (hr : IsRib r) (hr' : IsRib r') (hrad : r'.radius = r.radius) (hwid : r'.width = r.width)
    {pose : Affine ℝ} (hp : IsRigid pose) {f : ℝ} {o n : V3 ℝ} {g : Flat ℝ} (hg : Flat.make f o n = .ok g)
    (hh : |height g.plane (ribCentre pose r')| ≤ |height g.plane (ribCentre pose r)|) :
    NotLess (r.envelopGeometricFlat g pose) (r'.envelopGeometricFlat g pose) := by
  have hn := Flat.make_unit hg
  have hR : 0 < r.radius := hr.radius_pos
  have hR' : 0 < r'.radius := hr'.radius_pos
  have hw := hr.width_nonneg
  have hq : |height g.plane (ribCentre pose r')| / √(sinSq g.plane.normal pose.linear.c1) ≤
      |height g.plane (ribCentre pose r)| / √(sinSq g.plane.normal pose.linear.c1) :=
    div_le_div_of_nonneg_right hh (Real.sqrt_nonneg _)
  have hD : sectionDepth g.plane pose r ≤ sectionDepth g.plane pose r' := by
    unfold sectionDepth; rw [hrad]; linarith
  have hle : ∀ q : Rib ℝ, sectionDepth g.plane pose q ≤ q.radius := fun q => by
    unfold sectionDepth
    have : 0 ≤ |height g.plane (ribCentre pose q)| / √(sinSq g.plane.normal pose.linear.c1) := by positivity
    linarith
  have hsq : height g.plane (ribCentre pose r') ^ 2 ≤ height g.plane (ribCentre pose r) ^ 2 := sq_le_sq.2 hh
  have hcontact : FlatContact g.plane pose r → FlatContact g.plane pose r' := by
    rintro ⟨h1, h2, h3⟩
    have hS0 := real_eps_pos.trans_le h1
    refine ⟨h1, ?_, ?_⟩
    · rw [hrad]; linarith
    · rw [hrad]
      refine h3.trans_le (mul_le_mul_of_nonneg_left (Real.sqrt_le_sqrt ?_) (by norm_num))
      have := div_le_div_of_nonneg_right hsq hS0.le
      linarith
  have pos : ∀ {q : Rib ℝ}, IsRib q → FlatContact g.plane pose q → 0 < sectionDepth g.plane pose q := by
    intro q hq' hc
    rcases Rib.geometricFlat_closed hq' hp hn with ⟨-, b2⟩ | ⟨b1, -⟩
    · have hB := C32_contact hq' hp hg (by rw [b2])
      dsimp only at hB
      rw [b2] at hB
      exact hB.2.2.2.2.2.2.1
    · exact absurd hc b1
  rcases Rib.geometricFlat_closed hr hp hn with ⟨a1, a2⟩ | ⟨a1, a2⟩ <;>
  rcases Rib.geometricFlat_closed hr' hp hn with ⟨b1, b2⟩ | ⟨b1, b2⟩ <;> rw [a2, b2]
  · refine ⟨fun _ => rfl, hD, ?_, ?_⟩
    · show Rib.depthArea _ _ _ ≤ Rib.depthArea _ _ _
      rw [hwid, hrad]; exact Rib.depthArea_mono hw hD (by rw [← hrad]; exact hle r')
    · show Rib.depthVolume _ _ _ ≤ Rib.depthVolume _ _ _
      rw [hwid, hrad]; exact Rib.depthVolume_mono hR hw (pos hr a1).le hD (by rw [← hrad]; exact hle r')
  · exact absurd (hcontact a1) b1
  · have hpos := pos hr' b1
    refine ⟨fun hc => (by cases hc), ?_, ?_, ?_⟩
    · simpa [Rib.noContact] using hpos.le
    · simpa [Rib.noContact] using Bigger.area_nonneg hr'.width_nonneg
    · have := Rib.depthVolume_mono hR' hr'.width_nonneg le_rfl hpos.le (hle r')
      rw [Bigger.volume_zero hR'] at this
      simpa [Rib.noContact] using this
  · exact ⟨fun hc => (by cases hc), le_rfl, le_rfl, le_rfl⟩

end LowerSide

/-- **C151, the ribs.**  A new tyre on flat ground, evaluated with the geometric method at any pose at which its whole axis
is above the ground.  Rib `i` and the rib as far from the middle on the other side are compared: if rib `i` is on the lower
side, it reports no less depth, area and volume, and a contact if the other does. -/
theorem C151_ribs {fresh : Nat → Output ℝ} {n : Nat} (hn : 1 ≤ n) {rx mx ry my ly : ℝ} (hv : ValidProfile rx mx ry my ly)
    {s s' : Shell ℝ} (hmake : Shell.make fresh n rx mx ry my ly = .ok s) {pose : Affine ℝ} (hp : IsRigid pose) {f : ℝ}
    {og nn : V3 ℝ} {g : Flat ℝ} (hg : Flat.make f og nn = .ok g)
    (habove : |dot3 g.plane.normal pose.linear.c1| * ly ≤ dot3 (minus pose.trans g.plane.origin) g.plane.normal)
    {pol : Policy} {b : Bool} (hs : s.setupFlat pol g pose "geometric" = .ok s' b) :
    ∃ (flag : Nat → Bool) (o : Nat → Output ℝ), Reports pol s' o ∧ s'.size = n ∧ ∀ i < n,
      ∃ r, s.ribs[i]? = some r ∧ r.envelopFlat g pose "geometric" = .ok (flag i, o i) ∧
      r.y = -ly + (2 * i + 1) * ly / n ∧
      (r.y * dot3 g.plane.normal pose.linear.c1 ≤ 0 →
        (flag (n - 1 - i) = true → flag i = true) ∧ (o (n - 1 - i)).depth ≤ (o i).depth ∧
        (o (n - 1 - i)).area ≤ (o i).area ∧ (o (n - 1 - i)).volume ≤ (o i).volume) := by
  set hub := dot3 (minus pose.trans g.plane.origin) g.plane.normal with hhub
  set k := dot3 g.plane.normal pose.linear.c1 with hk
  have ly0 := hv.ly_pos
  have hn0 : (n : ℝ) ≠ 0 := by positivity
  have hreach : s.Reachable pol := .make hmake
  obtain ⟨s1, e1, hsize, -, hshape, hribs, -⟩ := C04_construct fresh n hn rx mx ry my ly hv
  rw [hmake] at e1
  cases e1
  obtain ⟨flags, recs, hres, -⟩ := C38_flat_flag_partial pol s s' g pose "geometric" b hs
  have hrel := Shell.setupFlat_rel (.inl ⟨_, hs⟩)
  have hsize' : s'.size = n := by rw [Shell.size, hrel.ribs]; exact hsize
  have hrep : Reports pol s' recs := by
    rw [Shell.reports_iff, hsize', ← hsize]
    intro i hi
    obtain ⟨_, -, -, e⟩ := hres i hi
    exact e
  have hone : ∀ i < n, ∃ r, s.ribs[i]? = some r ∧ IsRib r ∧ r.envelopFlat g pose "geometric" = .ok (flags i, recs i) ∧
      r.y = -ly + (2 * i + 1) * ly / n ∧ r.width = 2 * ly / n ∧ r.radius = radAt rx mx ry my (-ly + (2 * i + 1) * ly / n) ∧
      |r.y| ≤ ly ∧ height g.plane (ribCentre pose r) = hub + r.y * k := by
    intro i hi
    obtain ⟨r, hr1, hr2, -⟩ := hres i (by rw [hsize]; exact hi)
    rw [hrel.ribs] at hr1
    have hr1' : s.ribs[i]? = some r := hr1
    have hrib := hreach.isRib r (List.mem_of_getElem? hr1')
    obtain ⟨ρ, hρ0, hc', hw, hrad, hon⟩ := hribs i hi
    have hc' : r.center = ⟨0, -ly + (2 * i + 1) * ly / n, 0⟩ := by
      rw [Shell.ribCenter, Shell.ribAt, hr1'] at hc'; exact Res.ok.inj hc'
    have hw' : r.width = 2 * ly / n := by
      rw [Shell.ribWidth, Shell.ribAt, hr1'] at hw; exact Res.ok.inj hw
    have hrad' : r.radius = ρ := by
      rw [Shell.ribRadius, Shell.ribAt, hr1'] at hrad; exact Res.ok.inj hrad
    have hy : |-ly + (2 * i + 1) * ly / n| ≤ ly := (Shell.real_centre_abs ly0 hi).le
    have hyi : r.y = -ly + (2 * i + 1) * ly / n := (V3.mk.inj ((show r.center = ⟨0, r.y, 0⟩ from hrib.center).symm.trans hc')).2.1
    refine ⟨r, hr1', hrib, hr2, hyi, hw', by rw [hrad', (radAt_profile hv hy ρ).1 hon], by rw [hyi]; exact hy, ?_⟩
    unfold ribCentre
    rw [show r.center = ⟨0, r.y, 0⟩ from hrib.center, height_apply, mul_zero, mul_zero, add_zero, add_zero]
    rfl
  refine ⟨flags, recs, hrep, hsize', fun i hi => ?_⟩
  obtain ⟨r, a1, a2, a3, a4, a5, a6, a7, a8⟩ := hone i hi
  refine ⟨r, a1, a3, a4, fun hlow => ?_⟩
  obtain ⟨r', b1, b2, b3, b4, b5, b6, b7, b8⟩ := hone (n - 1 - i) (by omega)
  have hopp : r'.y = -r.y := by
    have e : ((n - 1 - i : Nat) : ℝ) = n - 1 - i := by
      rw [Nat.sub_sub, Nat.cast_sub (by omega)]; push_cast; ring
    rw [a4, b4, e]; field_simp; ring
  have hrr : r.radius = r'.radius := by
    rw [a6, b6, ← a4, ← b4, hopp]; unfold radAt; rw [abs_neg]
  have hpos : ∀ y, |y| ≤ ly → 0 ≤ hub + y * k := by
    intro y hy
    have h1 : -(y * k) ≤ |k| * ly := by
      refine (neg_le_abs _).trans ?_
      rw [abs_mul, mul_comm]
      exact mul_le_mul_of_nonneg_left hy (abs_nonneg _)
    linarith
  have := LowerSide.nearer b2 a2 hrr (a5.trans b5.symm) hp hg (by
    rw [a8, b8, abs_of_nonneg (hpos _ a7), abs_of_nonneg (hpos _ b7), hopp]; linarith)
  rw [Rib.envelopFlat_geometric_eq a3, Rib.envelopFlat_geometric_eq b3] at this
  exact ⟨this.flag, this.depth, this.area, this.volume⟩

namespace LowerSide

/-- A rib in contact reports a point in its own plane. -/
theorem axial {r : Rib ℝ} (hr : IsRib r) {pose : Affine ℝ} (hp : IsRigid pose) {f : ℝ} {og n : V3 ℝ} {g : Flat ℝ}
    (hg : Flat.make f og n = .ok g) {o : Output ℝ} {c : Bool} (h : r.envelopFlat g pose "geometric" = .ok (c, o))
    (h0 : o.volume ≠ 0) : dot3 o.point pose.linear.c1 = dot3 pose.trans pose.linear.c1 + 1 * r.y := by
  have h := Rib.envelopFlat_geometric_eq h
  have hu : dot3 pose.linear.c1 pose.linear.c1 = 1 := by
    have := IsRotation.unit1 hp
    simp only [dot3]; linear_combination this
  rcases Rib.geometricFlat_closed hr hp (Flat.make_unit hg) with ⟨-, b⟩ | ⟨-, b⟩ <;> rw [b] at h
  · rw [← (Prod.mk.inj h).2]
    dsimp only
    rw [ribCentre, show r.center = ⟨0, r.y, 0⟩ from hr.center, sectionFoot]
    generalize height g.plane _ / _ = t
    simp only [Affine.apply, along, minus, dot3] at hu ⊢
    v3
    simp only [mul_zero, add_zero, zero_add]
    linear_combination (r.y + t * (g.plane.normal.x * pose.linear.c1.x + g.plane.normal.y * pose.linear.c1.y + g.plane.normal.z * pose.linear.c1.z)) * hu
  · rw [← (Prod.mk.inj h).2] at h0
    simp [Rib.noContact] at h0

end LowerSide

/-- **C151, the contact point.**  With the same hypotheses, if the total volume reaches the threshold, the contact point of
the tyre is not on the upper side of the middle plane of the wheel. -/
theorem C151_point {fresh : Nat → Output ℝ} {n : Nat} (hn : 1 ≤ n) {rx mx ry my ly : ℝ} (hv : ValidProfile rx mx ry my ly)
    {s s' : Shell ℝ} (hmake : Shell.make fresh n rx mx ry my ly = .ok s) {pose : Affine ℝ} (hp : IsRigid pose) {f : ℝ}
    {og nn : V3 ℝ} {g : Flat ℝ} (hg : Flat.make f og nn = .ok g)
    (habove : |dot3 g.plane.normal pose.linear.c1| * ly ≤ dot3 (minus pose.trans g.plane.origin) g.plane.normal)
    {pol : Policy} {b : Bool} (hset : s.setupFlat pol g pose "geometric" = .ok s' b) {v : ℝ}
    (hvol : s'.contactVolume pol = .ok v) (hheavy : Scalar.eps ≤ v) :
    ∃ p, s'.contactPoint pol = .ok p ∧
      dot3 (minus p pose.trans) pose.linear.c1 * dot3 g.plane.normal pose.linear.c1 ≤ 0 := by
  have hs : s.Reachable pol := .make hmake
  obtain ⟨flag, o, ho, hsize, hribs⟩ := C151_ribs hn hv hmake hp hg habove hset
  obtain ⟨o', ho', hvol0⟩ := C43_after_setup hs hp (.inr ⟨f, og, nn, g, hg, hset⟩ : SetUp pol s pose "geometric" s' b)
  have hoo : ∀ i < n, o' i = o i := fun i hi =>
    Res.ok.inj ((Shell.reports_iff.1 ho' i (by omega)).symm.trans (Shell.reports_iff.1 ho i (by omega)))
  have hvol0 : ∀ i < s'.size, 0 ≤ (o i).volume := fun i hi => by
    rw [← hoo i (by omega)]; exact hvol0 i hi
  have hn0 : (n : ℝ) ≠ 0 := by positivity
  set k := dot3 g.plane.normal pose.linear.c1 with hk
  set y : Nat → ℝ := fun i => -ly + (2 * i + 1) * ly / n with hyd
  have hyr : ∀ i < n, y (n - 1 - i) = - y i := by
    intro i hi
    have e : ((n - 1 - i : Nat) : ℝ) = n - 1 - i := by
      rw [Nat.sub_sub, Nat.cast_sub (by omega)]; push_cast; ring
    simp only [hyd, e]
    field_simp
    ring
  have hlow : ∀ i < n, y i * k ≤ 0 → (o (n - 1 - i)).volume ≤ (o i).volume := by
    intro i hi hlow
    obtain ⟨r, -, -, hy, h⟩ := hribs i hi
    exact (h (by rw [hy]; exact hlow)).2.2.2
  have hterm : ∀ i < n, ((o i).volume - (o (n - 1 - i)).volume) * (y i * k) ≤ 0 := by
    intro i hi
    rcases le_total (y i * k) 0 with h | h
    · exact mul_nonpos_of_nonneg_of_nonpos (by linarith [hlow i hi h]) h
    · have := hlow (n - 1 - i) (by omega) (by rw [hyr i hi]; linarith)
      rw [show n - 1 - (n - 1 - i) = i by omega] at this
      exact mul_nonpos_of_nonpos_of_nonneg (by linarith) h
  have hmom : (∑ i ∈ Finset.range n, (o i).volume * y i) * k ≤ 0 := by
    have h1 := Finset.sum_range_reflect (fun i => (o i).volume * y i) n
    have h2 : ∑ i ∈ Finset.range n, (o (n - 1 - i)).volume * y (n - 1 - i) = - ∑ i ∈ Finset.range n, (o (n - 1 - i)).volume * y i := by
      rw [← Finset.sum_neg_distrib]
      refine Finset.sum_congr rfl fun i hi => ?_
      rw [hyr i (Finset.mem_range.1 hi)]; ring
    have h3 := Finset.sum_nonpos fun i hi => hterm i (Finset.mem_range.1 hi)
    have h4 : ∑ i ∈ Finset.range n, ((o i).volume - (o (n - 1 - i)).volume) * (y i * k) =
        (∑ i ∈ Finset.range n, (o i).volume * y i - ∑ i ∈ Finset.range n, (o (n - 1 - i)).volume * y i) * k := by
      rw [← Finset.sum_sub_distrib, Finset.sum_mul]
      exact Finset.sum_congr rfl fun i _ => by ring
    rw [h4] at h3
    rw [h2] at h1
    have h5 : ∑ i ∈ Finset.range n, (o (n - 1 - i)).volume * y i = - ∑ i ∈ Finset.range n, (o i).volume * y i := by linarith
    rw [h5] at h3
    linarith
  have hV : v = ∑ i ∈ Finset.range s'.size, (o i).volume := by
    rw [C42_total_real ho] at hvol; exact (Res.ok.inj hvol).symm
  have heps := real_eps_pos
  have hlt : ¬ ∑ i ∈ Finset.range s'.size, (o i).volume < Scalar.eps := by rw [← hV]; exact not_lt.2 hheavy
  obtain ⟨-, -, h3, -⟩ := C43_average ho (by omega) hvol0
  refine ⟨_, h3, ?_⟩
  rw [ribWeight_heavy hlt fun i => (o i).point.x, ribWeight_heavy hlt fun i => (o i).point.y,
    ribWeight_heavy hlt fun i => (o i).point.z, hsize]
  rw [hsize] at hV
  have hpos : 0 < ∑ i ∈ Finset.range n, (o i).volume := by linarith
  have hsum : ∑ i ∈ Finset.range n, (o i).volume * dot3 (o i).point pose.linear.c1 =
      dot3 pose.trans pose.linear.c1 * ∑ i ∈ Finset.range n, (o i).volume + ∑ i ∈ Finset.range n, (o i).volume * y i := by
    rw [Finset.mul_sum, ← Finset.sum_add_distrib]
    refine Finset.sum_congr rfl fun i hi => ?_
    obtain ⟨r, h1, h2, h3, -⟩ := hribs i (Finset.mem_range.1 hi)
    rcases eq_or_ne (o i).volume 0 with h0 | h0
    · simp [h0]
    · rw [LowerSide.axial (hs.isRib r (List.mem_of_getElem? h1)) hp hg h2 h0, h3]; ring
  have e : ∑ i ∈ Finset.range n, (o i).volume * dot3 (o i).point pose.linear.c1 =
      (∑ i ∈ Finset.range n, (o i).volume * (o i).point.x) * pose.linear.c1.x +
      (∑ i ∈ Finset.range n, (o i).volume * (o i).point.y) * pose.linear.c1.y +
      (∑ i ∈ Finset.range n, (o i).volume * (o i).point.z) * pose.linear.c1.z := by
    rw [Finset.sum_mul, Finset.sum_mul, Finset.sum_mul, ← Finset.sum_add_distrib, ← Finset.sum_add_distrib]
    refine Finset.sum_congr rfl fun i _ => ?_
    simp only [dot3]; ring
  rw [hsum] at e
  generalize ∑ i ∈ Finset.range n, (o i).volume * (o i).point.x = X at e ⊢
  generalize ∑ i ∈ Finset.range n, (o i).volume * (o i).point.y = Y at e ⊢
  generalize ∑ i ∈ Finset.range n, (o i).volume * (o i).point.z = Z at e ⊢
  generalize ∑ i ∈ Finset.range n, (o i).volume = V at e hpos ⊢
  generalize ∑ i ∈ Finset.range n, (o i).volume * y i = M at e hmom
  have hfin : dot3 (minus ⟨X / V, Y / V, Z / V⟩ pose.trans) pose.linear.c1 = M / V := by
    simp only [dot3, minus] at e ⊢
    field_simp
    linear_combination -e
  rw [hfin, div_mul_eq_mul_div]
  exact div_nonpos_of_nonpos_of_nonneg hmom hpos.le

namespace LowerSide

/-- A rib sunk by at least half its radius has a volume of at least half the square of the radius, times its width. -/
theorem halfSunk {R w d : ℝ} (hR : 0 < R) (hw : 0 ≤ w) (h1 : R / 2 ≤ d) (h2 : d ≤ R) :
    R ^ 2 / 2 * w ≤ Rib.depthVolume R w d := by
  have hd : (0 : ℝ) ≤ R / 2 := by positivity
  refine le_trans ?_ (Rib.depthVolume_mono hR hw hd h1 h2)
  unfold Rib.depthVolume
  simp only [real_mul, real_sub, real_div, real_acos, real_sqrt, real_two]
  refine mul_le_mul_of_nonneg_right ?_ hw
  have e : (R - R / 2) / R = 1 / 2 := by field_simp; norm_num
  have ha : Real.arccos (1 / 2) = Real.pi / 3 := by
    rw [← Real.cos_pi_div_three]
    exact Real.arccos_cos (by positivity) (by linarith [Real.pi_pos])
  have hs : √(R / 2 * (2 * R - R / 2)) ≤ R := by
    rw [Real.sqrt_le_left hR.le]; nlinarith
  have hpi := Real.pi_gt_three
  rw [e, ha]
  nlinarith [sq_nonneg R, mul_pos hR hR]

end LowerSide

/-- The leaning wheel with its lower edge on the road. -/
noncomputable def Demo.leantUp : Affine ℝ := ⟨Demo.leant.linear, ⟨0, 0, 1 / 5⟩⟩

/-- The hypotheses are met: a tyre of any number of ribs leans on the road, and its contact point is on the lower side. -/
example (fresh : Nat → Output ℝ) (n : Nat) (hn : 1 ≤ n) (hn' : n ≤ 200) : ∃ (s s' : Shell ℝ) (b : Bool) (v : ℝ) (p : V3 ℝ),
    Shell.make fresh n 1 2 1 2 (1 / 4) = .ok s ∧ s.setupFlat .raw Demo.road Demo.leantUp "geometric" = .ok s' b ∧
    s'.contactVolume .raw = .ok v ∧ Scalar.eps ≤ v ∧ s'.contactPoint .raw = .ok p ∧
    dot3 (minus p Demo.leantUp.trans) Demo.leantUp.linear.c1 ≤ 0 := by
  have hv : ValidProfile (1 : ℝ) 2 1 2 (1 / 4) :=
    ⟨by norm_num, by norm_num, by norm_num, by norm_num, by norm_num, by norm_num⟩
  have hp : IsRigid Demo.leantUp := by constructor <;> norm_num [Demo.leantUp, Demo.leant]
  have heps : (Scalar.eps : ℝ) ≤ 1 / 2000 := by rw [real_eps]; norm_num
  have hn0 : (0 : ℝ) < n := by exact_mod_cast hn
  obtain ⟨s, h1, h2, -, -, hrb, -⟩ := C04_construct fresh n hn 1 2 1 2 (1 / 4) hv
  have hreach : s.Reachable .raw := .make h1
  obtain ⟨s', b, hs, -⟩ := Shell.flat_shows hreach (by rw [h2]; exact hn') Demo.road Demo.leantUp (.inl rfl)
  have hc : dot3 Demo.road.plane.normal Demo.leantUp.linear.c1 = 4 / 5 := by
    norm_num [dot3, Demo.road, Demo.leantUp, Demo.leant]
  have hh : dot3 (minus Demo.leantUp.trans Demo.road.plane.origin) Demo.road.plane.normal = 1 / 5 := by
    norm_num [dot3, minus, Demo.road, Demo.leantUp]
  have habove : |dot3 Demo.road.plane.normal Demo.leantUp.linear.c1| * (1 / 4) ≤
      dot3 (minus Demo.leantUp.trans Demo.road.plane.origin) Demo.road.plane.normal := by
    rw [hc, hh, abs_of_pos (by norm_num)]; norm_num
  obtain ⟨o, ho, hvol0⟩ := C43_after_setup hreach hp
    (.inr ⟨_, _, _, _, Demo.road_make, hs⟩ : SetUp .raw s Demo.leantUp "geometric" s' b)
  obtain ⟨hsize, hrec⟩ := Foot.records hs ho
  rw [h2] at hsize
  obtain ⟨r, c, a, e⟩ := hrec 0 (by omega)
  obtain ⟨ρ, -, hcen, hw, hrad, hon⟩ := hrb 0 hn
  simp only [Shell.ribCenter, Shell.ribWidth, Shell.ribRadius, Shell.ribAt, a, Res.bind_ok, Res.pure_eq, Res.ok.injEq] at hcen hw hrad
  have hr := hreach.isRib r (List.mem_of_getElem? a)
  have hyi : r.y = -(1 / 4) + 1 / 4 / n := by
    have := (V3.mk.inj ((show r.center = ⟨0, r.y, 0⟩ from hr.center).symm.trans hcen)).2.1
    rw [this]; norm_num
  have hya : |-(1 / 4 : ℝ) + (2 * (0 : Nat) + 1) * (1 / 4) / n| ≤ 1 / 4 := (Shell.real_centre_abs (by norm_num) hn).le
  have hR2 : 15 / 16 ≤ r.radius ^ 2 := by
    rw [hrad, (radAt_profile hv hya ρ).1 hon, radAt, one_mul, ← Real.sqrt_eq_rpow, div_one, Real.rpow_two, sq_abs]
    have h3 := abs_le.1 hya
    rw [Real.sq_sqrt (by nlinarith)]
    nlinarith
  have hR : 0 < r.radius := hr.radius_pos
  have hR' : 9 / 10 ≤ r.radius := by nlinarith
  have hS : sinSq Demo.road.plane.normal Demo.leantUp.linear.c1 = 9 / 25 := by rw [sinSq, hc]; norm_num
  have hsq : √(9 / 25 : ℝ) = 3 / 5 := by
    rw [show (9 / 25 : ℝ) = (3 / 5) ^ 2 by norm_num]; exact Real.sqrt_sq (by norm_num)
  have hq0 : 0 < 1 / 5 / (n : ℝ) := by positivity
  have hq1 : 1 / 5 / (n : ℝ) ≤ 1 / 5 := div_le_self (by norm_num) (by exact_mod_cast hn)
  have hH : height Demo.road.plane (ribCentre Demo.leantUp r) = 1 / 5 / n := by
    unfold ribCentre
    rw [show r.center = ⟨0, r.y, 0⟩ from hr.center, height_apply, mul_zero, mul_zero, add_zero, add_zero, hc,
      show height Demo.road.plane Demo.leantUp.trans = 1 / 5 from hh, hyi]
    ring
  have hcon : FlatContact Demo.road.plane Demo.leantUp r := by
    unfold FlatContact
    dsimp only
    rw [hS, hH]
    refine ⟨by linarith, by nlinarith, ?_⟩
    have h4 : (1 / 2 : ℝ) ≤ √(r.radius ^ 2 - (1 / 5 / n) ^ 2 / (9 / 25)) := by
      refine Real.le_sqrt_of_sq_le ?_
      nlinarith
    linarith
  have hvol : r.radius ^ 2 / 2 * r.width ≤ (o 0).volume := by
    have e := Rib.envelopFlat_geometric_eq e
    rcases Rib.geometricFlat_closed hr hp (Flat.make_unit Demo.road_make) with ⟨-, h5⟩ | ⟨h5, -⟩
    · rw [h5] at e
      rw [← (Prod.mk.inj e).2]
      refine LowerSide.halfSunk hR hr.width_nonneg ?_ ?_ <;> rw [sectionDepth, hS, hH, hsq, abs_of_pos hq0] <;> linarith
    · exact absurd hcon h5
  have hV := C42_total_real ho
  have hheavy : Scalar.eps ≤ ∑ i ∈ Finset.range s'.size, (o i).volume := by
    have h6 := Finset.single_le_sum (f := fun i => (o i).volume) (s := Finset.range s'.size)
      (fun i hi => hvol0 i (Finset.mem_range.1 hi)) (Finset.mem_range.2 (by omega : 0 < s'.size))
    have h7 : 1 / 400 ≤ r.width := by
      rw [hw, le_div_iff₀ hn0]
      have : (n : ℝ) ≤ 200 := by exact_mod_cast hn'
      linarith
    have h8 : 1 / 2000 ≤ r.radius ^ 2 / 2 * r.width := by nlinarith
    linarith
  obtain ⟨p, h9, h10⟩ := C151_point hn hv h1 hp Demo.road_make habove hs hV hheavy
  refine ⟨s, s', b, _, p, h1, hs, hV, hheavy, h9, ?_⟩
  rw [hc] at h10
  linarith

end Enve
