import Verif.Props.LowerSideProps

/-! # C152: of two ribs the one nearer the middle and nearer the ground carries no less -/

namespace Enve
open Scalar Spec

namespace Middle

/-- Of two ribs of the same width the one that is larger and nearer the ground reports no less. -/
theorem larger {r r' : Rib ℝ} (hr : IsRib r) (hr' : IsRib r') (hrad : r.radius ≤ r'.radius) (hwid : r'.width = r.width)
    {pose : Affine ℝ} (hp : IsRigid pose) {f : ℝ} {o n : V3 ℝ} {g : Flat ℝ} (hg : Flat.make f o n = .ok g)
    (hh : |height g.plane (ribCentre pose r')| ≤ |height g.plane (ribCentre pose r)|) :
    NotLess (r.envelopGeometricFlat g pose) (r'.envelopGeometricFlat g pose) := by
  -- a rib at the place of the second with the radius of the first
  set q : Rib ℝ := Rib.make 0 r.radius r'.y r.width 0 with hq
  have hqr : IsRib q := Rib.make_isRib 0 r'.y 0 hr.radius_pos hr.width_nonneg
  have hcen : ribCentre pose q = ribCentre pose r' := by
    unfold ribCentre
    rw [show r'.center = ⟨0, r'.y, 0⟩ from hr'.center, show q.center = ⟨0, q.y, 0⟩ from hqr.center]
    rfl
  have h1 := LowerSide.nearer hr hqr rfl rfl hp hg (by rw [hcen]; exact hh)
  have h2 := C144_geometric_flat hqr hr' ⟨rfl, hwid, hrad⟩ hp hg
  exact ⟨fun h => h2.flag (h1.flag h), h1.depth.trans h2.depth, h1.area.trans h2.area, h1.volume.trans h2.volume⟩

end Middle

/-- **C152.**  A new tyre on flat ground, evaluated with the geometric method at any pose at which its whole axis is above the
ground.  A rib that is no farther from the middle of the tyre and no higher above the ground than another rib reports no less
depth, area and volume, and a contact if the other does. -/
theorem C152_ribs {fresh : Nat → Output ℝ} {n : Nat} (hn : 1 ≤ n) {rx mx ry my ly : ℝ} (hv : ValidProfile rx mx ry my ly)
    {s s' : Shell ℝ} (hmake : Shell.make fresh n rx mx ry my ly = .ok s) {pose : Affine ℝ} (hp : IsRigid pose) {f : ℝ}
    {og nn : V3 ℝ} {g : Flat ℝ} (hg : Flat.make f og nn = .ok g)
    (habove : |dot3 g.plane.normal pose.linear.c1| * ly ≤ dot3 (minus pose.trans g.plane.origin) g.plane.normal)
    {pol : Policy} {b : Bool} (hs : s.setupFlat pol g pose "geometric" = .ok s' b) :
    ∃ (flag : Nat → Bool) (o : Nat → Output ℝ), Reports pol s' o ∧ s'.size = n ∧
      (∀ i < n, ∃ r, s.ribs[i]? = some r ∧ r.envelopFlat g pose "geometric" = .ok (flag i, o i)) ∧
      ∀ i < n, ∀ j < n, ∀ r r', s.ribs[i]? = some r → s.ribs[j]? = some r' → |r.y| ≤ |r'.y| →
        height g.plane (ribCentre pose r) ≤ height g.plane (ribCentre pose r') →
        (flag j = true → flag i = true) ∧ (o j).depth ≤ (o i).depth ∧ (o j).area ≤ (o i).area ∧
        (o j).volume ≤ (o i).volume := by
  set hub := dot3 (minus pose.trans g.plane.origin) g.plane.normal with hhub
  set k := dot3 g.plane.normal pose.linear.c1 with hk
  have ly0 := hv.ly_pos
  have hreach : s.Reachable pol := .make hmake
  obtain ⟨flag, o, ho, hsize, hribs⟩ := C151_ribs hn hv hmake hp hg habove hs
  obtain ⟨s1, e1, -, -, -, hrb, -⟩ := C04_construct fresh n hn rx mx ry my ly hv
  rw [hmake] at e1
  cases e1
  have hone : ∀ i < n, ∀ r, s.ribs[i]? = some r → IsRib r ∧ r.envelopFlat g pose "geometric" = .ok (flag i, o i) ∧
      r.width = 2 * ly / n ∧ r.radius = radAt rx mx ry my r.y ∧ |r.y| ≤ ly ∧
      0 ≤ height g.plane (ribCentre pose r) := by
    intro i hi r a
    obtain ⟨r0, a0, c, d, -⟩ := hribs i hi
    rw [a] at a0
    cases a0
    have hrib := hreach.isRib r (List.mem_of_getElem? a)
    obtain ⟨ρ, -, -, hw, hrad, hon⟩ := hrb i hi
    simp only [Shell.ribWidth, Shell.ribRadius, Shell.ribAt, a, Res.bind_ok, Res.pure_eq, Res.ok.injEq] at hw hrad
    have hy : |-ly + (2 * i + 1) * ly / n| ≤ ly := (Shell.real_centre_abs ly0 hi).le
    rw [← d] at hy hon
    refine ⟨hrib, c, hw, by rw [hrad, (radAt_profile hv hy ρ).1 hon], hy, ?_⟩
    unfold ribCentre
    rw [show r.center = ⟨0, r.y, 0⟩ from hrib.center, height_apply, mul_zero, mul_zero, add_zero, add_zero]
    show 0 ≤ hub + r.y * k
    have h1 : -(r.y * k) ≤ |k| * ly := by
      refine (neg_le_abs _).trans ?_
      rw [abs_mul, mul_comm]
      exact mul_le_mul_of_nonneg_left hy (abs_nonneg _)
    linarith
  refine ⟨flag, o, ho, hsize, fun i hi => ?_, fun i hi j hj r r' a a' hy hh => ?_⟩
  · obtain ⟨r, h1, h2, -⟩ := hribs i hi
    exact ⟨r, h1, h2⟩
  · obtain ⟨b1, b2, b3, b4, b5, b6⟩ := hone i hi r a
    obtain ⟨c1, c2, c3, c4, c5, c6⟩ := hone j hj r' a'
    have := Middle.larger c1 b1 (by rw [b4, c4]; exact radAt_anti hv c5 hy) (b3.trans c3.symm) hp hg (by
      rw [abs_of_nonneg b6, abs_of_nonneg c6]; exact hh)
    rw [Rib.envelopFlat_geometric_eq b2, Rib.envelopFlat_geometric_eq c2] at this
    exact ⟨this.flag, this.depth, this.area, this.volume⟩

/-- **C152, a level tyre.**  If the axis of the tyre is parallel to the ground and not below it, the depth, area and volume
that the ribs report do not increase from the middle of the tyre to its sides. -/
theorem C152_level {fresh : Nat → Output ℝ} {n : Nat} (hn : 1 ≤ n) {rx mx ry my ly : ℝ} (hv : ValidProfile rx mx ry my ly)
    {s s' : Shell ℝ} (hmake : Shell.make fresh n rx mx ry my ly = .ok s) {pose : Affine ℝ} (hp : IsRigid pose) {f : ℝ}
    {og nn : V3 ℝ} {g : Flat ℝ} (hg : Flat.make f og nn = .ok g) (hlevel : dot3 g.plane.normal pose.linear.c1 = 0)
    (habove : 0 ≤ dot3 (minus pose.trans g.plane.origin) g.plane.normal)
    {pol : Policy} {b : Bool} (hs : s.setupFlat pol g pose "geometric" = .ok s' b) :
    ∃ o : Nat → Output ℝ, Reports pol s' o ∧ s'.size = n ∧
      ∀ i < n, ∀ j < n, |2 * (i : ℝ) + 1 - n| ≤ |2 * (j : ℝ) + 1 - n| →
        (o j).depth ≤ (o i).depth ∧ (o j).area ≤ (o i).area ∧ (o j).volume ≤ (o i).volume := by
  have ly0 := hv.ly_pos
  have hn0 : (0 : ℝ) < n := by exact_mod_cast hn
  have ha : |dot3 g.plane.normal pose.linear.c1| * ly ≤ dot3 (minus pose.trans g.plane.origin) g.plane.normal := by
    rw [hlevel, abs_zero, zero_mul]; exact habove
  have hreach : s.Reachable pol := .make hmake
  obtain ⟨flag, o, ho, hsize, -, hcmp⟩ := C152_ribs hn hv hmake hp hg ha hs
  obtain ⟨_, _, -, -, hribs⟩ := C151_ribs hn hv hmake hp hg ha hs
  have hy : ∀ i < n, ∃ r, s.ribs[i]? = some r ∧ |r.y| = |2 * (i : ℝ) + 1 - n| * (ly / n) ∧
      height g.plane (ribCentre pose r) = height g.plane pose.trans := by
    intro i hi
    obtain ⟨r, h1, -, h3, -⟩ := hribs i hi
    refine ⟨r, h1, ?_, ?_⟩
    · rw [h3, ← abs_of_pos (show 0 < ly / n by positivity), ← abs_mul]
      congr 1
      field_simp
      ring
    · have hrib := hreach.isRib r (List.mem_of_getElem? h1)
      unfold ribCentre
      rw [show r.center = ⟨0, r.y, 0⟩ from hrib.center, height_apply, mul_zero, mul_zero, add_zero, add_zero, hlevel, mul_zero,
        add_zero]
  refine ⟨o, ho, hsize, fun i hi j hj hij => ?_⟩
  obtain ⟨r, a1, a2, a3⟩ := hy i hi
  obtain ⟨r', b1, b2, b3⟩ := hy j hj
  exact (hcmp i hi j hj r r' a1 b1 (by rw [a2, b2]; exact mul_le_mul_of_nonneg_right hij (by positivity))
    (by rw [a3, b3])).2

/-- The hypotheses are met: a tyre of any number of ribs upright on the road. -/
example (fresh : Nat → Output ℝ) (n : Nat) (hn : 1 ≤ n) (hn' : n ≤ 200) : ∃ (s s' : Shell ℝ) (b : Bool) (o : Nat → Output ℝ),
    Shell.make fresh n 1 2 1 2 (1 / 4) = .ok s ∧
    s.setupFlat .raw Demo.road (Demo.upright (1 / 2)) "geometric" = .ok s' b ∧ Reports .raw s' o ∧
    ∀ i < n, ∀ j < n, |2 * (i : ℝ) + 1 - n| ≤ |2 * (j : ℝ) + 1 - n| → (o j).depth ≤ (o i).depth := by
  have hv : ValidProfile (1 : ℝ) 2 1 2 (1 / 4) :=
    ⟨by norm_num, by norm_num, by norm_num, by norm_num, by norm_num, by norm_num⟩
  obtain ⟨s, h1, h2, -⟩ := C04_construct fresh n hn 1 2 1 2 (1 / 4) hv
  obtain ⟨s', b, hs, -⟩ := Shell.flat_shows (.make h1) (by rw [h2]; exact hn') Demo.road (Demo.upright (1 / 2)) (.inl rfl)
  obtain ⟨o, ho, -, h⟩ := C152_level hn hv h1 (Demo.upright_rigid (1 / 2)) Demo.road_make
    (by norm_num [dot3, Demo.road, Demo.upright]) (by norm_num [dot3, minus, Demo.road, Demo.upright]) hs
  exact ⟨s, s', b, o, h1, hs, ho, fun i hi j hj hij => (h i hi j hj hij).1⟩

end Enve
