import Verif.Props.LowerSideProps

/-! # C151: a tyre whose axis is below the ground -/

namespace Enve
open Scalar Spec

/-- The leaning wheel with its hub below the road. -/
noncomputable def Demo.leantDown : Affine ℝ := ⟨Demo.leant.linear, ⟨0, 0, -(1 / 10)⟩⟩

/-- **C151 needs the axis above the ground.**  A tyre of two ribs leans with its hub below the road: both ribs are in contact,
and the rib on the lower side, which is the first, reports less depth than the other. -/
theorem C151_needs_axis_above (fresh : Nat → Output ℝ) : ∃ (s s' : Shell ℝ) (b : Bool) (d d' : ℝ) (r r' : Rib ℝ),
    Shell.make fresh 2 1 2 1 2 (1 / 4) = .ok s ∧ IsRigid Demo.leantDown ∧
    s.setupFlat .raw Demo.road Demo.leantDown "geometric" = .ok s' b ∧
    s.ribs = [r, r'] ∧ height Demo.road.plane (ribCentre Demo.leantDown r) < height Demo.road.plane (ribCentre Demo.leantDown r') ∧
    s'.contactDepthAt .raw 0 = .ok d ∧ s'.contactDepthAt .raw 1 = .ok d' ∧ 0 < d ∧ d < d' := by
  have hv : ValidProfile (1 : ℝ) 2 1 2 (1 / 4) :=
    ⟨by norm_num, by norm_num, by norm_num, by norm_num, by norm_num, by norm_num⟩
  have hp : IsRigid Demo.leantDown := by constructor <;> norm_num [Demo.leantDown, Demo.leant]
  have heps : (Scalar.eps : ℝ) ≤ 1 / 2000 := by rw [real_eps]; norm_num
  obtain ⟨s, h1, h2, -, -, hrb, -⟩ := C04_construct fresh 2 (by norm_num) 1 2 1 2 (1 / 4) hv
  have hreach : s.Reachable .raw := .make h1
  obtain ⟨s', b, hs, -⟩ := Shell.flat_shows hreach (by rw [h2]; norm_num) Demo.road Demo.leantDown (.inl rfl)
  have hc : dot3 Demo.road.plane.normal Demo.leantDown.linear.c1 = 4 / 5 := by
    norm_num [dot3, Demo.road, Demo.leantDown, Demo.leant]
  have hh : height Demo.road.plane Demo.leantDown.trans = -(1 / 10) := by
    norm_num [height, dot3, minus, Demo.road, Demo.leantDown]
  have hS : sinSq Demo.road.plane.normal Demo.leantDown.linear.c1 = 9 / 25 := by rw [sinSq, hc]; norm_num
  have hsq : √(9 / 25 : ℝ) = 3 / 5 := by
    rw [show (9 / 25 : ℝ) = (3 / 5) ^ 2 by norm_num]; exact Real.sqrt_sq (by norm_num)
  obtain ⟨o, ho, -⟩ := C43_after_setup hreach hp
    (.inr ⟨_, _, _, _, Demo.road_make, hs⟩ : SetUp .raw s Demo.leantDown "geometric" s' b)
  obtain ⟨hsize, hrec⟩ := Foot.records hs ho
  rw [h2] at hsize
  have hone : ∀ i : Nat, i < 2 → ∃ r, s.ribs[i]? = some r ∧ r.radius ^ 2 = 63 / 64 ∧ 0 < r.radius ∧
      height Demo.road.plane (ribCentre Demo.leantDown r) = -(1 / 10) + (-(1 / 4) + (2 * i + 1) * (1 / 4) / 2) * (4 / 5) ∧
      (o i).depth = r.radius - |height Demo.road.plane (ribCentre Demo.leantDown r)| / (3 / 5) := by
    intro i hi
    obtain ⟨r, c, a, e⟩ := hrec i (by omega)
    obtain ⟨ρ, -, hcen, -, hrad, hon⟩ := hrb i hi
    simp only [Shell.ribCenter, Shell.ribRadius, Shell.ribAt, a, Res.bind_ok, Res.pure_eq, Res.ok.injEq] at hcen hrad
    have hr := hreach.isRib r (List.mem_of_getElem? a)
    have hyi := (V3.mk.inj ((show r.center = ⟨0, r.y, 0⟩ from hr.center).symm.trans hcen)).2.1
    have hR : 0 < r.radius := hr.radius_pos
    have hya : |-(1 / 4 : ℝ) + (2 * i + 1) * (1 / 4) / (2 : ℕ)| ≤ 1 / 4 := (Shell.real_centre_abs (by norm_num) hi).le
    have hR2 : r.radius ^ 2 = 63 / 64 := by
      rw [hrad, (radAt_profile hv hya ρ).1 hon, radAt, one_mul, ← Real.sqrt_eq_rpow, div_one, Real.rpow_two, sq_abs]
      have h3 := abs_le.1 hya
      rw [Real.sq_sqrt (by nlinarith)]
      obtain rfl | rfl : i = 0 ∨ i = 1 := by omega
      all_goals norm_num
    have hH : height Demo.road.plane (ribCentre Demo.leantDown r) = -(1 / 10) + (-(1 / 4) + (2 * i + 1) * (1 / 4) / 2) * (4 / 5) := by
      unfold ribCentre
      rw [show r.center = ⟨0, r.y, 0⟩ from hr.center, height_apply, mul_zero, mul_zero, add_zero, add_zero, hc, hh, hyi]
      norm_num
    have hsmall : height Demo.road.plane (ribCentre Demo.leantDown r) ^ 2 ≤ 1 / 25 := by
      rw [hH]
      obtain rfl | rfl : i = 0 ∨ i = 1 := by omega
      all_goals norm_num
    refine ⟨r, a, hR2, hR, hH, ?_⟩
    have hcon : FlatContact Demo.road.plane Demo.leantDown r := by
      unfold FlatContact
      dsimp only
      rw [hS, hR2]
      refine ⟨by linarith, by linarith, ?_⟩
      have h4 : (1 / 2 : ℝ) ≤ √(63 / 64 - height Demo.road.plane (ribCentre Demo.leantDown r) ^ 2 / (9 / 25)) := by
        refine Real.le_sqrt_of_sq_le ?_
        linarith
      linarith
    have e := Rib.envelopFlat_geometric_eq e
    rcases Rib.geometricFlat_closed hr hp (Flat.make_unit Demo.road_make) with ⟨-, h5⟩ | ⟨h5, -⟩
    · rw [h5] at e
      rw [← (Prod.mk.inj e).2]
      dsimp only
      rw [sectionDepth, hS, hsq]
    · exact absurd hcon h5
  obtain ⟨r, a1, a2, a3, a4, a5⟩ := hone 0 (by norm_num)
  obtain ⟨r', b1, b2, b3, b4, b5⟩ := hone 1 (by norm_num)
  have hlist : s.ribs = [r, r'] := by
    have hlen : s.ribs.length = 2 := h2
    match hm : s.ribs, hlen with
    | [x, y], _ => rw [hm] at a1 b1; simp at a1 b1; rw [a1, b1]
  norm_num at a4 b4
  rw [a4] at a5
  rw [b4] at b5
  norm_num at a5 b5
  have hrr : r.radius = r'.radius := by nlinarith
  have hlow : 1 / 2 ≤ r.radius := by nlinarith
  refine ⟨s, s', b, _, _, r, r', h1, hp, hs, hlist, by rw [a4, b4]; norm_num, ho.depth 0 (by omega), ho.depth 1 (by omega), ?_, ?_⟩
  · rw [a5]; linarith
  · rw [a5, b5]; linarith

end Enve
