import Verif.Props.GroundVolumeDemo
import Verif.Props.CutDemo

/-! # C121: a wheel far from the origin and clear of the ground -/

namespace Enve

open Scalar Spec B64

namespace FarVolume

open Far

/-- The radius of the tyre, a little more than one half. -/
noncomputable def R : ℝ := 134217733 / 268435456
/-- The height of the hub, 3.7 nanometres more. -/
noncomputable def h : ℝ := 67108867 / 134217728
/-- The upright wheel 16 km from the origin. -/
noncomputable def pose : Affine B64 := ⟨⟨vec 1 0 0, vec 0 1 0, vec 0 0 1⟩, vec 16384 0 h⟩
/-- The same pose, exactly. -/
noncomputable def exactPose : Affine ℝ := ⟨⟨⟨1, 0, 0⟩, ⟨0, 1, 0⟩, ⟨0, 0, 1⟩⟩, ⟨16384, 0, h⟩⟩
/-- The one rib of the tyre. -/
noncomputable def rib : Rib B64 := Rib.make 0 (fin R) (fin 0) (fin 1) (fin 0)

theorem zR : B64.round (.fin R) = .fin R :=
  B64.exact 134217733 (-28) (by norm_num [R]) (by norm_num) (by norm_num) (by norm_num)
theorem zh : B64.round (.fin h) = .fin h :=
  B64.exact 67108867 (-27) (by norm_num [h]) (by norm_num) (by norm_num) (by norm_num)
theorem zmh : B64.round (.fin (-h)) = .fin (-h) :=
  B64.exact (-67108867) (-27) (by norm_num [h]) (by norm_num) (by norm_num) (by norm_num)
theorem zX : B64.round (.fin 16384) = .fin 16384 :=
  B64.exact 16384 0 (by norm_num) (by norm_num) (by norm_num) (by norm_num)
theorem zmX : B64.round (.fin (-16384)) = .fin (-16384) :=
  B64.exact (-16384) 0 (by norm_num) (by norm_num) (by norm_num) (by norm_num)
theorem zX2 : B64.round (.fin 268435456) = .fin 268435456 :=
  B64.exact 268435456 0 (by norm_num) (by norm_num) (by norm_num) (by norm_num)
theorem zh2 : B64.round (.fin (h * h)) = .fin (h * h) :=
  B64.exact 4503600030023689 (-54) (by norm_num [h]) (by norm_num) (by norm_num) (by norm_num)
theorem sum : B64.round (.fin (268435456 + h * h)) = .fin (268435456 + 1 / 4) :=
  B64.round_eq 28 4503599631564800 (by norm_num) (by norm_num) (by norm_num)
    (by rw [h, abs_of_pos (by norm_num)]; norm_num) (by rw [h, abs_of_pos (by norm_num)]; norm_num)
    (by rw [h, abs_lt]; constructor <;> norm_num)
theorem zR2 : B64.round (.fin (R * R)) = .fin (4503599962914822 / 18014398509481984) :=
  B64.round_eq (-2) 4503599962914822 (by norm_num) (by norm_num) (by norm_num)
    (by rw [R, abs_of_pos (by norm_num)]; norm_num) (by rw [R, abs_of_pos (by norm_num)]; norm_num)
    (by rw [R, abs_lt]; constructor <;> norm_num)
theorem a0 : B64.round (.fin (268435456 + 1 / 4 - 4503599962914822 / 18014398509481984)) = .fin (268435456 - 1 / 33554432) :=
  B64.round_eq 27 9007199254740991 (by norm_num) (by norm_num) (by norm_num)
    (by rw [abs_of_pos (by norm_num)]; norm_num) (by rw [abs_of_pos (by norm_num)]; norm_num)
    (by rw [abs_lt]; constructor <;> norm_num)
theorem disc : B64.round (.fin (1 / 33554432)) = .fin (1 / 33554432) :=
  B64.exact 1 (-25) (by norm_num) (by norm_num) (by norm_num) (by norm_num)

/-- Half the length of the chord that the method finds. -/
noncomputable def k : ℝ := 47453133 / 274877906944

theorem root : ∃ ρ, Scalar.sqrt (fin (1 / 33554432)) = fin ρ ∧ B64.round (.fin (16384 + ρ)) = .fin (16384 + k) ∧
    B64.round (.fin (16384 - ρ)) = .fin (16384 - k) := by
  have hs0 : (94906265.6 / 549755813888 : ℝ) ≤ √(1 / 33554432) := Real.le_sqrt_of_sq_le (by norm_num)
  have hs1 : √(1 / 33554432) ≤ (94906265.7 / 549755813888 : ℝ) := Real.sqrt_le_iff.2 ⟨by norm_num, by norm_num⟩
  refine ⟨near √(1 / 33554432), ?_, ?_⟩
  · rw [sqrt_fin (by norm_num), round_near (k := 0) (by norm_num) (by rw [abs_of_nonneg (Real.sqrt_nonneg _)]; norm_num at hs1 ⊢; linarith)]
  have e := near_error √(1 / 33554432)
  rw [abs_of_nonneg (Real.sqrt_nonneg _)] at e
  have e2 : (2 : ℝ) ^ (-1075 : ℤ) ≤ 2 ^ (-60 : ℤ) := zpow_le_zpow_right₀ (by norm_num) (by norm_num)
  have e3 : |near √(1 / 33554432) - √(1 / 33554432)| ≤ 1 / 2 ^ 59 := by
    refine e.trans ?_
    have : √(1 / 33554432) * 2 ^ (-53 : ℤ) ≤ (94906265.7 / 549755813888 : ℝ) * 2 ^ (-53 : ℤ) := mul_le_mul_of_nonneg_right hs1 (by positivity)
    norm_num at this e2 ⊢
    linarith
  obtain ⟨e4, e5⟩ := abs_le.1 e3
  generalize near √(1 / 33554432) = ρ at *
  generalize √(1 / 33554432) = q at *
  norm_num at e4 e5 hs0 hs1
  constructor
  · refine B64.round_eq 14 4503599674823629 (by norm_num [k]) (by norm_num) (by norm_num) ?_ ?_ ?_
    · rw [abs_of_pos (by linarith)]; norm_num; linarith
    · rw [abs_of_pos (by linarith)]; norm_num; linarith
    · rw [k, abs_lt]; norm_num; constructor <;> linarith
  · refine B64.round_eq 13 9007199159834726 (by norm_num [k]) (by norm_num) (by norm_num) ?_ ?_ ?_
    · rw [abs_of_pos (by linarith)]; norm_num; linarith
    · rw [abs_of_pos (by linarith)]; norm_num; linarith
    · rw [k, abs_lt]; norm_num; constructor <;> linarith

theorem center : rib.centerGrd pose = vec 16384 0 h := by
  norm_num [Rib.centerGrd, rib, Rib.make, pose, vec, Rib.center, Disk.center, V3.add, M3.mulVec, z0, z1, zX, zh, B64.zero_eq]

theorem normal : rib.normalGrd pose = vec 0 1 0 := by
  norm_num [Rib.normalGrd, rib, Rib.make, pose, vec, Disk.normal, V3.add, M3.mulVec, z0, z1, zX, zh, V3.ey, B64.zero_eq, B64.one_eq]

theorem line : Inter.planePlane ground.plane (rib.diskGrd pose).layingPlane Scalar.eps =
    some ⟨vec 0 0 0, vec (-1) 0 0⟩ := by
  have hn : V3.normalized (vec 0 0 1) = vec 0 0 1 := by
    norm_num [V3.normalized, V3.sqNorm, V3.dot, V3.sdiv, vec, z0, z1, B64.zero_eq, sqrt1, B64.div_fin]
  have hm : V3.normalized (vec 0 1 0) = vec 0 1 0 := by
    norm_num [V3.normalized, V3.sqNorm, V3.dot, V3.sdiv, vec, z0, z1, B64.zero_eq, sqrt1, B64.div_fin]
  rw [Inter.planePlane, Disk.layingPlane, Rib.diskGrd, center, normal, ground]
  dsimp only
  rw [hn, hm]
  have hd : V3.cross (vec 0 0 1) (vec 0 1 0) = vec (-1) 0 0 := by
    norm_num [V3.cross, vec, z0, z1, zm1]
  have hdot : V3.dot (vec 0 0 1) (vec 0 1 0) = .fin 0 := by norm_num [V3.dot, vec, z0]
  have hnn : V3.norm (vec (-1) 0 0) = .fin 1 := by norm_num [V3.norm, V3.sqNorm, V3.dot, vec, z0, z1, sqrt1]
  have hd0 : Plane.d (⟨vec 0 0 0, vec 0 0 1⟩ : Plane B64) = .fin 0 := by
    norm_num [Plane.d, V3.dot, vec, z0, neg_fin]
  have hd1 : Plane.d (⟨vec 16384 0 h, vec 0 1 0⟩ : Plane B64) = .fin 0 := by
    norm_num [Plane.d, V3.dot, vec, z0, neg_fin]
  have happ : Scalar.isApprox (B64.fin 1 *. B64.fin 1) Scalar.zero Scalar.eps = false := by
    have h : ¬ |(1 : ℝ)| < Scalar.eps := by rw [abs_one]; exact not_lt.2 real_eps_lt_one.le
    rw [Scalar.isApprox, B64.mul_fin, mul_one, z1, B64.zero_eq, B64.sub_fin, sub_zero, z1]
    show (Scalar.abs (XR.fin 1) <. XR.fin Scalar.eps) = false
    rw [XR.abs_fin]; exact decide_eq_false h
  rw [hd, hdot, hnn, hd0, hd1, happ]
  simp only [Bool.false_eq_true, if_false, B64.one_eq]
  norm_num [neg_fin, z0, z1, B64.div_fin, V3.add, V3.smul, vec]

theorem zp : B64.round (.fin (16384 + k)) = .fin (16384 + k) :=
  B64.exact 4503599674823629 (-38) (by norm_num [k]) (by norm_num) (by norm_num) (by norm_num)
theorem zm : B64.round (.fin (16384 - k)) = .fin (16384 - k) :=
  B64.exact 9007199159834726 (-39) (by norm_num [k]) (by norm_num) (by norm_num) (by norm_num)
theorem znp : B64.round (.fin (-(16384 + k))) = .fin (-(16384 + k)) :=
  B64.exact (-4503599674823629) (-38) (by norm_num [k]) (by norm_num) (by norm_num) (by norm_num)
theorem znm : B64.round (.fin (-(16384 - k))) = .fin (-(16384 - k)) :=
  B64.exact (-9007199159834726) (-39) (by norm_num [k]) (by norm_num) (by norm_num) (by norm_num)

/-- The ground seems to cut the rib. -/
theorem segment : Inter.planeDisk ground.plane (rib.diskGrd pose) Scalar.eps =
    some ⟨vec (16384 + k) 0 0, vec (16384 - k) 0 0⟩ := by
  have heps : (Scalar.eps : ℝ) = 1 / 67108864 := by norm_num [Scalar.eps]
  obtain ⟨ρ, r1, r2, r3⟩ := root
  rw [Inter.planeDisk, line]
  dsimp only
  rw [Inter.lineDisk, Disk.center, Rib.diskGrd, center]
  dsimp only
  have h1 : V3.sub (vec 0 0 0) (vec 16384 0 h) = vec (-16384) 0 (-h) := by
    norm_num [V3.sub, vec, z0, zmX, zmh]
  have h2 : V3.dot (vec (-1) 0 0) (vec (-1) 0 0) = .fin 1 := by norm_num [V3.dot, vec, z0, z1]
  have h3 : V3.dot (vec (-16384) 0 (-h)) (vec (-1) 0 0) = .fin 16384 := by
    norm_num [V3.dot, vec, z0, zX]
  have h4 : V3.dot (vec (-16384) 0 (-h)) (vec (-16384) 0 (-h)) = .fin (268435456 + 1 / 4) := by
    rw [V3.dot, vec]
    simp only [B64.mul_fin]
    rw [show (-16384 : ℝ) * -16384 = 268435456 by norm_num, neg_mul_neg, zX2, zh2, mul_zero, z0, B64.add_fin,
      add_zero, zX2, B64.add_fin, sum]
  have h5 : rib.radius *. rib.radius = .fin (4503599962914822 / 18014398509481984) := by
    show B64.fin R *. B64.fin R = _
    rw [B64.mul_fin, zR2]
  have h6 : B64.fin 16384 *. B64.fin 16384 = .fin 268435456 := by
    rw [B64.mul_fin, show (16384 : ℝ) * 16384 = 268435456 by norm_num, zX2]
  have h7 : B64.fin 1 /. B64.fin 1 = .fin 1 := by rw [B64.div_fin _ (by norm_num), div_one, z1]
  have h8 : B64.fin (268435456 - 1 / 33554432) *. B64.fin 1 = B64.fin (268435456 - 1 / 33554432) := by
    rw [mul_fin, mul_one]
    exact B64.exact 9007199254740991 (-25) (by norm_num) (by norm_num) (by norm_num) (by norm_num)
  rw [h1, h2, h3, h4, h5, B64.sub_fin, a0, h6, h8, sub_fin, sub_sub_cancel, disc, eps_eq,
    neg_fin, B64.lt_fin, if_neg (by rw [heps]; norm_num), abs_fin, B64.lt_fin,
    if_neg (by rw [heps, abs_of_pos (by norm_num)]; norm_num), B64.one_eq, h7, r1, add_fin, r2, sub_fin, r3, mul_fin, mul_fin, mul_one,
    mul_one, zp, zm]
  simp only [V3.sub, V3.smul, vec, mul_fin, mul_neg, mul_one, mul_zero, z0, znp, znm, sub_fin, sub_neg_eq_add, zero_add, zp, zm, sub_zero]

theorem eps_real : (Scalar.eps : ℝ) = 1 / 67108864 := by norm_num [Scalar.eps]

/-- The record of the rib: contact, and no number for the volume. -/
theorem record : (rib.envelopGeometricFlat ground pose).1 = true ∧
    (rib.envelopGeometricFlat ground pose).2.depth = fin (-(1 / 268435456)) ∧
    (rib.envelopGeometricFlat ground pose).2.area = Scalar.nan ∧ (rib.envelopGeometricFlat ground pose).2.volume = Scalar.nan := by
  have hlen : (⟨vec (16384 + k) 0 0, vec (16384 - k) 0 0⟩ : Segment B64).length = fin (2 * k) := by
    rw [Segment.length, V3.norm, V3.sqNorm]
    have e1 : V3.sub (vec (16384 + k) 0 0) (vec (16384 - k) 0 0) = vec (2 * k) 0 0 := by
      simp only [V3.sub, vec, sub_fin, sub_zero, z0]
      rw [show 16384 + k - (16384 - k) = 2 * k by ring,
        B64.exact (x := 2 * k) 47453133 (-37) (by norm_num [k]) (by norm_num) (by norm_num) (by norm_num)]
    have e2 : B64.round (.fin (2 * k * (2 * k))) = .fin (2 * k * (2 * k)) :=
      B64.exact 2251799831515689 (-74) (by norm_num [k]) (by norm_num) (by norm_num) (by norm_num)
    have e3 : V3.dot (vec (2 * k) 0 0) (vec (2 * k) 0 0) = fin (2 * k * (2 * k)) := by
      simp only [V3.dot, vec, mul_fin, mul_zero, z0, add_fin, add_zero, e2]
    rw [e1, e3, sqrt_fin (mul_self_nonneg _), Real.sqrt_mul_self (by norm_num [k]),
      B64.exact (x := 2 * k) 47453133 (-37) (by norm_num [k]) (by norm_num) (by norm_num) (by norm_num)]
  have hcen : (⟨vec (16384 + k) 0 0, vec (16384 - k) 0 0⟩ : Segment B64).centroid = vec 16384 0 0 := by
    rw [Segment.centroid]
    simp only [V3.add, V3.sdiv, vec, add_fin, add_zero, z0, B64.two_eq, add_add_sub_cancel]
    rw [B64.exact (x := 16384 + 16384) 32768 0 (by norm_num) (by norm_num) (by norm_num) (by norm_num), div_fin _ (by norm_num),
      div_fin _ (by norm_num), zero_div, z0, show (16384 + 16384 : ℝ) / 2 = 16384 by norm_num, zX]
  have hdep : rib.radius -. V3.norm (V3.sub (vec 16384 0 0) (rib.centerGrd pose)) = fin (-(1 / 268435456)) := by
    have e1 : V3.sub (vec 16384 0 0) (vec 16384 0 h) = vec 0 0 (-h) := by
      simp only [V3.sub, vec, sub_fin, sub_self, z0, zero_sub, zmh]
    have e3 : V3.dot (vec 0 0 (-h)) (vec 0 0 (-h)) = fin (h * h) := by
      simp only [V3.dot, vec, mul_fin, mul_zero, z0, add_fin, add_zero, zero_add, neg_mul_neg, zh2]
    rw [center, e1, V3.norm, V3.sqNorm, e3, sqrt_fin (mul_self_nonneg _), Real.sqrt_mul_self (by norm_num [h]), zh]
    show fin R -. fin h = _
    rw [sub_fin, show R - h = -(1 / 268435456) by norm_num [R, h]]
    exact B64.exact (-1) (-28) (by norm_num) (by norm_num) (by norm_num) (by norm_num)
  have hsq : Scalar.sqrt (fin (-(1 / 268435456)) *. (two *. rib.radius -. fin (-(1 / 268435456)))) = Scalar.nan := by
    show Scalar.sqrt (fin (-(1 / 268435456)) *. (two *. fin R -. fin (-(1 / 268435456)))) = _
    rw [B64.two_eq, mul_fin, B64.exact (x := 2 * R) 134217733 (-27) (by norm_num [R]) (by norm_num) (by norm_num) (by norm_num), sub_fin,
      B64.exact (x := 2 * R - -(1 / 268435456)) 268435467 (-28) (by norm_num [R]) (by norm_num) (by norm_num) (by norm_num), mul_fin,
      B64.exact (x := -(1 / 268435456) * (2 * R - -(1 / 268435456))) (-268435467) (-56) (by norm_num [R]) (by norm_num) (by norm_num)
        (by norm_num)]
    exact Cut.sqrt_neg (by norm_num [R])
  have hlt : ((Scalar.eps : B64) <. fin (2 * k)) = true := by
    rw [eps_eq, lt_fin, decide_eq_true_eq, eps_real]; norm_num [k]
  unfold Rib.envelopGeometricFlat
  rw [segment]
  dsimp only
  rw [hlen, if_pos hlt, hcen, hdep]
  refine ⟨rfl, rfl, ?_, ?_⟩
  · show Rib.depthArea _ _ _ = _
    rw [Rib.depthArea, hsq, Ground.mul_nan, Cut.nan_mul]
  · show Rib.depthVolume _ _ _ = _
    rw [Rib.depthVolume, hsq, Ground.mul_nan, Cut.sub_nan, Cut.nan_mul]

/-- A tyre with this one rib. -/
theorem shell (fresh : Nat → Output B64) :
    ∃ s, Shell.make fresh 1 (.fin R) (.fin 1) (.fin (1 / 2)) (.fin 2) (.fin (1 / 2)) = .ok s ∧ s.ribs = [rib] := by
  have heps : (Scalar.eps : B64) = .fin Scalar.eps := rfl
  have hp := real_eps_pos
  have hR : 0 < R := by norm_num [R]
  have hl : Shell.resizeLoop (⟨.fin R, .fin 1, .fin (1 / 2), .fin 2, .fin (1 / 2)⟩ : Shape B64) (.fin 1) 1 0 (.fin (-1)) [] =
      .ok [rib] () := by
    norm_num [rib, Shell.resizeLoop, Shape.surfaceRadius, Shape.surfaceAngle, Shape.surfaceDerivative,
      Shape.checkWidthBound, DoubleDemo.r0, DoubleDemo.abs_fin, Res.assert, B64.div_fin, DoubleDemo.pow0, DoubleDemo.pow1, B64.one_eq,
      DoubleDemo.r1, B64.zero_eq, heps, not_lt.2 hp.le, DoubleDemo.atan0, DoubleDemo.eq_fin, zR, hR]
  have hr : ∀ s : Shell B64, s.shape = ⟨.fin R, .fin 1, .fin (1 / 2), .fin 2, .fin (1 / 2)⟩ →
      ∃ s', s.resize fresh 1 = .ok s' () ∧ s'.ribs = [rib] := by
    intro s hs
    have e : Shell.resize fresh s 1 = .ok { s with
        ribs := [rib], out := s.out.clearReserve fresh
        cands := List.replicate 1 [] } () := by
      unfold Shell.resize
      have e1 : (-. (B64.fin (1 / 2))) -. (B64.fin 1) /. two = .fin (-1) := by
        norm_num [DoubleDemo.two_eq, DoubleDemo.neg_fin, B64.div_fin, RoadDemo.half, RoadDemo.rm1]
      have e2 : two *. (B64.fin (1 / 2)) /. Scalar.ofNat 1 = .fin 1 := by
        norm_num [DoubleDemo.two_eq, DoubleDemo.nat1, B64.div_fin, DoubleDemo.r1]
      rw [if_neg one_ne_zero]
      dsimp only [Shape.surfaceMaxWidth]
      rw [hs]
      dsimp only
      rw [e2, e1, hl]
    exact ⟨_, e, rfl⟩
  obtain ⟨s', h1, h3⟩ := hr ⟨Affine.id, ⟨.fin R, .fin 1, .fin (1 / 2), .fin 2, .fin (1 / 2)⟩, Box.default, [],
    RecVec.init fresh, []⟩ rfl
  refine ⟨s'.updateBBox, ?_, h3⟩
  unfold Shell.make
  dsimp only
  rw [h1]

/-- No point of the tyre is below the ground. -/
theorem clear : sunkPart R 1 (1 / 2) 2 (1 / 2) exactPose ⟨0, 0, 0⟩ ⟨0, 0, 1⟩ = ∅ := by
  have hv : ValidProfile R 1 (1 / 2) 2 (1 / 2) :=
    ⟨by norm_num [R], by norm_num, by norm_num, by norm_num, by norm_num, by norm_num⟩
  ext p
  simp only [sunkPart, tyreSolid, Set.mem_setOf_eq, Set.mem_empty_iff_false, iff_false, not_and, not_lt]
  rintro ⟨h1, r, h2, h3⟩
  have hr : r ≤ R := by
    rw [(radAt_profile hv h1.le r).1 h2]; exact (radAt_mem hv h1.le).2
  have hz : p.2.2 ^ 2 < r ^ 2 := by nlinarith [sq_nonneg p.2.1]
  have hz' := (abs_lt.1 (abs_lt_of_sq_lt_sq hz h2.1)).1
  have hRh : R < h := by norm_num [R, h]
  simp only [dot3, minus, Affine.apply, exactPose]
  v3
  simp only [mul_zero, zero_mul, mul_one, sub_zero, zero_add, add_zero, one_mul]
  linarith

end FarVolume

/-- **C121 fails far from the origin.**  An upright wheel of a little more than one metre diameter, 16 km from the origin in the direction
of travel, stands over the level ground at height zero without touching it: the hub is 3.7 nanometres higher than the radius.  All numbers
are doubles.  The geometric method reports contact with a depth below zero, and area and volume are not numbers; so the contact volume of
the tyre is not a number. -/
theorem C121_clear_refuted (fresh : Nat → Output B64) : ∃ (s s' : Shell B64) (g : Flat B64) (p : Affine B64) (P : Affine ℝ) (R h : ℝ),
    Shell.make fresh 1 (fin R) (fin 1) (fin (1 / 2)) (fin 2) (fin (1 / 2)) = .ok s ∧
    Flat.make (fin 1) ⟨fin 0, fin 0, fin 0⟩ ⟨fin 0, fin 0, fin 1⟩ = .ok g ∧
    p = ⟨⟨⟨fin 1, fin 0, fin 0⟩, ⟨fin 0, fin 1, fin 0⟩, ⟨fin 0, fin 0, fin 1⟩⟩, ⟨fin 16384, fin 0, fin h⟩⟩ ∧
    P = ⟨⟨⟨1, 0, 0⟩, ⟨0, 1, 0⟩, ⟨0, 0, 1⟩⟩, ⟨16384, 0, h⟩⟩ ∧
    s.setupFlat .raw g p "geometric" = .ok s' true ∧ s'.contactVolume .raw = .ok Scalar.nan ∧
    1 / 2 < R ∧ R < h ∧ sunkPart R 1 (1 / 2) 2 (1 / 2) P ⟨0, 0, 0⟩ ⟨0, 0, 1⟩ = ∅ := by
  obtain ⟨s, hs, hribs⟩ := FarVolume.shell fresh
  have hsz : s.size = 1 := by show s.ribs.length = 1; rw [hribs]; rfl
  have hg : Flat.make (fin 1) ⟨fin 0, fin 0, fin 0⟩ ⟨fin 0, fin 0, fin 1⟩ = .ok Far.ground := by
    have := Yawed.road_make
    rw [V3.zeros, V3.ez, B64.zero_eq, B64.one_eq] at this
    rw [this]
    simp [Yawed.road, Far.ground, Far.vec, V3.zeros, V3.ez, B64.zero_eq, B64.one_eq]
  obtain ⟨s', b, hset⟩ := Shell.setupFlat_total (.make hs) (by omega) Far.ground FarVolume.pose (method := "geometric") (.inl rfl)
  obtain ⟨flags, recs, hres, hflag⟩ := C38_flat_flag_partial .raw s s' Far.ground FarVolume.pose "geometric" b hset
  have hrel := Shell.setupFlat_rel (.inl ⟨_, hset⟩)
  have hsize' : s'.size = 1 := by rw [Shell.size, hrel.ribs]; exact hsz
  have hrep : Reports .raw s' recs := by
    rw [Shell.reports_iff, hsize', ← hsz]
    intro i hi
    obtain ⟨_, -, -, e⟩ := hres i hi
    exact e
  obtain ⟨r, e1, e2, e3⟩ := hres 0 (by omega)
  rw [hrel.ribs, hribs] at e1
  have hr : r = FarVolume.rib := (Option.some.inj e1).symm
  subst hr
  have e4 : FarVolume.rib.envelopGeometricFlat Far.ground FarVolume.pose = (flags 0, recs 0) := by
    have h := e2
    dsimp only at h
    rw [Rib.envelopFlat, if_pos rfl] at h
    exact Res.ok.inj h
  obtain ⟨f1, f2, f3, f4⟩ := FarVolume.record
  rw [e4] at f1 f4
  have hv := C42_total hrep
  rw [hsize', ribSum_succ, show (recs 0).volume = Scalar.nan from f4, Cut.add_nan] at hv
  have hb : b = true := by rw [hflag.1, hsz]; simpa using f1
  rw [hb] at hset
  refine ⟨s, s', Far.ground, FarVolume.pose, FarVolume.exactPose, FarVolume.R, FarVolume.h, hs, hg, rfl, rfl, hset, hv,
    by norm_num [FarVolume.R], by norm_num [FarVolume.R, FarVolume.h], FarVolume.clear⟩

end Enve
