import Verif.Props.CutProps
import Verif.Props.RoadContactDemo

/-! # C109: a wheel that meets the hypotheses, and one that is too far away -/

namespace Enve

open Scalar Spec B64

/-- The hypotheses are met: a rib of radius 1/2 in a wheel 100 m from the origin, on a ground that slopes by 3 to 4, the centre 30 cm
from the ground: contact, and a depth of 20 cm up to ten nanometres. -/
example : ∃ (r : Rib B64) (g : Flat B64) (p : Affine B64) (P : Affine ℝ), CutScene 128 (1 / 2) 0 P ⟨100, 0, 0⟩ ⟨3 / 5, 0, 4 / 5⟩ ∧
    CutRib 128 (1 / 2 ^ 52) r (1 / 2) 0 ∧ CutPose 128 (1 / 2 ^ 52) p P ∧
    CutFlat 128 (1 / 2 ^ 52) g ⟨100, 0, 0⟩ ⟨3 / 5, 0, 4 / 5⟩ ∧ (r.envelopGeometricFlat g p).1 = true ∧
    Close (1 / 10 ^ 8) (r.envelopGeometricFlat g p).2.depth (1 / 5) ∧
    Close3 (1 / 10 ^ 6) (r.envelopGeometricFlat g p).2.normal ⟨3 / 5, 0, 4 / 5⟩ := by
  have hε : Fine (1 / 2 ^ 52 : ℝ) := ⟨le_rfl, by norm_num⟩
  have cl : ∀ {e x : ℝ}, 0 ≤ e → Close e (fin x) x := fun he => ⟨_, rfl, by simpa using he⟩
  have cl3 : ∀ {e x y z : ℝ}, 0 ≤ e → Close3 e ⟨fin x, fin y, fin z⟩ ⟨x, y, z⟩ := fun he => ⟨cl he, cl he, cl he⟩
  have lit : ∀ a b : ℕ, (a : ℝ) / b ≤ 1 → Close (1 / 2 ^ 52) (Scalar.lit a b : B64) ((a : ℝ) / b) := by
    intro a b h
    show Close _ (B64.round (Scalar.lit a b : XR)) _
    rw [show (Scalar.lit a b : XR) = .fin ((a : ℝ) / b) from rfl]
    have := Close.round hε (v := (a : ℝ) / b) (X := (a : ℝ) / b) (α := 0) (C := 1) (γ := 1) (by simp)
      (by rw [abs_of_nonneg (by positivity)]; exact h) le_rfl (by norm_num) (by norm_num)
    rwa [one_mul] at this
  let P : Affine ℝ := ⟨⟨⟨1, 0, 0⟩, ⟨0, 1, 0⟩, ⟨0, 0, 1⟩⟩, ⟨100, 0, 3 / 8⟩⟩
  have hs : CutScene 128 (1 / 2) 0 P ⟨100, 0, 0⟩ ⟨3 / 5, 0, 4 / 5⟩ := by
    refine ⟨?_, ?_, ?_, ?_, ?_, ?_, ?_, ?_⟩
    · constructor <;> simp [P]
    · simp only [P, length3]; rw [Real.sqrt_le_left (by norm_num)]; norm_num
    · simp only [length3]; rw [Real.sqrt_le_left (by norm_num)]; norm_num
    all_goals norm_num [P, dot3]
  let r : Rib B64 := ⟨⟨fin (1 / 2), ⟨⟨fin 0, fin 0, fin 0⟩, ⟨fin 0, fin 1, fin 0⟩⟩⟩, 0, fin 0, fin 1, fin 0⟩
  let g : Flat B64 := ⟨⟨⟨fin 100, fin 0, fin 0⟩, ⟨Scalar.lit 3 5, fin 0, Scalar.lit 4 5⟩⟩, fin 1⟩
  let p : Affine B64 := ⟨⟨⟨fin 1, fin 0, fin 0⟩, ⟨fin 0, fin 1, fin 0⟩, ⟨fin 0, fin 0, fin 1⟩⟩, ⟨fin 100, fin 0, fin (3 / 8)⟩⟩
  have hr : CutRib 128 (1 / 2 ^ 52) r (1 / 2) 0 := ⟨cl (by norm_num), cl3 (by norm_num), cl3 (by norm_num)⟩
  have hp : CutPose 128 (1 / 2 ^ 52) p P := ⟨cl3 (by norm_num), cl3 (by norm_num), cl3 (by norm_num), cl3 (by norm_num)⟩
  have hg : CutFlat 128 (1 / 2 ^ 52) g ⟨100, 0, 0⟩ ⟨3 / 5, 0, 4 / 5⟩ := by
    refine ⟨cl3 (by norm_num), ⟨?_, cl (by norm_num), ?_⟩⟩
    · simpa using lit 3 5 (by norm_num)
    · simpa using lit 4 5 (by norm_num)
  have hH : dist3 (hub 0 P) (nearCut 0 P ⟨100, 0, 0⟩ ⟨3 / 5, 0, 4 / 5⟩) = 3 / 10 := by
    simp only [hub, nearCut, dist3, dot3, P]
    rw [show (3 / 10 : ℝ) = Real.sqrt ((3 / 10) ^ 2) by rw [Real.sqrt_sq (by norm_num)]]
    congr 1
    norm_num
  have hD : cutDepth (1 / 2) 0 P ⟨100, 0, 0⟩ ⟨3 / 5, 0, 4 / 5⟩ = 1 / 5 := by
    rw [cutDepth, hH]; norm_num
  obtain ⟨h1, -, h3⟩ := C109_geometric_partial hε ⟨by norm_num, by norm_num⟩ hs hr hp hg
  rw [hD] at h1 h3
  have ht := h1 (by norm_num)
  obtain ⟨k1, -, -, k4⟩ := h3 ht
  rw [hH] at k4
  exact ⟨r, g, p, P, hs, hr, hp, hg, ht, k1.mono (by norm_num), (k4 (by norm_num)).mono (by norm_num)⟩

namespace FarCut

/-- A rib of radius one half. -/
noncomputable def rib : Rib B64 := ⟨⟨fin (1 / 2), ⟨Far.vec 0 0 0, Far.vec 0 1 0⟩⟩, 0, fin 0, fin 1, fin 0⟩
/-- The upright wheel with its centre at `x = 2 ^ 22`, sunk by 1/512. -/
noncomputable def pose : Affine B64 := ⟨⟨Far.vec 1 0 0, Far.vec 0 1 0, Far.vec 0 0 1⟩, Far.vec 4194304 0 (255 / 512)⟩
/-- The same pose, exactly. -/
noncomputable def exactPose : Affine ℝ := ⟨⟨⟨1, 0, 0⟩, ⟨0, 1, 0⟩, ⟨0, 0, 1⟩⟩, ⟨4194304, 0, 255 / 512⟩⟩

open Far

theorem zh : B64.round (.fin (255 / 512)) = .fin (255 / 512) :=
  B64.exact 255 (-9) (by norm_num) (by norm_num) (by norm_num) (by norm_num)
theorem zmh : B64.round (.fin (-(255 / 512))) = .fin (-(255 / 512)) :=
  B64.exact (-255) (-9) (by norm_num) (by norm_num) (by norm_num) (by norm_num)
theorem zh2 : B64.round (.fin (65025 / 262144)) = .fin (65025 / 262144) :=
  B64.exact 65025 (-18) (by norm_num) (by norm_num) (by norm_num) (by norm_num)
theorem zR2 : B64.round (.fin (1 / 4)) = .fin (1 / 4) :=
  B64.exact 1 (-2) (by norm_num) (by norm_num) (by norm_num) (by norm_num)

/-- The square of the distance from the origin of the line swallows the difference. -/
theorem sum : B64.round (.fin (17592186044416 + 65025 / 262144)) = .fin (17592186044416 + 1 / 4) :=
  B64.round_eq 44 4503599627370560 (by norm_num) (by norm_num) (by norm_num)
    (by rw [abs_of_pos (by norm_num)]; norm_num) (by rw [abs_of_pos (by norm_num)]; norm_num)
    (by rw [abs_lt]; constructor <;> norm_num)

theorem center : rib.centerGrd pose = vec 4194304 0 (255 / 512) := by
  norm_num [Rib.centerGrd, rib, pose, vec, Rib.center, Disk.center, V3.add, M3.mulVec, z0, z1, zX, zh]

theorem normal : rib.normalGrd pose = vec 0 1 0 := by
  norm_num [Rib.normalGrd, rib, pose, vec, Disk.normal, V3.add, M3.mulVec, z0, z1, zX, zh]

theorem line : Inter.planePlane ground.plane (rib.diskGrd pose).layingPlane Scalar.eps =
    some ⟨vec 0 0 0, vec (-1) 0 0⟩ := by
  have hn : V3.normalized (vec 0 0 1) = vec 0 0 1 := by
    norm_num [V3.normalized, V3.sqNorm, V3.dot, V3.sdiv, vec, z0, z1, B64.zero_eq, sqrt1, B64.div_fin]
  have hm : V3.normalized (vec 0 1 0) = vec 0 1 0 := by
    norm_num [V3.normalized, V3.sqNorm, V3.dot, V3.sdiv, vec, z0, z1, B64.zero_eq, sqrt1, B64.div_fin]
  rw [Inter.planePlane, Disk.layingPlane, Rib.diskGrd, center, normal, ground]
  dsimp only
  rw [hn, hm]
  have hd : V3.cross (vec 0 0 1) (vec 0 1 0) = vec (-1) 0 0 := by
    norm_num [V3.cross, vec, z0, z1, zm1]
  have hdot : V3.dot (vec 0 0 1) (vec 0 1 0) = .fin 0 := by norm_num [V3.dot, vec, z0]
  have hnn : V3.norm (vec (-1) 0 0) = .fin 1 := by norm_num [V3.norm, V3.sqNorm, V3.dot, vec, z0, z1, sqrt1]
  have hd0 : Plane.d (⟨vec 0 0 0, vec 0 0 1⟩ : Plane B64) = .fin 0 := by
    norm_num [Plane.d, V3.dot, vec, z0, neg_fin]
  have hd1 : Plane.d (⟨vec 4194304 0 (255 / 512), vec 0 1 0⟩ : Plane B64) = .fin 0 := by
    norm_num [Plane.d, V3.dot, vec, z0, neg_fin]
  have happ : Scalar.isApprox (B64.fin 1 *. B64.fin 1) Scalar.zero Scalar.eps = false := by
    have h : ¬ |(1 : ℝ)| < Scalar.eps := by rw [abs_one]; exact not_lt.2 real_eps_lt_one.le
    rw [Scalar.isApprox, B64.mul_fin, mul_one, z1, B64.zero_eq, B64.sub_fin, sub_zero, z1]
    show (Scalar.abs (XR.fin 1) <. XR.fin Scalar.eps) = false
    rw [XR.abs_fin]; exact decide_eq_false h
  rw [hd, hdot, hnn, hd0, hd1, happ]
  simp only [Bool.false_eq_true, if_false, B64.one_eq]
  norm_num [neg_fin, z0, z1, B64.div_fin, V3.add, V3.smul, vec]

/-- The ground seems to touch the rib in one point. -/
theorem segment : Inter.planeDisk ground.plane (rib.diskGrd pose) Scalar.eps = some ⟨vec 4194304 0 0, vec 4194304 0 0⟩ := by
  have hpos := real_eps_pos
  rw [Inter.planeDisk, line]
  dsimp only
  rw [Inter.lineDisk, Disk.center, Rib.diskGrd, center]
  dsimp only
  have h1 : V3.sub (vec 0 0 0) (vec 4194304 0 (255 / 512)) = vec (-4194304) 0 (-(255 / 512)) := by
    norm_num [V3.sub, vec, z0, zmX, zmh]
  have h2 : V3.dot (vec (-1) 0 0) (vec (-1) 0 0) = .fin 1 := by norm_num [V3.dot, vec, z0, z1]
  have h3 : V3.dot (vec (-4194304) 0 (-(255 / 512))) (vec (-1) 0 0) = .fin 4194304 := by
    norm_num [V3.dot, vec, z0, zX]
  have h4 : V3.dot (vec (-4194304) 0 (-(255 / 512))) (vec (-4194304) 0 (-(255 / 512))) = .fin (17592186044416 + 1 / 4) := by
    rw [V3.dot, vec]
    simp only [B64.mul_fin]
    rw [show (-4194304 : ℝ) * -4194304 = 17592186044416 by norm_num,
      show -(255 / 512 : ℝ) * -(255 / 512) = 65025 / 262144 by norm_num, zX2, zh2, mul_zero, z0, B64.add_fin,
      add_zero, zX2, B64.add_fin, sum]
  have h5 : rib.radius *. rib.radius = .fin (1 / 4) := by
    show B64.fin (1 / 2) *. B64.fin (1 / 2) = _
    rw [B64.mul_fin, show (1 / 2 : ℝ) * (1 / 2) = 1 / 4 by norm_num, zR2]
  have h6 : B64.fin 4194304 *. B64.fin 4194304 = .fin 17592186044416 := by
    rw [B64.mul_fin, show (4194304 : ℝ) * 4194304 = 17592186044416 by norm_num, zX2]
  have h7 : B64.fin 1 /. B64.fin 1 = .fin 1 := by rw [B64.div_fin _ (by norm_num), div_one, z1]
  rw [h1, h2, h3, h4, h5, B64.sub_fin, add_sub_cancel_right, zX2, h6, B64.mul_fin, mul_one, zX2, B64.sub_fin, sub_self, z0, eps_eq,
    neg_fin, B64.lt_fin, if_neg (by simp; linarith), abs_fin, B64.lt_fin, abs_zero, if_pos (by simpa using hpos), B64.one_eq, h7,
    B64.mul_fin, mul_one, zX]
  norm_num [V3.sub, V3.smul, vec, zX, zmX, z0]

end FarCut

/-- Far away from the origin this fails: an upright wheel with the radius 1/2, its centre 4194 km from the origin in the direction of
travel, is 2 mm deep in the horizontal ground.  All numbers are doubles.  The method squares the distance from the origin and finds no
contact. -/
theorem C109_far_refuted : ∃ (r : Rib B64) (g : Flat B64) (p : Affine B64) (P : Affine ℝ) (o n : V3 ℝ),
    IsRigid P ∧ P.linear.c2 = ⟨0, 0, 1⟩ ∧ o = ⟨0, 0, 0⟩ ∧ n = ⟨0, 0, 1⟩ ∧ length3 P.trans ≤ 2 ^ 23 ∧ CutRib 1 (1 / 2 ^ 52) r (1 / 2) 0 ∧
    CutPose 1 (1 / 2 ^ 52) p P ∧ CutFlat 1 (1 / 2 ^ 52) g o n ∧
    cutDepth (1 / 2) 0 P o n = 1 / 512 ∧ (r.envelopGeometricFlat g p).1 = false := by
  have cl : ∀ {e x : ℝ}, 0 ≤ e → Close e (fin x) x := fun he => ⟨_, rfl, by simpa using he⟩
  have cl3 : ∀ {e x y z : ℝ}, 0 ≤ e → Close3 e ⟨fin x, fin y, fin z⟩ ⟨x, y, z⟩ := fun he => ⟨cl he, cl he, cl he⟩
  refine ⟨FarCut.rib, Far.ground, FarCut.pose, FarCut.exactPose, ⟨0, 0, 0⟩, ⟨0, 0, 1⟩, by constructor <;> simp [FarCut.exactPose], rfl, rfl,
    rfl, ?_, ⟨cl (by norm_num), cl3 (by norm_num), cl3 (by norm_num)⟩,
    ⟨cl3 (by norm_num), cl3 (by norm_num), cl3 (by norm_num), cl3 (by norm_num)⟩, ⟨cl3 (by norm_num), cl3 (by norm_num)⟩, ?_, ?_⟩
  · simp only [FarCut.exactPose, length3]; rw [Real.sqrt_le_left (by norm_num)]; norm_num
  · have : dist3 (hub 0 FarCut.exactPose) (nearCut 0 FarCut.exactPose ⟨0, 0, 0⟩ ⟨0, 0, 1⟩) = 255 / 512 := by
      simp only [hub, nearCut, dist3, dot3, FarCut.exactPose]
      rw [Real.sqrt_eq_iff_eq_sq (by norm_num) (by norm_num)]
      norm_num
    rw [cutDepth, this]; norm_num
  · unfold Rib.envelopGeometricFlat
    rw [FarCut.segment]
    dsimp only
    rw [Far.vec, Cut.same_length, Cut.eps_fin, lt_fin, decide_eq_false (by norm_num)]
    rfl

end Enve
