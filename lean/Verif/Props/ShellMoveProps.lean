import Verif.Model.ShellPose
import Verif.Spec.Turn
import Verif.Spec.History
import Verif.Props.ShellProps
import Verif.Props.MoveProps
import Verif.Props.SectionProps

/-! # Property C96: `translate`, `rotate` and `transform` of a shell

A point `p` of the tyre, given in the frame of the tyre, is at `s.transformation.apply p` in the frame of the
ground. -/

namespace Enve
open Scalar Spec

theorem Affine.apply_translate (a : Affine ℝ) (v p : V3 ℝ) : (a.translate v).apply p = a.apply (plus p v) := by
  simp only [Affine.apply, Affine.translate, plus, M3.mulVec, V3.real_add, real_add, real_mul]
  congr 1 <;> ring

theorem M3.mulVec_mul (m n : M3 ℝ) (p : V3 ℝ) : M3.mulVec (M3.mul m n) p = M3.mulVec m (M3.mulVec n p) := by
  simp only [M3.mulVec, M3.mul, real_add, real_mul]
  congr 1 <;> ring

theorem M3.mulVec_angleAxis (angle : ℝ) (u p : V3 ℝ) :
    M3.mulVec (M3.ofAngleAxis angle u) p = turned angle u p := by
  obtain ⟨x, y, z⟩ := u
  obtain ⟨a, b, c⟩ := p
  simp only [M3.mulVec, M3.ofAngleAxis, real_add, real_mul, real_sub, real_one, real_cos, real_sin, turned, cross3, dot3]
  congr 1 <;> ring

theorem Affine.apply_rotate (a : Affine ℝ) (angle : ℝ) (u p : V3 ℝ) :
    (a.rotate (M3.ofAngleAxis angle u)).apply p = a.apply (turned angle u p) := by
  rw [Affine.apply, Affine.rotate, M3.mulVec_mul, M3.mulVec_angleAxis, Affine.apply]

/-- **C96.** `translate(v)` moves the tyre by `v` in its own frame: the point that was at `p` in the frame of
the tyre is now where `p + v` was, whatever the pose. -/
theorem C96_translate (s : Shell ℝ) (v p : V3 ℝ) :
    (s.translate v).transformation.apply p = s.transformation.apply (plus p v) :=
  Affine.apply_translate _ v p

/-- **C96.** Seen from the ground, `translate(v)` displaces every point of the tyre by the same vector, namely
`v` measured along the `x()`, `y()`, `z()` axes of the shell; the axes stay. -/
theorem C96_displacement (s : Shell ℝ) (v : V3 ℝ) :
    let d := plus (plus (along ⟨0, 0, 0⟩ v.x s.xAxis) (along ⟨0, 0, 0⟩ v.y s.yAxis)) (along ⟨0, 0, 0⟩ v.z s.zAxis)
    (∀ p, (s.translate v).transformation.apply p = plus (s.transformation.apply p) d) ∧
    (s.translate v).translation = plus s.translation d ∧ (s.translate v).linear = s.linear ∧
    (IsRigid s.transformation → length3 d = length3 v) := by
  intro d
  have hd : d = M3.mulVec s.pose.linear v := by
    simp only [d, plus, along, Shell.xAxis, Shell.yAxis, Shell.zAxis, M3.mulVec, real_add, real_mul]
    congr 1 <;> ring
  refine ⟨fun p => ?_, ?_, rfl, fun h => ?_⟩
  · rw [C96_translate, hd]
    simp only [Affine.apply, plus, M3.mulVec, V3.real_add, real_add, real_mul, Shell.transformation]
    congr 1 <;> ring
  · rw [hd]
    simp [Shell.translation, Shell.translate, Affine.translate, V3.real_add, plus]
  · rw [hd]
    exact IsRotation.length_mulVec h v

/-- **C96.** `rotate(angle, axis)` turns the tyre about the axis through its hub given in its own frame: the
point at `p` in the frame of the tyre is now where `p`, turned by the angle, was.  (The formula of `turned`
holds for every axis, but is a turn only if the axis is a unit vector.) -/
theorem C96_rotate (s : Shell ℝ) (angle : ℝ) (u p : V3 ℝ) :
    (s.rotate angle u).transformation.apply p = s.transformation.apply (turned angle u p) :=
  Affine.apply_rotate _ angle u p

/-- **C96.** `rotate` leaves the hub and every point of the axis where they are. -/
theorem C96_rotate_fixed (s : Shell ℝ) (angle : ℝ) (u : V3 ℝ) (hu : Unit3 u) :
    (s.rotate angle u).translation = s.translation ∧
    ∀ t : ℝ, (s.rotate angle u).transformation.apply (along ⟨0, 0, 0⟩ t u) =
      s.transformation.apply (along ⟨0, 0, 0⟩ t u) := by
  refine ⟨rfl, fun t => ?_⟩
  rw [C96_rotate]
  congr 1
  obtain ⟨x, y, z⟩ := u
  simp only [Unit3] at hu
  simp only [turned, along, dot3, cross3]
  congr 1
  · linear_combination ((1 - Real.cos angle) * t * x) * hu
  · linear_combination ((1 - Real.cos angle) * t * y) * hu
  · linear_combination ((1 - Real.cos angle) * t * z) * hu

/-- **C96.** `rotate` moves no point towards the hub or away from it, when the pose is rigid. -/
theorem C96_rotate_distance (s : Shell ℝ) (hs : IsRigid s.transformation) (angle : ℝ) (u p : V3 ℝ) (hu : Unit3 u) :
    dist3 ((s.rotate angle u).transformation.apply p) s.translation = dist3 (s.transformation.apply p) s.translation := by
  have key (a : Affine ℝ) (ha : IsRigid a) (p : V3 ℝ) : dist3 (a.apply p) a.trans = length3 p := by
    rw [← IsRotation.length_mulVec ha p]
    simp [dist3, length3, Affine.apply, V3.real_add]
  have hl : length3 u = 1 := by rw [length3, Real.sqrt_eq_one]; exact hu
  exact (key (s.rotate angle u).pose (IsRotation.mul hs (isRotation_angleAxis angle u hl)) p).trans
    (key s.pose hs p).symm

theorem M3.mul_assoc (a b c : M3 ℝ) : M3.mul (M3.mul a b) c = M3.mul a (M3.mul b c) := by
  simp only [M3.mul, M3.mulVec, real_add, real_mul]
  congr 1 <;> congr 1 <;> ring

theorem M3.mul_angleAxis (a b : ℝ) (u : V3 ℝ) (hu : Unit3 u) :
    M3.mul (M3.ofAngleAxis a u) (M3.ofAngleAxis b u) = M3.ofAngleAxis (a + b) u := by
  obtain ⟨x, y, z⟩ := u
  simp only [Unit3] at hu
  have hx : x ^ 2 = 1 - y ^ 2 - z ^ 2 := by linarith
  simp only [M3.mul, M3.mulVec, M3.ofAngleAxis, real_add, real_mul, real_sub, real_one, real_cos, real_sin,
    Real.cos_add, Real.sin_add]
  generalize Real.cos a = ca
  generalize Real.sin a = sa
  generalize Real.cos b = cb
  generalize Real.sin b = sb
  congr 1 <;> congr 1
  · linear_combination ((1 - ca) * (1 - cb) * x ^ 2 - sa * sb) * hu
  · linear_combination ((1 - ca) * (1 - cb) * x * y) * hu
  · linear_combination ((1 - ca) * (1 - cb) * x * z) * hu
  · linear_combination ((1 - ca) * (1 - cb) * x * y) * hu
  · linear_combination ((1 - ca) * (1 - cb) * y ^ 2 - sa * sb) * hu
  · linear_combination ((1 - ca) * (1 - cb) * y * z) * hu
  · linear_combination ((1 - ca) * (1 - cb) * x * z) * hu
  · linear_combination ((1 - ca) * (1 - cb) * y * z) * hu
  · linear_combination ((1 - ca) * (1 - cb) * z ^ 2 - sa * sb) * hu

theorem Shell.ext_pose {s t : Shell ℝ} (h : s.pose = t.pose) (h' : { s with pose := t.pose } = t) : s = t := by
  rw [← h', ← h]

/-- **C96.** Movements compose: two translations add up, two rotations about the same unit axis add their
angles, and a rotation before a translation is the same as the turned translation before the rotation. -/
theorem C96_compose (s : Shell ℝ) (v w u : V3 ℝ) (a b : ℝ) (hu : Unit3 u) :
    (s.translate v).translate w = s.translate (plus v w) ∧
    (s.rotate a u).rotate b u = s.rotate (a + b) u ∧
    (s.rotate a u).translate v = (s.translate (turned a u v)).rotate a u := by
  refine ⟨?_, ?_, ?_⟩
  · simp only [Shell.translate, Affine.translate]
    congr 2
    simp only [M3.mulVec, plus, V3.real_add, real_add, real_mul]
    congr 1 <;> ring
  · simp only [Shell.rotate, Affine.rotate, M3.mul_assoc, M3.mul_angleAxis a b u hu]
  · simp only [Shell.rotate, Shell.translate, Affine.rotate, Affine.translate, M3.mulVec_mul,
      M3.mulVec_angleAxis]

/-- **C96.** Moving by nothing does nothing, and every movement is undone by the opposite one. -/
theorem C96_undo (s : Shell ℝ) (v u : V3 ℝ) (a : ℝ) :
    s.translate ⟨0, 0, 0⟩ = s ∧ s.rotate 0 u = s ∧
    (s.translate v).translate ⟨-v.x, -v.y, -v.z⟩ = s ∧ (Unit3 u → (s.rotate a u).rotate (-a) u = s) := by
  have h0 : s.translate ⟨0, 0, 0⟩ = s := by
    simp [Shell.translate, Affine.translate, M3.mulVec, V3.real_add]
  have h1 : s.rotate 0 u = s := by
    simp [Shell.rotate, Affine.rotate, M3.ofAngleAxis, M3.mul, M3.mulVec]
  refine ⟨h0, h1, ?_, fun hu => ?_⟩
  · simp only [Shell.translate, Affine.translate, M3.mulVec, V3.real_add, real_add, real_mul]
    refine Shell.ext_pose ?_ rfl
    show Affine.mk _ _ = Affine.mk _ _
    congr 1
    show V3.mk _ _ _ = V3.mk _ _ _
    congr 1 <;> ring
  · rw [(C96_compose s v v u a (-a) hu).2.1, add_neg_cancel, h1]

/-- **C96.** `transform(pose)` puts the tyre into that pose wherever it was before; any pose is taken. -/
theorem C96_transform (s : Shell ℝ) (pose : Affine ℝ) (p : V3 ℝ) :
    (s.transform pose).transformation = pose ∧ (s.transform pose).translation = pose.apply ⟨0, 0, 0⟩ ∧
    (s.transform pose).transformation.apply p = pose.apply p ∧
    (∀ v, (s.translate v).transform pose = s.transform pose) ∧
    ∀ a u, (s.rotate a u).transform pose = s.transform pose := by
  refine ⟨rfl, ?_, rfl, fun _ => rfl, fun _ _ => rfl⟩
  simp [Shell.translation, Shell.transform, Affine.apply, M3.mulVec, V3.real_add]

/-- **C96.** Moving the shell changes its pose and nothing else: the profile, the ribs, the records of the last
setup, the candidate lists and the bounding box all stay (the box is renewed by `updateBBox` or a setup).
This holds for every kind of scalar. -/
theorem C96_only_pose {α : Type} [Scalar α] (s : Shell α) (v u : V3 α) (a : α) (pose : Affine α) :
    ∀ t ∈ [s.translate v, s.rotate a u, s.transform pose],
      t.shape = s.shape ∧ t.ribs = s.ribs ∧ t.out = s.out ∧ t.cands = s.cands ∧ t.box = s.box ∧
      t.maxRadius = s.maxRadius ∧ t.maxWidth = s.maxWidth ∧ (∀ y, t.radiusAt y = s.radiusAt y) ∧
      ∀ y tol, t.angleAt y tol = s.angleAt y tol := by
  intro t ht
  simp only [List.mem_cons, List.not_mem_nil, or_false] at ht
  rcases ht with rfl | rfl | rfl <;> exact ⟨rfl, rfl, rfl, rfl, rfl, rfl, rfl, fun _ => rfl, fun _ _ => rfl⟩

/-- **C96 (partial).** `translation()` grows by the vector given to `translate` exactly when the vector looks
the same in the frame of the tyre and in that of the ground; in particular for a shell that was never turned. -/
theorem C96_ground_frame_partial (s : Shell ℝ) (v : V3 ℝ) :
    ((s.translate v).translation = plus s.translation v ↔ M3.mulVec s.linear v = v) ∧
    (s.linear = M3.id → (s.translate v).translation = plus s.translation v) := by
  have h : (s.translate v).translation = plus s.translation v ↔ M3.mulVec s.linear v = v := by
    simp only [Shell.translation, Shell.translate, Affine.translate, V3.real_add, plus, Shell.linear, V3.mk.injEq,
      add_right_inj]
    exact ⟨fun ⟨h1, h2, h3⟩ => by cases hv : M3.mulVec s.pose.linear v; simp_all, fun h => by rw [h]; simp⟩
  refine ⟨h, fun hs => h.2 ?_⟩
  rw [hs]
  simp [M3.mulVec, M3.id, V3.ex, V3.ey, V3.ez]

/-- **C96 (refuted).** "Translate shell by vector" does not mean a vector of the ground frame: any shell fresh
from the constructor, turned by a right angle about the vertical and translated by `(1, 0, 0)`, has its hub at
`(0, 1, 0)`.  Such shells exist. -/
theorem C96_ground_frame_refuted (fresh : Nat → Output ℝ) :
    (∃ s : Shell ℝ, Shell.make fresh 1 1 2 2 2 1 = .ok s) ∧
    ∀ (n : Nat) (rx mx ry my ly : ℝ) (s : Shell ℝ), Shell.make fresh n rx mx ry my ly = .ok s →
      let t := s.rotate (Real.pi / 2) ⟨0, 0, 1⟩
      t.translation = ⟨0, 0, 0⟩ ∧ (t.translate ⟨1, 0, 0⟩).translation = ⟨0, 1, 0⟩ ∧
      (t.translate ⟨1, 0, 0⟩).translation ≠ plus t.translation ⟨1, 0, 0⟩ := by
  refine ⟨?_, fun n rx mx ry my ly s h => ?_⟩
  · obtain ⟨s, a, h, -⟩ := Demo.oneRib fresh
    exact ⟨s, h⟩
  · obtain ⟨s0, s1, rfl, hr, rfl⟩ := Shell.make_ok h
    have hp : s1.updateBBox.pose = Affine.id := (Shell.resize_ok hr).1.pose
    intro t
    have h1 : t.translation = ⟨0, 0, 0⟩ := by
      simp [t, Shell.translation, Shell.rotate, Affine.rotate, hp, Affine.id, V3.zeros]
    have h2 : (t.translate ⟨1, 0, 0⟩).translation = ⟨0, 1, 0⟩ := by
      simp [t, Shell.translation, Shell.translate, Shell.rotate, Affine.rotate, Affine.translate, hp, Affine.id,
        V3.zeros, M3.mul, M3.mulVec, M3.id, V3.ex, V3.ey, V3.ez, M3.ofAngleAxis, V3.real_add]
    refine ⟨h1, h2, ?_⟩
    rw [h1, h2]
    simp [plus]

/-- The premises are met: after any of the histories of C08 the pose is rigid, and the unit axes of the shell
frame are unit vectors. -/
example (pol : Policy) (s : Shell ℝ) (h : s.RigidHistory pol) : IsRigid s.transformation :=
  (C08_pose_stays_rigid pol s h).1
example : Unit3 ⟨0, 1, 0⟩ ∧ Unit3 ⟨3/5, 0, 4/5⟩ := by constructor <;> norm_num [Unit3]
/-- Turning by a right angle about the spin axis takes the front of the tyre (x) to its bottom (−z). -/
example : turned (Real.pi / 2) ⟨0, 1, 0⟩ ⟨1, 0, 0⟩ = ⟨0, 0, -1⟩ := by
  simp [turned, cross3, dot3]

end Enve
