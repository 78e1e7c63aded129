import Verif.Spec.Close
import Verif.Spec.Rigid
import Verif.Model.Rib

/-! # A wheel over a flat ground, exactly and in doubles -/

namespace Enve.Spec

/-- The components are at most `A` in size. -/
structure Upto (A : ℝ) (v : V3 ℝ) : Prop where
  x : |v.x| ≤ A
  y : |v.y| ≤ A
  z : |v.z| ≤ A

/-- A rib of radius `R` and width `w` at `y` on the axis of a wheel in the pose `P`, over the plane through `o` with the unit
normal `n`.  Metres: the scene lies within a kilometre of the origin; the ground is not steeper than 60 degrees; the wheel is not
turned by more than 60 degrees from its upright position, and its axis is well away from the normal of the ground. -/
structure CalmScene (R y w : ℝ) (P : Affine ℝ) (o n : V3 ℝ) : Prop where
  rigid : IsRigid P
  place : Upto (2 ^ 10) P.trans
  origin : Upto (2 ^ 10) o
  unit : n.x ^ 2 + n.y ^ 2 + n.z ^ 2 = 1
  up : 1 / 2 ≤ n.z
  top : 1 / 2 ≤ P.linear.c2.z
  side : |dot3 n P.linear.c1| ≤ 3 / 5
  R_lo : 1 / 8 ≤ R
  R_hi : R ≤ 2
  y_le : |y| ≤ 1
  w_lo : 1 / 64 ≤ w
  w_hi : w ≤ 1

/-- The point of the plane vertically below or above `p`. -/
noncomputable def footAt (o n p : V3 ℝ) : V3 ℝ :=
  ⟨p.x, p.y, p.z + (n.x * (o.x - p.x) + n.y * (o.y - p.y) + n.z * (o.z - p.z)) / n.z⟩

/-- The centre of the rib. -/
noncomputable def hub (y : ℝ) (P : Affine ℝ) : V3 ℝ :=
  ⟨P.trans.x + P.linear.c1.x * y, P.trans.y + P.linear.c1.y * y, P.trans.z + P.linear.c1.z * y⟩

/-- How far the rib reaches in the direction of the normal of the ground, less the vertical distance of its centre from the ground. -/
noncomputable def sunkDepth (R y : ℝ) (P : Affine ℝ) (o n : V3 ℝ) : ℝ :=
  R * Real.sqrt (1 - dot3 n P.linear.c1 ^ 2) - dist3 (hub y P) (footAt o n (hub y P))

/-- A rib in doubles, known up to `ε`. -/
structure CloseRib (ε : ℝ) (r : Rib B64) (R y w : ℝ) : Prop where
  radius : Close ε r.disk.radius R
  center : Close3 (2 ^ 10 * ε) r.disk.plane.origin ⟨0, y, 0⟩
  width : Close ε r.width w

/-- A pose in doubles: directions known up to `ε`, the place up to `2 ^ 10 * ε`. -/
structure ClosePose (ε : ℝ) (p : Affine B64) (P : Affine ℝ) : Prop where
  c0 : Close3 ε p.linear.c0 P.linear.c0
  c1 : Close3 ε p.linear.c1 P.linear.c1
  c2 : Close3 ε p.linear.c2 P.linear.c2
  trans : Close3 (2 ^ 10 * ε) p.trans P.trans

/-- A flat ground in doubles. -/
structure CloseFlat (ε : ℝ) (g : Flat B64) (o n : V3 ℝ) : Prop where
  origin : Close3 (2 ^ 10 * ε) g.plane.origin o
  normal : Close3 ε g.plane.normal n

end Enve.Spec
