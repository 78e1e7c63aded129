import Verif.Spec.Calm

/-! # The rib's own plane and the ground -/

namespace Enve.Spec

/-- How large the scene is, in metres. -/
structure Extent (M : ℝ) : Prop where
  lo : 16 ≤ M
  hi : M ≤ 2 ^ 10

/-- A rib of radius `R` at `y` on the axis of a wheel in the pose `P`, over the plane through `o` with the unit normal `n`, within `M`
metres of the origin; the axis of the wheel is well away from the normal of the ground. -/
structure CutScene (M R y : ℝ) (P : Affine ℝ) (o n : V3 ℝ) : Prop where
  rigid : IsRigid P
  place : length3 P.trans ≤ M
  origin : length3 o ≤ M
  unit : n.x ^ 2 + n.y ^ 2 + n.z ^ 2 = 1
  side : |dot3 n P.linear.c1| ≤ 3 / 5
  R_lo : 1 / 8 ≤ R
  R_hi : R ≤ 2
  y_le : |y| ≤ 1

/-- A rib in doubles: its radius and its direction known up to `ε`, its place up to `M * ε`. -/
structure CutRib (M ε : ℝ) (r : Rib B64) (R y : ℝ) : Prop where
  radius : Close ε r.disk.radius R
  center : Close3 (M * ε) r.disk.plane.origin ⟨0, y, 0⟩
  axis : Close3 ε r.disk.plane.normal ⟨0, 1, 0⟩

/-- A pose in doubles: directions known up to `ε`, the place up to `M * ε`. -/
structure CutPose (M ε : ℝ) (p : Affine B64) (P : Affine ℝ) : Prop where
  c0 : Close3 ε p.linear.c0 P.linear.c0
  c1 : Close3 ε p.linear.c1 P.linear.c1
  c2 : Close3 ε p.linear.c2 P.linear.c2
  trans : Close3 (M * ε) p.trans P.trans

/-- A flat ground in doubles. -/
structure CutFlat (M ε : ℝ) (g : Flat B64) (o n : V3 ℝ) : Prop where
  origin : Close3 (M * ε) g.plane.origin o
  normal : Close3 ε g.plane.normal n

/-- `q` is on the ground and in the plane of the rib. -/
def OnCut (y : ℝ) (P : Affine ℝ) (o n q : V3 ℝ) : Prop :=
  dot3 n ⟨q.x - o.x, q.y - o.y, q.z - o.z⟩ = 0 ∧
    dot3 P.linear.c1 ⟨q.x - (hub y P).x, q.y - (hub y P).y, q.z - (hub y P).z⟩ = 0

/-- Of the line where the plane of the rib cuts the ground, the point nearest to the centre of the rib (`C109_nearest`). -/
noncomputable def nearCut (y : ℝ) (P : Affine ℝ) (o n : V3 ℝ) : V3 ℝ :=
  let c := hub y P
  let N := P.linear.c1
  let s := dot3 n N
  let t := dot3 n ⟨o.x - c.x, o.y - c.y, o.z - c.z⟩ / (1 - s ^ 2)
  ⟨c.x + t * (n.x - s * N.x), c.y + t * (n.y - s * N.y), c.z + t * (n.z - s * N.z)⟩

/-- How deep the rib is in the ground, measured in its own plane. -/
noncomputable def cutDepth (R y : ℝ) (P : Affine ℝ) (o n : V3 ℝ) : ℝ := R - dist3 (hub y P) (nearCut y P o n)

end Enve.Spec
