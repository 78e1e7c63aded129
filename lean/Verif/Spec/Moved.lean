import Verif.Model.Rib
import Verif.Model.Entity
import Verif.Spec.Rigid

/-! # A scene that is moved as a whole

Ground and tyre are moved by one rigid motion `m`. -/

namespace Enve.Spec
open Scalar

/-- The pose `pose`, moved by `m`: a point is first placed by `pose`, then moved by `m`. -/
noncomputable def movedPose (m pose : Affine ℝ) : Affine ℝ := ⟨M3.mul m.linear pose.linear, m.apply pose.trans⟩

/-- A contact record, moved: the point is moved, the normal is rotated, the numbers stay. -/
noncomputable def movedRecord (m : Affine ℝ) (o : Output ℝ) : Output ℝ :=
  { o with point := m.apply o.point, normal := M3.mulVec m.linear o.normal }

/-- A flat ground, moved. -/
noncomputable def movedFlat (m : Affine ℝ) (g : Flat ℝ) : Flat ℝ :=
  ⟨⟨m.apply g.plane.origin, M3.mulVec m.linear g.plane.normal⟩, g.friction⟩

/-- `t'` is the ground triangle `t`, moved: its vertices are moved, its normal is rotated, the friction is
the same. -/
structure MovedTriangle (m : Affine ℝ) (t t' : TriangleGround ℝ) : Prop where
  v0 : t'.tri.v0 = m.apply t.tri.v0
  v1 : t'.tri.v1 = m.apply t.tri.v1
  v2 : t'.tri.v2 = m.apply t.tri.v2
  normal : t'.normal = M3.mulVec m.linear t.normal
  friction : t'.friction = t.friction

/-- The motion keeps the vertical: a translation after a rotation about a vertical axis. -/
def KeepsVertical (m : Affine ℝ) : Prop := m.linear.c2 = ⟨0, 0, 1⟩

end Enve.Spec
