import Verif.Model.Rib

/-! # The mirror image of a scene

Everything is mirrored at the plane `y = 0`, which exchanges left and right. -/

namespace Enve.Spec
open Scalar

/-- The mirror image of a point or vector. -/
def mirror (v : V3 ℝ) : V3 ℝ := ⟨v.x, -v.y, v.z⟩

/-- The pose of the mirrored wheel.  A wheel is its own mirror image, so the mirrored wheel is again a wheel in some
pose: the point with coordinates `p` of the mirrored wheel is the mirror image of the point with coordinates `mirror p`
of the wheel (`mirrorPose_apply`). -/
def mirrorPose (pose : Affine ℝ) : Affine ℝ :=
  ⟨⟨mirror pose.linear.c0, ⟨-pose.linear.c1.x, pose.linear.c1.y, -pose.linear.c1.z⟩, mirror pose.linear.c2⟩,
    mirror pose.trans⟩

/-- The mirror image of a contact record. -/
def mirrorRecord (o : Output ℝ) : Output ℝ := { o with point := mirror o.point, normal := mirror o.normal }

/-- The mirror image of a flat ground. -/
def mirrorFlat (g : Flat ℝ) : Flat ℝ := ⟨⟨mirror g.plane.origin, mirror g.plane.normal⟩, g.friction⟩

/-- The vertices of `t'` are the mirror images of those of `t`, the friction is the same. -/
structure MirrorTriangle (t t' : TriangleGround ℝ) : Prop where
  v0 : t'.tri.v0 = mirror t.tri.v0
  v1 : t'.tri.v1 = mirror t.tri.v1
  v2 : t'.tri.v2 = mirror t.tri.v2
  friction : t'.friction = t.friction

/-- The rib `r'` is the mirror image of `r`: as far on the other side of the wheel, of the same radius and width. -/
structure MirrorRib (r r' : Rib ℝ) : Prop where
  y : r'.y = -r.y
  radius : r'.radius = r.radius
  width : r'.width = r.width

/-- Both records are the same up to the friction, one mirrored. -/
def MirrorGeometry (o o' : Output ℝ) : Prop :=
  o'.point = mirror o.point ∧ o'.normal = mirror o.normal ∧ o'.depth = o.depth ∧ o'.area = o.area ∧
    o'.volume = o.volume

end Enve.Spec
