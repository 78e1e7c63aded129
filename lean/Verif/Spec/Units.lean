import Verif.Model.Shell

/-! # The same scene in another unit of length

`k` is the number of new units in an old one: 1000 for a scene in metres described in millimetres. -/

namespace Enve.Spec
open Scalar

/-- The coordinates of a point in the new unit. -/
def rescale (k : ℝ) (v : V3 ℝ) : V3 ℝ := ⟨k * v.x, k * v.y, k * v.z⟩

/-- The pose in the new unit: the rotation has none. -/
def rescalePose (k : ℝ) (pose : Affine ℝ) : Affine ℝ := ⟨pose.linear, rescale k pose.trans⟩

/-- The flat ground in the new unit. -/
def rescaleFlat (k : ℝ) (g : Flat ℝ) : Flat ℝ := ⟨⟨rescale k g.plane.origin, g.plane.normal⟩, g.friction⟩

/-- The record in the new unit: lengths, an area and a volume; normal and friction have no unit. -/
def rescaleRecord (k : ℝ) (o : Output ℝ) : Output ℝ :=
  ⟨rescale k o.point, o.normal, o.friction, k * o.depth, k ^ 2 * o.area, k ^ 3 * o.volume⟩

/-- `t'` is the triangle `t` in the new unit. -/
structure RescaledTriangle (k : ℝ) (t t' : TriangleGround ℝ) : Prop where
  v0 : t'.tri.v0 = rescale k t.tri.v0
  v1 : t'.tri.v1 = rescale k t.tri.v1
  v2 : t'.tri.v2 = rescale k t.tri.v2
  normal : t'.normal = t.normal
  friction : t'.friction = t.friction

/-- `r'` is the rib `r` in the new unit. -/
structure RescaledRib (k : ℝ) (r r' : Rib ℝ) : Prop where
  y : r'.y = k * r.y
  radius : r'.radius = k * r.radius
  width : r'.width = k * r.width

/-- `s'` is the tyre `s` in the new unit: its ribs, and the radius that bounds it. -/
structure RescaledTyre (k : ℝ) (s s' : Shell ℝ) : Prop where
  ribs : List.Forall₂ (RescaledRib k) s.ribs s'.ribs
  rx : s'.shape.rx = k * s.shape.rx

/-- `s'` has the contact of `s` in the new unit. -/
structure RescaledShell (pol : Policy) (k : ℝ) (s s' : Shell ℝ) : Prop where
  size : s'.size = s.size
  pose : s'.pose = rescalePose k s.pose
  record : ∀ i < s.size, ∃ o, s.out.read pol i = .ok o ∧ s'.out.read pol i = .ok (rescaleRecord k o)

/-- The same, with no statement about friction. -/
structure RescaledGeometry (pol : Policy) (k : ℝ) (s s' : Shell ℝ) : Prop where
  size : s'.size = s.size
  pose : s'.pose = rescalePose k s.pose
  record : ∀ i < s.size, ∃ o f, s.out.read pol i = .ok o ∧ s'.out.read pol i = .ok { rescaleRecord k o with friction := f }

end Enve.Spec
