import Verif.Model.Edit
import Verif.Spec.Box
import Verif.Spec.Geometry
import Verif.Spec.Rigid

/-! # What a ground object must satisfy -/

namespace Enve.Spec

/-- `lo`, `hi` are the corners of the smallest axis-aligned box around the points: it contains them, and each
of its six faces holds one of them. -/
structure SmallestBox (lo hi : V3 ℝ) (pts : List (V3 ℝ)) : Prop where
  contains : ∀ v ∈ pts, InBox lo hi v
  minx : ∃ v ∈ pts, lo.x = v.x
  miny : ∃ v ∈ pts, lo.y = v.y
  minz : ∃ v ∈ pts, lo.z = v.z
  maxx : ∃ v ∈ pts, hi.x = v.x
  maxy : ∃ v ∈ pts, hi.y = v.y
  maxz : ∃ v ∈ pts, hi.z = v.z

/-- The three vertices. -/
def corners (t : Triangle ℝ) : List (V3 ℝ) := [t.v0, t.v1, t.v2]

/-- The vector is a unit normal of the triangle that does not point downwards. -/
structure UpNormal (n : V3 ℝ) (t : Triangle ℝ) : Prop where
  unit : length3 n = 1
  orth : ∀ u ∈ corners t, ∀ v ∈ corners t, dot3 n (minus u v) = 0
  up : 0 ≤ n.z

/-- The data a ground triangle reports fit its vertices: the normal is an upward unit normal, the box the
smallest box around them. -/
structure Consistent (t : TriangleGround ℝ) : Prop where
  normal : UpNormal t.normal t.tri
  box : SmallestBox t.bbox.min t.bbox.max (corners t.tri)

/-- The three points do not lie on one line. -/
def NotCollinear (p q r : V3 ℝ) : Prop :=
  ¬ ∃ (o d : V3 ℝ) (a b c : ℝ), p = along o a d ∧ q = along o b d ∧ r = along o c d

/-- A flat ground as the constructors accept it: friction not negative, unit normal pointing upwards. -/
structure GoodFlat (g : Flat ℝ) : Prop where
  friction : 0 ≤ g.friction
  unit : length3 g.plane.normal = 1
  up : 0 < g.plane.normal.z

end Enve.Spec
