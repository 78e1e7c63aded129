import Verif.Spec.Geometry
import Verif.Spec.Calm

/-! # The road that a mesh describes -/

namespace Enve.Spec

/-- `p` is a point of the surface that the triangles describe. -/
def OnMesh (ts : List (TriangleGround ℝ)) (p : V3 ℝ) : Prop :=
  ∃ t ∈ ts, InTriangle t.tri.v0 t.tri.v1 t.tri.v2 p

/-- The surface is nowhere steeper than `L`: between two of its points the height changes by at most `L` for every metre
covered along the two horizontal axes.  There are no steps and no overhangs. -/
def Gentle (L : ℝ) (ts : List (TriangleGround ℝ)) : Prop :=
  ∀ p q, OnMesh ts p → OnMesh ts q → |p.z - q.z| ≤ L * (|p.x - q.x| + |p.y - q.y|)

/-- Seen from above, no triangle is larger than `D` along the two horizontal axes, measured from its first vertex. -/
def Sized (D : ℝ) (ts : List (TriangleGround ℝ)) : Prop :=
  ∀ t ∈ ts, (|t.tri.v1.x - t.tri.v0.x| ≤ D ∧ |t.tri.v1.y - t.tri.v0.y| ≤ D) ∧
    |t.tri.v2.x - t.tri.v0.x| ≤ D ∧ |t.tri.v2.y - t.tri.v0.y| ≤ D

/-- Twice the area of the triangle seen from above. -/
noncomputable def plan2 (t : Triangle ℝ) : ℝ :=
  |(t.v1.x - t.v0.x) * (t.v2.y - t.v0.y) - (t.v1.y - t.v0.y) * (t.v2.x - t.v0.x)|

/-- No triangle is smaller than `m`, seen from above. -/
def Visible (m : ℝ) (ts : List (TriangleGround ℝ)) : Prop := ∀ t ∈ ts, m ≤ plan2 t.tri

/-- Two lists of triangles describe the same surface. -/
def SameSurface (ts ts' : List (TriangleGround ℝ)) : Prop := ∀ p, OnMesh ts p ↔ OnMesh ts' p

/-- The triangle fits in a cube with edges `D`, counted from its first vertex; seen from above it is no needle, and its area is, with
`D ≤ 2 ^ 10`, at least the double of the tolerance. -/
structure Sound (D : ℝ) (T : Triangle ℝ) : Prop where
  edge1 : Upto D ⟨T.v1.x - T.v0.x, T.v1.y - T.v0.y, T.v1.z - T.v0.z⟩
  edge2 : Upto D ⟨T.v2.x - T.v0.x, T.v2.y - T.v0.y, T.v2.z - T.v0.z⟩
  small : D ≤ 2 ^ 10
  fat : D ^ 2 / 2 ^ 12 ≤ plan2 T
  big : 1 / 2 ^ 25 ≤ plan2 T

/-- The vector with the given components, as doubles. -/
def asVec (a : V3 ℝ) : V3 B64 := ⟨B64.fin a.x, B64.fin a.y, B64.fin a.z⟩

/-- The triangle with the given vertices, as doubles. -/
def asTri (T : Triangle ℝ) : Triangle B64 := ⟨asVec T.v0, asVec T.v1, asVec T.v2⟩

/-- A ground triangle held in doubles: its vertices and its friction are the given real numbers. -/
def InDoubles (t : TriangleGround B64) (T : TriangleGround ℝ) : Prop := t.tri = asTri T.tri ∧ t.friction = B64.fin T.friction

/-- Measured vertically, no vertex of the triangle is farther than `η` from the plane through `o` with the normal `n`. -/
structure AlongPlane (η : ℝ) (o n : V3 ℝ) (T : Triangle ℝ) : Prop where
  v0 : |T.v0.z - (footAt o n T.v0).z| ≤ η
  v1 : |T.v1.z - (footAt o n T.v1).z| ≤ η
  v2 : |T.v2.z - (footAt o n T.v2).z| ≤ η

/-- Above or below every point of the horizontal square with the centre `c` and the edges `2 * a` there is a point of the surface. -/
def Covers (a : ℝ) (c : V3 ℝ) (ts : List (TriangleGround ℝ)) : Prop :=
  ∀ x y, |x - c.x| ≤ a → |y - c.y| ≤ a → ∃ p, OnMesh ts p ∧ p.x = x ∧ p.y = y

end Enve.Spec
