import Verif.Base.Vec

/-! # Boxes and triangles as sets of points of real 3-space -/

namespace Enve.Spec

/-- `p` lies in the axis-aligned box with lower corner `lo` and upper corner `hi`. -/
def InBox (lo hi p : V3 ℝ) : Prop :=
  (lo.x ≤ p.x ∧ p.x ≤ hi.x) ∧ (lo.y ≤ p.y ∧ p.y ≤ hi.y) ∧ (lo.z ≤ p.z ∧ p.z ≤ hi.z)

/-- `p` is a convex combination of the three points. -/
def InTriangle (v0 v1 v2 p : V3 ℝ) : Prop :=
  ∃ a b c : ℝ, 0 ≤ a ∧ 0 ≤ b ∧ 0 ≤ c ∧ a + b + c = 1 ∧
    p = ⟨a * v0.x + b * v1.x + c * v2.x, a * v0.y + b * v1.y + c * v2.y,
         a * v0.z + b * v1.z + c * v2.z⟩

end Enve.Spec
