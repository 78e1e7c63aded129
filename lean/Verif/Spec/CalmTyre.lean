import Verif.Spec.Calm
import Verif.Spec.SegmentRecord
import Verif.Model.Shell

/-! # A whole tyre over a flat ground, in doubles -/

namespace Enve.Spec

/-- The ribs of the tyre, in doubles: number `i` has the radius `R i` and the width `w i`, and its centre is at `y i` on the axis.  Each
of them is in a moderate scene, at the exact pose `P`, over the plane through `o` with the unit normal `n`. -/
structure CalmTyre (s : Shell B64) (R y w : Nat → ℝ) (P : Affine ℝ) (o n : V3 ℝ) : Prop where
  solid : ∀ i (r : Rib B64), s.ribs[i]? = some r → SolidRib r (R i) (w i)
  center : ∀ i (r : Rib B64), s.ribs[i]? = some r → r.disk.plane.origin = ⟨B64.fin 0, B64.fin (y i), B64.fin 0⟩
  scene : ∀ i < s.size, CalmScene (R i) (y i) (w i) P o n

/-- The error of the depth of a rib. -/
noncomputable def depthError (ε R w : ℝ) : ℝ := 2 ^ 28 * (1 + R / w) * ε

end Enve.Spec
