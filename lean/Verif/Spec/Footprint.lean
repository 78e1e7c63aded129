import Verif.Spec.Volume
import Verif.Spec.Entity

/-! # The part of the ground inside a tyre -/

namespace Enve.Spec

/-- The points of the plane through `origin` with the directions `u` and `v` that are inside the tyre at the pose, given
by their coordinates in the plane. -/
def footprint (rx mx ry my ly : ℝ) (pose : Affine ℝ) (origin u v : V3 ℝ) : Set (ℝ × ℝ) :=
  {p | ∃ q ∈ tyreSolid rx mx ry my ly, pose.apply ⟨q.2.1, q.1, q.2.2⟩ = along (along origin p.1 u) p.2 v}

/-- The area (Lebesgue measure) of the footprint; for directions of length one at right angles it is the area of the
part of the plane inside the tyre. -/
noncomputable def footprintArea (rx mx ry my ly : ℝ) (pose : Affine ℝ) (origin u v : V3 ℝ) : ℝ :=
  (MeasureTheory.volume (footprint rx mx ry my ly pose origin u v)).toReal

end Enve.Spec
