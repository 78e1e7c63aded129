import Verif.Spec.Profile
import Verif.Spec.Geometry
import Mathlib.MeasureTheory.Measure.Lebesgue.Basic

/-! # The part of a tyre below the ground -/

namespace Enve.Spec

/-- The points of a tyre in the frame of the wheel, the coordinate along the wheel axis first: the points inside the
circles whose radii the profile gives. -/
def tyreSolid (rx mx ry my ly : ℝ) : Set (ℝ × ℝ × ℝ) :=
  {p | |p.1| < ly ∧ ∃ r, OnProfile rx mx ry my p.1 r ∧ p.2.1 ^ 2 + p.2.2 ^ 2 < r ^ 2}

/-- The points of the tyre that the pose of the wheel puts below the plane through `origin` with the upward normal
`normal`.  (A rigid pose does not change volumes, so the frame of the wheel will do.) -/
def sunkPart (rx mx ry my ly : ℝ) (pose : Affine ℝ) (origin normal : V3 ℝ) : Set (ℝ × ℝ × ℝ) :=
  {p ∈ tyreSolid rx mx ry my ly |
    dot3 (minus (pose.apply ⟨p.2.1, p.1, p.2.2⟩) origin) normal < 0}

/-- The volume (Lebesgue measure) of the part of the tyre below the ground. -/
noncomputable def sunkVolume (rx mx ry my ly : ℝ) (pose : Affine ℝ) (origin normal : V3 ℝ) : ℝ :=
  (MeasureTheory.volume (sunkPart rx mx ry my ly pose origin normal)).toReal

end Enve.Spec
