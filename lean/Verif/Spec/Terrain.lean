import Verif.Spec.Volume

/-! # The part of a tyre below a terrain -/

namespace Enve.Spec

/-- The points of the tyre below a terrain, in the frame of the wheel, the coordinate along the wheel axis first: `H x y` is the height of
the terrain above the wheel axis (negative, then, when the terrain is below it), `x` in front of the axis and `y` along it. -/
def terrainPart (rx mx ry my ly : ℝ) (H : ℝ → ℝ → ℝ) : Set (ℝ × ℝ × ℝ) :=
  {p ∈ tyreSolid rx mx ry my ly | p.2.2 < H p.2.1 p.1}

/-- The volume (Lebesgue measure) of that part. -/
noncomputable def terrainVolume (rx mx ry my ly : ℝ) (H : ℝ → ℝ → ℝ) : ℝ :=
  (MeasureTheory.volume (terrainPart rx mx ry my ly H)).toReal

end Enve.Spec
