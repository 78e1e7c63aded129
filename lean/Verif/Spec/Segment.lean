import Mathlib.MeasureTheory.Measure.Lebesgue.Basic

/-! # Circular segments -/

namespace Enve.Spec

/-- The part of the open disk of radius `R` around the origin of the plane that is cut off by a line at
distance `R - d` from the centre (beyond the centre if `d > R`): the circular segment of height `d`. -/
def circularSegment (R d : ℝ) : Set (ℝ × ℝ) := {p | p.1 ^ 2 + p.2 ^ 2 < R ^ 2 ∧ R - d < p.1}

/-- The area (Lebesgue measure) of the circular segment of height `d`. -/
noncomputable def segmentArea (R d : ℝ) : ℝ := (MeasureTheory.volume (circularSegment R d)).toReal

/-- The distance between the two points of the circle of radius `R` on the line at distance `R - d` from
the centre, characterised by its endpoints. -/
def IsChordLength (R d c : ℝ) : Prop :=
  0 ≤ c ∧ ∃ y y' : ℝ, (R - d) ^ 2 + y ^ 2 = R ^ 2 ∧ (R - d) ^ 2 + y' ^ 2 = R ^ 2 ∧ c = |y - y'| ∧
    ∀ z, (R - d) ^ 2 + z ^ 2 = R ^ 2 → z = y ∨ z = y'

end Enve.Spec
