import Mathlib.MeasureTheory.Measure.Lebesgue.Basic
import Mathlib.MeasureTheory.Integral.Bochner.Set
import Mathlib.Analysis.Calculus.Deriv.Basic
import Mathlib.Analysis.Real.Sqrt

/-! # The part of a disk below a road -/

namespace Enve.Spec

/-- The points of the open disk of radius `R` around the origin that are below the road: `road x` is the height of the road at `x`. -/
def belowRoad (R : ℝ) (road : ℝ → ℝ) : Set (ℝ × ℝ) := {p | p.1 ^ 2 + p.2 ^ 2 < R ^ 2 ∧ p.2 < road p.1}

/-- The area of that part. -/
noncomputable def areaBelow (R : ℝ) (road : ℝ → ℝ) : ℝ := (MeasureTheory.volume (belowRoad R road)).toReal

/-- The length of the part of the road in the closed disk: the integral of `√(1 + slope²)`. -/
noncomputable def roadLength (R : ℝ) (road : ℝ → ℝ) : ℝ := ∫ x in {x | x ^ 2 + road x ^ 2 ≤ R ^ 2}, √(1 + deriv road x ^ 2)

end Enve.Spec
