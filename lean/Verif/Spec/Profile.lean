import Mathlib.Analysis.SpecialFunctions.Pow.Real

/-! # What a tyre profile is

Independent of the model: plain real numbers only. -/

namespace Enve.Spec

/-- The parameters of a sensible profile: positive radii, exponents and half width, and the tyre is
not wider than the super-ellipse. -/
structure ValidProfile (rx mx ry my ly : ℝ) : Prop where
  rx_pos : 0 < rx
  mx_pos : 0 < mx
  ry_pos : 0 < ry
  my_pos : 0 < my
  ly_pos : 0 < ly
  ly_le : ly ≤ ry

/-- `(y, r)` is a point of the upper branch of the super-ellipse
`(r/rx)^mx + (|y|/ry)^my = 1`. -/
def OnProfile (rx mx ry my y r : ℝ) : Prop :=
  0 ≤ r ∧ (r / rx) ^ mx + (|y| / ry) ^ my = 1

end Enve.Spec
