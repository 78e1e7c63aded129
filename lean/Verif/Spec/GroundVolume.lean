import Verif.Spec.Profile
import Mathlib.Analysis.SpecialFunctions.Pow.Real

/-! # Tyres of ordinary size -/

namespace Enve.Spec

/-- A tyre of ordinary size: radius up to two metres, half width up to one metre, and a radius `RL` of at least 25 cm at the side. -/
structure RoadTyre (Rx Mx Ry My L RL : ℝ) : Prop where
  valid : ValidProfile Rx Mx Ry My L
  Rx_le : Rx ≤ 2
  L_le : L ≤ 1
  edge : OnProfile Rx Mx Ry My L RL
  RL_lo : 1 / 4 ≤ RL

/-- The relative error of the rib radii that the constructor computes, at the side of the tyre. -/
noncomputable def radiusError (Rx Mx My RL : ℝ) : ℝ := ((My + 1) / (Mx * (RL / Rx) ^ Mx) + 2 ^ 9) / 2 ^ 50

end Enve.Spec
