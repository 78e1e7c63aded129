import Verif.Base.Binary64
import Verif.Spec.Segment
import Verif.Model.Rib

/-! # Area and volume of a record of doubles -/

namespace Enve.Spec

/-- A rib whose radius and width are doubles between a micrometre and a thousand kilometres. -/
structure SolidRib (r : Rib B64) (R w : ℝ) : Prop where
  radius : r.radius = B64.fin R
  width : r.width = B64.fin w
  rep : B64.Rep R
  R_lo : 1 / 2 ^ 20 ≤ R
  R_hi : R ≤ 2 ^ 20
  w_lo : 1 / 2 ^ 20 ≤ w
  w_hi : w ≤ 2 ^ 20

/-- The area is, up to rounding, the chord that the ground cuts from the rib times the width, and the volume is, up to rounding, the
area of the segment below the ground times the width.  The accuracy of the volume depends on the depth. -/
structure SegmentRecord (R w d : ℝ) (area volume : B64) : Prop where
  area : ∃ a c, area = B64.fin a ∧ 0 ≤ a ∧ IsChordLength R d c ∧ |a - w * c| ≤ w * c / 2 ^ 49 + 1 / 2 ^ 100
  volume : ∃ v, volume = B64.fin v ∧ |v - w * segmentArea R d| ≤ w * R ^ 2 / 2 ^ 24 ∧
    (0 < d → |v - w * segmentArea R d| ≤ w * segmentArea R d * ((R / d) ^ 2 / 2 ^ 48))

end Enve.Spec
