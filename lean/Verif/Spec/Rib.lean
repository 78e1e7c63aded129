import Verif.Model.Rib

/-! # Ribs of a tyre -/

namespace Enve

/-- What every rib of a shell is: a disk of positive radius around a point of the y axis, orthogonal to
that axis. -/
structure Spec.IsRib (r : Rib ℝ) : Prop where
  radius_pos : 0 < r.disk.radius
  width_nonneg : 0 ≤ r.width
  center : r.disk.plane.origin = ⟨0, r.y, 0⟩
  normal : r.disk.plane.normal = ⟨0, 1, 0⟩

end Enve
