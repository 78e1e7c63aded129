import Verif.Spec.Geometry
import Verif.Spec.Entity

/-! # Moving points of real 3-space -/

namespace Enve.Spec

/-- The sum of two vectors. -/
def plus (p v : V3 ℝ) : V3 ℝ := ⟨p.x + v.x, p.y + v.y, p.z + v.z⟩

/-- `p` turned by `angle` about the axis through the origin with unit direction `u`: the part along `u` stays,
the part across `u` turns in the plane across `u`. -/
noncomputable def turned (angle : ℝ) (u p : V3 ℝ) : V3 ℝ :=
  let k := dot3 u p
  let across : V3 ℝ := ⟨p.x - k * u.x, p.y - k * u.y, p.z - k * u.z⟩
  let side := cross3 u across
  let c := Real.cos angle
  let s := Real.sin angle
  ⟨k * u.x + c * across.x + s * side.x, k * u.y + c * across.y + s * side.y, k * u.z + c * across.z + s * side.z⟩

end Enve.Spec
