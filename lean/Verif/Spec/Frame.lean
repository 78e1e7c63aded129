import Verif.Base.Vec
import Verif.Spec.Rigid

/-! # Elementary rotations -/

namespace Enve.Spec

/-- Rotation by `t` about the x axis (columns). -/
noncomputable def rotX (t : ℝ) : M3 ℝ := ⟨⟨1, 0, 0⟩, ⟨0, Real.cos t, Real.sin t⟩, ⟨0, -Real.sin t, Real.cos t⟩⟩
/-- Rotation by `t` about the y axis (columns). -/
noncomputable def rotY (t : ℝ) : M3 ℝ := ⟨⟨Real.cos t, 0, -Real.sin t⟩, ⟨0, 1, 0⟩, ⟨Real.sin t, 0, Real.cos t⟩⟩
/-- Rotation by `t` about the z axis (columns). -/
noncomputable def rotZ (t : ℝ) : M3 ℝ := ⟨⟨Real.cos t, Real.sin t, 0⟩, ⟨-Real.sin t, Real.cos t, 0⟩, ⟨0, 0, 1⟩⟩

/-- Yaw about z, then camber about the new x, then pitch about the new y. -/
noncomputable def fromAngles (yaw camber pitch : ℝ) : M3 ℝ :=
  M3.mul (M3.mul (rotZ yaw) (rotX camber)) (rotY pitch)

/-- Two vectors are parallel (or one is zero): their cross product vanishes. -/
def Parallel3 (a b : V3 ℝ) : Prop :=
  a.y * b.z - a.z * b.y = 0 ∧ a.z * b.x - a.x * b.z = 0 ∧ a.x * b.y - a.y * b.x = 0

end Enve.Spec
