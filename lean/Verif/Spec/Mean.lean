import Verif.Base.Binary64
import Verif.Spec.Calm
import Mathlib.Algebra.BigOperators.Group.Finset.Basic

/-! # Averages over the ribs -/

namespace Enve.Spec

/-- The sum over the first `n` ribs. -/
noncomputable def total (n : Nat) (x : Nat → ℝ) : ℝ := ∑ i ∈ Finset.range n, x i

/-- The average of `x` over `n` ribs: weighted with the volumes `v`, or plain. -/
noncomputable def mean (byVolume : Prop) [Decidable byVolume] (n : Nat) (v x : Nat → ℝ) : ℝ :=
  if byVolume then total n (fun i => v i * x i) / total n v else total n x / n

/-- The number `x` as a double. -/
def Stored (b : B64) (x : ℝ) : Prop := b = B64.fin x

/-- The vector `x` in doubles. -/
def Stored3 (b : V3 B64) (x : V3 ℝ) : Prop := Stored b.x x.x ∧ Stored b.y x.y ∧ Stored b.z x.z

end Enve.Spec
