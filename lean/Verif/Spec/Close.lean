import Verif.Base.Binary64
import Verif.Base.Vec

/-! # Doubles close to real numbers -/

namespace Enve.Spec

/-- `a` is a finite double at most `e` away from the real number `X`. -/
def Close (e : ℝ) (a : B64) (X : ℝ) : Prop := ∃ x : ℝ, a = B64.fin x ∧ |x - X| ≤ e

/-- The same for every component of a vector. -/
structure Close3 (e : ℝ) (a : V3 B64) (X : V3 ℝ) : Prop where
  x : Close e a.x X.x
  y : Close e a.y X.y
  z : Close e a.z X.z

/-- A unit of accuracy: not below the resolution `2 ^ -52` of doubles, and small. -/
structure Fine (ε : ℝ) : Prop where
  lo : 1 / 2 ^ 52 ≤ ε
  hi : ε ≤ 1 / 2 ^ 40

end Enve.Spec
