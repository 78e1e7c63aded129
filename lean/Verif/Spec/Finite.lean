import Verif.Base.Binary64
import Verif.Model.Rib

/-! # Data that are numbers -/

namespace Enve.Spec

/-- A value of type `double` that is neither NaN nor infinite. -/
def IsNumber (a : B64) : Prop := ∃ x : ℝ, a = .fin x

/-- A value of type `double` that is not NaN. -/
def NotNaN (a : B64) : Prop := a.val ≠ .nan

/-- All coordinates have the property. -/
structure All3 (P : B64 → Prop) (v : V3 B64) : Prop where
  x : P v.x
  y : P v.y
  z : P v.z

/-- All twelve entries of a pose have the property. -/
structure AllPose (P : B64 → Prop) (p : Affine B64) : Prop where
  trans : All3 P p.trans
  c0 : All3 P p.linear.c0
  c1 : All3 P p.linear.c1
  c2 : All3 P p.linear.c2

/-- Origin and normal of the plane have the property. -/
structure AllPlane (P : B64 → Prop) (p : Plane B64) : Prop where
  origin : All3 P p.origin
  normal : All3 P p.normal

/-- All vertices have the property. -/
structure AllTri (P : B64 → Prop) (t : Triangle B64) : Prop where
  v0 : All3 P t.v0
  v1 : All3 P t.v1
  v2 : All3 P t.v2

end Enve.Spec
