import Verif.Base.Vec
import Verif.Base.Res

/-! # `enve::shape` (`src/shape.cc`) -/

namespace Enve
open Scalar

variable {α : Type} [Scalar α]

/-- `enve::shape`, members `m_r_x, m_m_x, m_r_y, m_m_y, m_l_y` (`shape.hxx`; constructor
`shape.cc:61-74` stores its arguments without any check). -/
@[ext] structure Shape (α : Type) where
  rx : α
  mx : α
  ry : α
  my : α
  ly : α

namespace Shape

/-- `shape::shape(void)`, `shape.cc:50-57`: all members are NaN. -/
def default : Shape α := ⟨Scalar.nan, Scalar.nan, Scalar.nan, Scalar.nan, Scalar.nan⟩

/-- `shape::copy`, `shape.cc:78-88`: overwrites every member of `this`. -/
def copy (_this other : Shape α) : Shape α := ⟨other.rx, other.mx, other.ry, other.my, other.ly⟩

/-- `shape::isApprox`, `shape.cc:92-104`. -/
def isApprox (s t : Shape α) (tol : α) : Bool :=
  Scalar.isApprox s.rx t.rx tol && Scalar.isApprox s.mx t.mx tol &&
  Scalar.isApprox s.ry t.ry tol && Scalar.isApprox s.my t.my tol && Scalar.isApprox s.ly t.ly tol

/-- `shape::surfaceMaxRadius`, `shape.cc:190-195`. -/
def surfaceMaxRadius (s : Shape α) : α := s.rx
/-- `shape::surfaceMaxWidth`, `surfaceWidth`, `shape.cc:199-204, 243-248`. -/
def surfaceMaxWidth (s : Shape α) : α := s.ly

/-- `shape::checkWidthBound`, `shape.cc:208-218`. -/
def checkWidthBound (s : Shape α) (y : α) : Bool := if s.ly <. Scalar.abs y then false else true

/-- `shape::surfaceRadius`, `shape.cc:222-236`. -/
def surfaceRadius (s : Shape α) (y : α) : Res α := do
  Res.assert (s.checkWidthBound y) "y coordinate is ouside the interval [-Ly, Ly]."
  return s.rx *. Scalar.pow (one -. Scalar.pow (Scalar.abs y /. s.ry) s.my) (one /. s.mx)

/-- `shape::surfaceDerivative`, `shape.cc:252-280`. -/
def surfaceDerivative (s : Shape α) (y tol : α) : Res α := do
  Res.assert (s.checkWidthBound y) "y coordinate is ouside the interval [-Ly, Ly]."
  if tol <. Scalar.abs y then
    let sign : α := (if zero <. y then one else zero) -. (if y <. zero then one else zero)
    let yVal := sign *. y
    let yPre := Scalar.pow (yVal /. s.ry) s.my
    return (-. sign) *. Scalar.pow (one -. yPre) ((one -. s.mx) /. s.mx) *. yPre *. s.rx *. s.my
      /. (s.mx *. yVal)
  else
    return zero

/-- `shape::surfaceAngle`, `shape.cc:284-292`. -/
def surfaceAngle (s : Shape α) (y tol : α) : Res α := do
  let d ← s.surfaceDerivative y tol
  return Scalar.atan d

end Shape
end Enve
