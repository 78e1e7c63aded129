import Verif.Model.Shell

/-! # Reading the pose and the profile of a shell (`src/shell.cc`) -/

namespace Enve
open Scalar
variable {α : Type} [Scalar α]

namespace Shell
omit [Scalar α] in
/-- `shell::translation`, `shell.cc:273-278`. -/
def translation (s : Shell α) : V3 α := s.pose.trans
omit [Scalar α] in
/-- `shell::linear`, `shell.cc:302-307`. -/
def linear (s : Shell α) : M3 α := s.pose.linear
omit [Scalar α] in
/-- `shell::transformation`, `shell.cc:322-327`. -/
def transformation (s : Shell α) : Affine α := s.pose
omit [Scalar α] in
/-- `shell::x`, `shell.cc:358-363`. -/
def xAxis (s : Shell α) : V3 α := s.pose.linear.c0
omit [Scalar α] in
/-- `shell::z`, `shell.cc:376-381`. -/
def zAxis (s : Shell α) : V3 α := s.pose.linear.c2
omit [Scalar α] in
/-- `shell::bbox`, `shell.cc:407-412`. -/
def box (s : Shell α) : Box α := s.bbox

/-- `shell::surfaceMaxRadius`, `shell.cc:135-140`. -/
def maxRadius (s : Shell α) : α := s.shape.surfaceMaxRadius
/-- `shell::surfaceMaxWidth`, `shell.cc:144-149`, and `shell::surfaceWidth`, `shell.cc:153-158`, which call
functions of the shape that compute the same value. -/
def maxWidth (s : Shell α) : α := s.shape.surfaceMaxWidth
/-- `shell::checkWidthBound`, `shell.cc:162-169`. -/
def inWidth (s : Shell α) (y : α) : Bool := s.shape.checkWidthBound y
/-- `shell::surfaceRadius`, `shell.cc:173-180`. -/
def radiusAt (s : Shell α) (y : α) : Res α := s.shape.surfaceRadius y
/-- `shell::surfaceDerivative`, `shell.cc:184-192`. -/
def slopeAt (s : Shell α) (y tol : α) : Res α := s.shape.surfaceDerivative y tol
/-- `shell::surfaceAngle`, `shell.cc:196-204`. -/
def angleAt (s : Shell α) (y tol : α) : Res α := s.shape.surfaceAngle y tol
end Shell

end Enve
