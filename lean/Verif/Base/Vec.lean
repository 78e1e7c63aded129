import Verif.Base.Scalar

/-!
# Vectors, matrices and poses

The fragment of Eigen used by the code (`vec3`, `point`, `mat3`, `affine`, `angleaxis`;
`toolbox/src/acme.hh:85-97`).  `acme::point` is an `Eigen::Vector3d` (`acme/point.hxx:55`).
-/

namespace Enve
open Scalar

/-- `vec3` / `point`. -/
@[ext] structure V3 (α : Type) where
  x : α
  y : α
  z : α

/-- `mat3`, given by its columns. -/
@[ext] structure M3 (α : Type) where
  c0 : V3 α
  c1 : V3 α
  c2 : V3 α

/-- `affine` (`Eigen::Transform<real,3,Eigen::Affine>`): the last row of the 4x4 matrix is taken to
be `0 0 0 1`, as every use in the library does. -/
@[ext] structure Affine (α : Type) where
  linear : M3 α
  trans : V3 α

variable {α : Type} [Scalar α]

namespace V3
/-- `a + b`. -/
def add (a b : V3 α) : V3 α := ⟨a.x +. b.x, a.y +. b.y, a.z +. b.z⟩
/-- `a - b`. -/
def sub (a b : V3 α) : V3 α := ⟨a.x -. b.x, a.y -. b.y, a.z -. b.z⟩
/-- `-a`. -/
def neg (a : V3 α) : V3 α := ⟨-. a.x, -. a.y, -. a.z⟩
/-- `s * a`. -/
def smul (s : α) (a : V3 α) : V3 α := ⟨s *. a.x, s *. a.y, s *. a.z⟩
/-- `a / s`. -/
def sdiv (a : V3 α) (s : α) : V3 α := ⟨a.x /. s, a.y /. s, a.z /. s⟩
/-- `a.dot(b)`. -/
def dot (a b : V3 α) : α := a.x *. b.x +. a.y *. b.y +. a.z *. b.z
/-- `a.cross(b)`. -/
def cross (a b : V3 α) : V3 α :=
  ⟨a.y *. b.z -. a.z *. b.y, a.z *. b.x -. a.x *. b.z, a.x *. b.y -. a.y *. b.x⟩
/-- `a.squaredNorm()`. -/
def sqNorm (a : V3 α) : α := dot a a
/-- `a.norm()`. -/
def norm (a : V3 α) : α := Scalar.sqrt (sqNorm a)
/-- `a.normalized()` and the result of `a.normalize()`: Eigen divides by the norm when the squared
norm is positive and returns `a` unchanged otherwise. -/
def normalized (a : V3 α) : V3 α :=
  if zero <. sqNorm a then sdiv a (Scalar.sqrt (sqNorm a)) else a
/-- `a.isApprox(b, prec)`: Eigen's relative comparison
`(a-b).squaredNorm() <= prec*prec*min(a.squaredNorm(), b.squaredNorm())`. -/
def isApprox (a b : V3 α) (prec : α) : Bool :=
  sqNorm (sub a b) <=. prec *. prec *. Scalar.min (sqNorm a) (sqNorm b)
/-- `ZEROS_VEC3`. -/
def zeros : V3 α := ⟨zero, zero, zero⟩
/-- `UNITX_VEC3`. -/
def ex : V3 α := ⟨one, zero, zero⟩
/-- `UNITY_VEC3`. -/
def ey : V3 α := ⟨zero, one, zero⟩
/-- `UNITZ_VEC3`. -/
def ez : V3 α := ⟨zero, zero, one⟩
/-- `NAN_VEC3`. -/
def nan : V3 α := ⟨Scalar.nan, Scalar.nan, Scalar.nan⟩
end V3

namespace M3
/-- `m * v`. -/
def mulVec (m : M3 α) (v : V3 α) : V3 α :=
  ⟨m.c0.x *. v.x +. m.c1.x *. v.y +. m.c2.x *. v.z,
   m.c0.y *. v.x +. m.c1.y *. v.y +. m.c2.y *. v.z,
   m.c0.z *. v.x +. m.c1.z *. v.y +. m.c2.z *. v.z⟩
/-- `m.transpose()`. -/
def transpose (m : M3 α) : M3 α :=
  ⟨⟨m.c0.x, m.c1.x, m.c2.x⟩, ⟨m.c0.y, m.c1.y, m.c2.y⟩, ⟨m.c0.z, m.c1.z, m.c2.z⟩⟩
/-- `m * n`. -/
def mul (m n : M3 α) : M3 α := ⟨mulVec m n.c0, mulVec m n.c1, mulVec m n.c2⟩
/-- `m.determinant()`.  Eigen adds up the products in another order, which matters for rounding only. -/
def det (m : M3 α) : α := V3.dot m.c0 (V3.cross m.c1 m.c2)
/-- `IDENTITY_MAT3`. -/
def id : M3 α := ⟨V3.ex, V3.ey, V3.ez⟩
/-- `angleaxis(angle, axis)` converted to a matrix (`Eigen::AngleAxis::toRotationMatrix`,
Rodrigues' formula; Eigen does not normalise the axis). -/
def ofAngleAxis (angle : α) (axis : V3 α) : M3 α :=
  let c := Scalar.cos angle
  let s := Scalar.sin angle
  let u := one -. c
  let x := axis.x
  let y := axis.y
  let z := axis.z
  ⟨⟨u *. x *. x +. c, u *. x *. y +. s *. z, u *. x *. z -. s *. y⟩,
   ⟨u *. x *. y -. s *. z, u *. y *. y +. c, u *. y *. z +. s *. x⟩,
   ⟨u *. x *. z +. s *. y, u *. y *. z -. s *. x, u *. z *. z +. c⟩⟩
end M3

namespace Affine
/-- `IDENTITY_AFFINE`. -/
def id : Affine α := ⟨M3.id, V3.zeros⟩
/-- `pose * point`. -/
def apply (p : Affine α) (v : V3 α) : V3 α := V3.add (M3.mulVec p.linear v) p.trans
/-- `pose.translate(v)` (`Eigen::Transform::translate`): `translation() += linear() * v`. -/
def translate (p : Affine α) (v : V3 α) : Affine α :=
  ⟨p.linear, V3.add p.trans (M3.mulVec p.linear v)⟩
/-- `pose.rotate(r)` (`Eigen::Transform::rotate`): `linear() *= r`. -/
def rotate (p : Affine α) (r : M3 α) : Affine α := ⟨M3.mul p.linear r, p.trans⟩
end Affine

/-! Reduction lemmas for real vectors. -/
namespace V3
variable (a b : V3 ℝ) (s : ℝ)
theorem real_dot : dot a b = a.x * b.x + a.y * b.y + a.z * b.z := by simp [dot]
theorem real_sqNorm : sqNorm a = a.x * a.x + a.y * a.y + a.z * a.z := by simp [sqNorm, dot]
theorem real_norm : norm a = Real.sqrt (a.x * a.x + a.y * a.y + a.z * a.z) := by
  simp [norm, real_sqNorm]
theorem real_cross : cross a b =
    ⟨a.y * b.z - a.z * b.y, a.z * b.x - a.x * b.z, a.x * b.y - a.y * b.x⟩ := by simp [cross]
theorem real_add : add a b = ⟨a.x + b.x, a.y + b.y, a.z + b.z⟩ := by simp [add]
theorem real_sub : sub a b = ⟨a.x - b.x, a.y - b.y, a.z - b.z⟩ := by simp [sub]
theorem real_smul : smul s a = ⟨s * a.x, s * a.y, s * a.z⟩ := by simp [smul]
theorem real_sdiv : sdiv a s = ⟨a.x / s, a.y / s, a.z / s⟩ := by simp [sdiv]
theorem real_neg : neg a = ⟨-a.x, -a.y, -a.z⟩ := by simp [neg]
end V3

end Enve
