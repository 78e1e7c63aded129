import Mathlib.Analysis.SpecialFunctions.Pow.Real
import Mathlib.Analysis.SpecialFunctions.Trigonometric.Inverse
import Mathlib.Analysis.SpecialFunctions.Trigonometric.Arctan
import Mathlib.Analysis.SpecialFunctions.Complex.Arg

/-!
# Scalars

The C++ code computes with `typedef double real` (`toolbox/src/acme.hh:81`).  The model is written
once, over an arbitrary type `α` with the operations of `Scalar α` and **no laws**.  Theorems that
quantify over all `Scalar α` therefore hold for IEEE doubles whatever rounding, infinities and NaN
do; theorems about geometry use the instance for the exact reals.
-/

namespace Enve

/-- The operations on `double` used by the code.  No laws are assumed.
`lit n d` is the literal `n/d` (`real(2.0)` is `lit 2 1`, `real(0.1)` is `lit 1 10`);
`lt`, `le`, `eq` are the C++ comparison operators (all `false` on NaN operands);
`eps` is `EPSILON_ENVE = EPSILON_ACME = sqrt(machine epsilon)` (`acme.hh:108-111`, `enve.hh:88`);
`nan` is `QUIET_NAN` (`acme.hh:113`). -/
class Scalar (α : Type) where
  lit : Nat → Nat → α
  add : α → α → α
  sub : α → α → α
  mul : α → α → α
  div : α → α → α
  neg : α → α
  abs : α → α
  sqrt : α → α
  pow : α → α → α
  sin : α → α
  cos : α → α
  acos : α → α
  atan : α → α
  atan2 : α → α → α
  pi : α
  eps : α
  nan : α
  lt : α → α → Bool
  le : α → α → Bool
  eq : α → α → Bool

namespace Scalar

scoped infixl:65 " +. " => Scalar.add
scoped infixl:65 " -. " => Scalar.sub
scoped infixl:70 " *. " => Scalar.mul
scoped infixl:70 " /. " => Scalar.div
scoped prefix:75 "-. " => Scalar.neg
scoped infix:50 " <. " => Scalar.lt
scoped infix:50 " <=. " => Scalar.le
scoped infix:50 " ==. " => Scalar.eq

variable {α : Type} [Scalar α]

/-- `real(0.0)`. -/
def zero : α := lit 0 1
/-- `real(1.0)`. -/
def one : α := lit 1 1
/-- `real(2.0)`. -/
def two : α := lit 2 1
/-- conversion of an unsigned integer to `real`. -/
def ofNat (n : Nat) : α := lit n 1

/-- `std::min(a,b)` is `(b < a) ? b : a`. -/
def min (a b : α) : α := if b <. a then b else a
/-- `std::max(a,b)` is `(a < b) ? b : a`. -/
def max (a b : α) : α := if a <. b then b else a

/-- `acme::IsApprox(real,real,real)`, `toolbox/src/math.cc:50-58`. -/
def isApprox (a b tol : α) : Bool := Scalar.abs (a -. b) <. tol

/-- The C++ idiom `(0 < x) - (x < 0)`, an `int` in `{-1,0,1}`. -/
def sign (x : α) : Int := (if zero <. x then 1 else 0) - (if x <. zero then 1 else 0)

/-- conversion of an `int` to `real`. -/
def ofInt : Int → α
  | .ofNat n => lit n 1
  | .negSucc n => -. (lit (n + 1) 1)

end Scalar

open Classical in
/-- Exact real arithmetic.  Where a double operation would be invalid (division by zero, square
root of a negative number, …) Mathlib returns a junk value; theorems about this instance carry the
side conditions that exclude those inputs.  `nan` has no real counterpart; the value chosen here is
irrelevant and no theorem about the real instance depends on it.  `atan2 y x` is the argument of
`x + i y`, in `(-π, π]`. -/
noncomputable instance instScalarReal : Scalar ℝ where
  lit n d := (n : ℝ) / (d : ℝ)
  add := (· + ·)
  sub := (· - ·)
  mul := (· * ·)
  div := (· / ·)
  neg := fun x => -x
  abs := fun x => |x|
  sqrt := Real.sqrt
  pow := fun x y => x ^ y
  sin := Real.sin
  cos := Real.cos
  acos := Real.arccos
  atan := Real.arctan
  atan2 := fun y x => Complex.arg ⟨x, y⟩
  pi := Real.pi
  eps := (2 : ℝ)⁻¹ ^ 26
  nan := 0
  lt a b := decide (a < b)
  le a b := decide (a ≤ b)
  eq a b := decide (a = b)

/-- Executable instance on hardware doubles, for sanity runs only: no theorem uses it. -/
instance instScalarFloat : Scalar Float where
  lit n d := Float.ofNat n / Float.ofNat d
  add := (· + ·)
  sub := (· - ·)
  mul := (· * ·)
  div := (· / ·)
  neg := fun x => -x
  abs := Float.abs
  sqrt := Float.sqrt
  pow := Float.pow
  sin := Float.sin
  cos := Float.cos
  acos := Float.acos
  atan := Float.atan
  atan2 := Float.atan2
  pi := 3.141592653589793
  eps := 1.4901161193847656e-8
  nan := 0.0 / 0.0
  lt a b := a < b
  le a b := a ≤ b
  eq a b := a == b

namespace Scalar
/-! Reduction lemmas for the real instance. -/
section
variable (a b : ℝ)
@[simp] theorem real_lit (n d : Nat) : (lit n d : ℝ) = (n : ℝ) / (d : ℝ) := rfl
@[simp] theorem real_zero : (zero : ℝ) = 0 := by simp [zero]
@[simp] theorem real_one : (one : ℝ) = 1 := by simp [one]
@[simp] theorem real_two : (two : ℝ) = 2 := by simp [two]
@[simp] theorem real_ofNat (n : Nat) : (ofNat n : ℝ) = n := by simp [ofNat]
@[simp] theorem real_add : (a +. b) = a + b := rfl
@[simp] theorem real_sub : (a -. b) = a - b := rfl
@[simp] theorem real_mul : (a *. b) = a * b := rfl
@[simp] theorem real_div : (a /. b) = a / b := rfl
@[simp] theorem real_neg : (-. a) = -a := rfl
@[simp] theorem real_abs : Scalar.abs a = |a| := rfl
@[simp] theorem real_sqrt : Scalar.sqrt a = Real.sqrt a := rfl
@[simp] theorem real_pow : Scalar.pow a b = a ^ b := rfl
@[simp] theorem real_sin : Scalar.sin a = Real.sin a := rfl
@[simp] theorem real_cos : Scalar.cos a = Real.cos a := rfl
@[simp] theorem real_acos : Scalar.acos a = Real.arccos a := rfl
@[simp] theorem real_atan : Scalar.atan a = Real.arctan a := rfl
@[simp] theorem real_atan2 : Scalar.atan2 a b = Complex.arg ⟨b, a⟩ := rfl
@[simp] theorem real_pi : (Scalar.pi : ℝ) = Real.pi := rfl
theorem real_eps : (Scalar.eps : ℝ) = (2 : ℝ)⁻¹ ^ 26 := rfl
@[simp] theorem real_lt : (a <. b) = decide (a < b) := by
  show @decide _ _ = @decide _ _; congr
@[simp] theorem real_le : (a <=. b) = decide (a ≤ b) := by
  show @decide _ _ = @decide _ _; congr
@[simp] theorem real_eq : (a ==. b) = decide (a = b) := by
  show @decide _ _ = @decide _ _; congr
@[simp] theorem real_min : Scalar.min a b = Min.min a b := by
  unfold Scalar.min; by_cases h : b < a
  · simp [h, min_eq_right h.le]
  · simp [h, min_eq_left (not_lt.mp h)]
@[simp] theorem real_max : Scalar.max a b = Max.max a b := by
  unfold Scalar.max; by_cases h : a < b
  · simp [h, max_eq_right h.le]
  · simp [h, max_eq_left (not_lt.mp h)]
theorem real_eps_pos : (0 : ℝ) < Scalar.eps := by rw [real_eps]; positivity
theorem real_eps_lt_one : (Scalar.eps : ℝ) < 1 := by rw [real_eps]; norm_num
end
end Scalar

end Enve
