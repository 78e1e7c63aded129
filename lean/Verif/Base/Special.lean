import Verif.Base.Vec

/-! # Exact arithmetic with the special values of IEEE 754

The exact reals extended by the two infinities and NaN, with the rules of IEEE 754 for the special values
and no rounding.  Unlike the instance for the reals, invalid operations have the outcome they have in the
program: `0/0` is NaN, `1/0` is infinite and comparisons with NaN fail.  Simplification: there is one zero
only, which counts as `+0` where the sign of a zero matters. -/

namespace Enve
open Scalar

/-- A real number, an infinity or NaN. -/
inductive XR where
  | fin (x : ℝ)
  | pinf
  | ninf
  | nan

namespace XR

/-- The infinity with the sign of a real number that is not zero. -/
noncomputable def infSign (x : ℝ) : XR := if 0 < x then pinf else if x < 0 then ninf else nan

/-- Negation. -/
def neg : XR → XR
  | fin x => fin (-x)
  | pinf => ninf
  | ninf => pinf
  | nan => nan

/-- Addition; opposite infinities give NaN. -/
def add : XR → XR → XR
  | fin x, fin y => fin (x + y)
  | nan, _ => nan
  | _, nan => nan
  | pinf, ninf => nan
  | ninf, pinf => nan
  | pinf, _ => pinf
  | _, pinf => pinf
  | ninf, _ => ninf
  | _, ninf => ninf

/-- Multiplication; zero times an infinity is NaN. -/
noncomputable def mul : XR → XR → XR
  | fin x, fin y => fin (x * y)
  | nan, _ => nan
  | _, nan => nan
  | pinf, fin y => infSign y
  | ninf, fin y => infSign (-y)
  | fin x, pinf => infSign x
  | fin x, ninf => infSign (-x)
  | pinf, pinf => pinf
  | ninf, ninf => pinf
  | pinf, ninf => ninf
  | ninf, pinf => ninf

/-- Division; zero by zero and infinity by infinity are NaN, other numbers by zero are infinite. -/
noncomputable def div : XR → XR → XR
  | fin x, fin y => if y = 0 then infSign x else fin (x / y)
  | nan, _ => nan
  | _, nan => nan
  | fin _, _ => fin 0
  | pinf, fin y => if 0 ≤ y then pinf else ninf
  | ninf, fin y => if 0 ≤ y then ninf else pinf
  | _, _ => nan

/-- A real function with a domain. -/
noncomputable def partialFun (p : ℝ → Prop) [DecidablePred p] (f : ℝ → ℝ) (atInf atNegInf : XR) : XR → XR
  | fin x => if p x then fin (f x) else nan
  | pinf => atInf
  | ninf => atNegInf
  | nan => nan

open Classical in
/-- `std::pow` (C11, F.10.4.4): the power `0` of everything and every power of `1` is `1`, NaN included. -/
noncomputable def pow (a b : XR) : XR :=
  if b = fin 0 ∨ a = fin 1 then fin 1 else
  match a, b with
  | nan, _ => nan
  | _, nan => nan
  | fin x, fin y =>
    if x = 0 then (if 0 < y then fin 0 else pinf)
    else if x < 0 ∧ ¬ ∃ n : ℤ, (n : ℝ) = y then nan else fin (x ^ y)
  | fin x, pinf => if x = -1 then fin 1 else if |x| < 1 then fin 0 else pinf
  | fin x, ninf => if x = -1 then fin 1 else if |x| < 1 then pinf else fin 0
  | pinf, fin y => if 0 < y then pinf else fin 0
  | ninf, fin y => if 0 < y then (if ∃ n : ℤ, 2 * (n : ℝ) + 1 = y then ninf else pinf) else fin 0
  | _, pinf => pinf
  | _, ninf => fin 0

/-- `std::atan2(y, x)` (C11, F.10.1.4). -/
noncomputable def atan2 : XR → XR → XR
  | nan, _ => nan
  | _, nan => nan
  | fin y, fin x => fin (Complex.arg ⟨x, y⟩)
  | fin _, pinf => fin 0
  | fin y, ninf => if y < 0 then fin (-Real.pi) else fin Real.pi
  | pinf, fin _ => fin (Real.pi / 2)
  | ninf, fin _ => fin (-(Real.pi / 2))
  | pinf, pinf => fin (Real.pi / 4)
  | pinf, ninf => fin (3 * Real.pi / 4)
  | ninf, pinf => fin (-(Real.pi / 4))
  | ninf, ninf => fin (-(3 * Real.pi / 4))

/-- The comparison `<`, false on NaN. -/
noncomputable def lt : XR → XR → Bool
  | fin x, fin y => decide (x < y)
  | nan, _ => false
  | _, nan => false
  | ninf, ninf => false
  | ninf, _ => true
  | _, ninf => false
  | pinf, _ => false
  | fin _, pinf => true

/-- The comparison `<=`, false on NaN. -/
noncomputable def le : XR → XR → Bool
  | fin x, fin y => decide (x ≤ y)
  | nan, _ => false
  | _, nan => false
  | ninf, _ => true
  | _, pinf => true
  | pinf, _ => false
  | fin _, ninf => false

/-- The comparison `==`, false on NaN. -/
noncomputable def eq : XR → XR → Bool
  | fin x, fin y => decide (x = y)
  | pinf, pinf => true
  | ninf, ninf => true
  | _, _ => false

end XR

open Classical in
/-- Exact arithmetic with special values. -/
noncomputable instance instScalarXR : Scalar XR where
  lit n d := .fin ((n : ℝ) / (d : ℝ))
  add := XR.add
  sub a b := XR.add a (XR.neg b)
  mul := XR.mul
  div := XR.div
  neg := XR.neg
  abs := XR.partialFun (fun _ => True) (fun x => |x|) .pinf .pinf
  sqrt := XR.partialFun (fun x => 0 ≤ x) Real.sqrt .pinf .nan
  pow := XR.pow
  sin := XR.partialFun (fun _ => True) Real.sin .nan .nan
  cos := XR.partialFun (fun _ => True) Real.cos .nan .nan
  acos := XR.partialFun (fun x => -1 ≤ x ∧ x ≤ 1) Real.arccos .nan .nan
  atan := XR.partialFun (fun _ => True) Real.arctan (.fin (Real.pi / 2)) (.fin (-(Real.pi / 2)))
  atan2 := XR.atan2
  pi := .fin Real.pi
  eps := .fin ((2 : ℝ)⁻¹ ^ 26)
  nan := .nan
  lt := XR.lt
  le := XR.le
  eq := XR.eq

namespace XR
/-! Reduction lemmas. -/
variable (x y : ℝ) (a b : XR)

@[simp] theorem lit_eq (n d : Nat) : (lit n d : XR) = fin ((n : ℝ) / (d : ℝ)) := rfl
@[simp] theorem zero_eq : (Scalar.zero : XR) = fin 0 := by simp [Scalar.zero]
@[simp] theorem one_eq : (Scalar.one : XR) = fin 1 := by simp [Scalar.one]
@[simp] theorem two_eq : (Scalar.two : XR) = fin 2 := by simp [Scalar.two]
@[simp] theorem nan_eq : (Scalar.nan : XR) = nan := rfl
@[simp] theorem eps_eq : (Scalar.eps : XR) = fin Scalar.eps := rfl
@[simp] theorem add_fin : fin x +. fin y = fin (x + y) := rfl
@[simp] theorem sub_fin : fin x -. fin y = fin (x - y) := by
  show fin (x + -y) = _; rw [sub_eq_add_neg]
@[simp] theorem mul_fin : fin x *. fin y = fin (x * y) := rfl
@[simp] theorem neg_fin : -. (fin x) = fin (-x) := rfl
@[simp] theorem div_fin (h : y ≠ 0) : fin x /. fin y = fin (x / y) := by
  show (if y = 0 then _ else _) = _; rw [if_neg h]
@[simp] theorem div_zero_pos (h : 0 < x) : fin x /. fin 0 = pinf := by
  show (if (0 : ℝ) = 0 then infSign x else _) = _; rw [if_pos rfl, infSign, if_pos h]
@[simp] theorem zero_div_zero : fin 0 /. fin 0 = nan := by
  show (if (0 : ℝ) = 0 then infSign 0 else _) = _; simp [infSign]
@[simp] theorem abs_fin : Scalar.abs (fin x) = fin |x| := by
  show (if True then fin |x| else nan) = _; simp
@[simp] theorem abs_pinf : Scalar.abs pinf = pinf := rfl
@[simp] theorem sqrt_fin (h : 0 ≤ x) : Scalar.sqrt (fin x) = fin (Real.sqrt x) := by
  show (if 0 ≤ x then fin (Real.sqrt x) else _) = _; rw [if_pos h]
@[simp] theorem sqrt_nan : Scalar.sqrt nan = nan := rfl
theorem pow_fin (h : 0 < x ∨ x = 0 ∧ 0 < y) : Scalar.pow (fin x) (fin y) = fin (x ^ y) := by
  show XR.pow (fin x) (fin y) = _
  unfold XR.pow
  split_ifs with h1
  · rcases h1 with h1 | h1
    · injection h1 with h1; rw [h1, Real.rpow_zero]
    · injection h1 with h1; rw [h1, Real.one_rpow]
  · dsimp only
    rcases h with h | ⟨rfl, h⟩
    · rw [if_neg h.ne', if_neg (fun h' => absurd h'.1 (not_lt.2 h.le))]
    · rw [if_pos rfl, if_pos h, Real.zero_rpow h.ne']
theorem one_pow : Scalar.pow (fin 1) a = fin 1 := by
  show XR.pow (fin 1) a = _
  unfold XR.pow
  exact if_pos (.inr rfl)
theorem nan_pow (h : b ≠ fin 0) : Scalar.pow nan b = nan := by
  show XR.pow nan b = _
  unfold XR.pow
  rw [if_neg (by rintro (h' | h'); exacts [h h', XR.noConfusion h'])]
theorem pow_nan (h : a ≠ fin 1) : Scalar.pow a nan = nan := by
  show XR.pow a nan = _
  unfold XR.pow
  rw [if_neg (by rintro (h' | h'); exacts [XR.noConfusion h', h h'])]
  cases a <;> rfl
@[simp] theorem mul_pinf (h : 0 < x) : fin x *. pinf = pinf := by
  show infSign x = _; rw [infSign, if_pos h]
@[simp] theorem pinf_sub_fin : pinf -. fin y = pinf := rfl
@[simp] theorem pinf_div_pinf : pinf /. pinf = nan := rfl
@[simp] theorem nan_mul : nan *. a = nan := by cases a <;> rfl
@[simp] theorem mul_nan : a *. nan = nan := by cases a <;> rfl
@[simp] theorem nan_add : nan +. a = nan := by cases a <;> rfl
@[simp] theorem add_nan : a +. nan = nan := by cases a <;> rfl
@[simp] theorem nan_sub : nan -. a = nan := by cases a <;> rfl
@[simp] theorem sub_nan : a -. nan = nan := by cases a <;> rfl
@[simp] theorem nan_div : nan /. a = nan := by cases a <;> rfl
@[simp] theorem div_nan : a /. nan = nan := by cases a <;> rfl
@[simp] theorem lt_fin : (fin x <. fin y) = decide (x < y) := rfl
@[simp] theorem le_fin : (fin x <=. fin y) = decide (x ≤ y) := rfl
@[simp] theorem nan_lt : (nan <. a) = false := by cases a <;> rfl
@[simp] theorem lt_nan : (a <. nan) = false := by cases a <;> rfl
@[simp] theorem nan_le : (nan <=. a) = false := by cases a <;> rfl
@[simp] theorem le_nan : (a <=. nan) = false := by cases a <;> rfl
@[simp] theorem fin_lt_pinf : (fin x <. pinf) = true := rfl
@[simp] theorem pinf_lt : (pinf <. a) = false := by cases a <;> rfl
@[simp] theorem fin_le_pinf : (fin x <=. pinf) = true := rfl

end XR
end Enve
