/-!
# Outcomes of C++ calls

Undefined behaviour is a value of the result type, distinct from exceptions and from normal return.
-/

namespace Enve

/-- Outcome of a call: normal return, exception (`ENVE_ERROR`/`ENVE_ASSERT` in `src/enve.hh`,
`ACME_ERROR`, or a standard library exception), or undefined behaviour. -/
inductive Res (β : Type) where
  | ok (v : β)
  | throw (msg : String)
  | ub (why : String)

namespace Res
variable {β γ : Type}

/-- Sequencing: the first exception or undefined behaviour ends the computation. -/
def bind : Res β → (β → Res γ) → Res γ
  | ok v, f => f v
  | throw m, _ => throw m
  | ub w, _ => ub w

instance : Monad Res where
  pure := ok
  bind := bind

@[simp] theorem bind_ok (v : β) (f : β → Res γ) : (ok v >>= f) = f v := rfl
@[simp] theorem bind_throw (m : String) (f : β → Res γ) : ((throw m : Res β) >>= f) = throw m := rfl
@[simp] theorem bind_ub (m : String) (f : β → Res γ) : ((ub m : Res β) >>= f) = ub m := rfl
@[simp] theorem pure_eq (v : β) : (pure v : Res β) = ok v := rfl

/-- `ENVE_ASSERT(COND, MSG)` (`src/enve.hh`): throws when `!(COND)`. -/
def assert (c : Bool) (msg : String) : Res Unit := if c then ok () else throw msg

@[simp] theorem assert_true (m : String) : assert true m = ok () := rfl
@[simp] theorem assert_false (m : String) : assert false m = throw m := rfl

/-- The call returned normally. -/
def isOk : Res β → Bool
  | ok _ => true
  | _ => false

/-- The call raised an exception. -/
def isThrow : Res β → Bool
  | throw _ => true
  | _ => false

/-- The call has undefined behaviour. -/
def isUb : Res β → Bool
  | ub _ => true
  | _ => false

theorem bind_eq_ok {x : Res β} {f : β → Res γ} {c : γ} :
    (x >>= f) = ok c ↔ ∃ v, x = ok v ∧ f v = ok c := by
  cases x <;> simp

end Res

/-- Outcome of a call that may also modify the object `*this` of type `σ`.  An exception leaves the
object in the state reached when it was thrown. -/
inductive MRes (σ β : Type) where
  | ok (s : σ) (v : β)
  | throw (s : σ) (msg : String)
  | ub (why : String)

namespace MRes
variable {σ β : Type}
/-- The call returned normally. -/
def isOk : MRes σ β → Bool
  | ok _ _ => true
  | _ => false
/-- The call raised an exception. -/
def isThrow : MRes σ β → Bool
  | throw _ _ => true
  | _ => false
/-- The call has undefined behaviour. -/
def isUb : MRes σ β → Bool
  | ub _ => true
  | _ => false
end MRes

end Enve
