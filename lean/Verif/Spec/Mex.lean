import Verif.Model.Matlab

/-! # Specification vocabulary for the MATLAB interface -/

namespace Enve.MexSpec
open Mex
variable {α : Type}

/-- `s` is the state left by a call, whether it returned or raised an error. -/
def Leaves {σ β : Type} (r : MRes σ β) (s : σ) : Prop := (∃ v, r = .ok s v) ∨ ∃ e, r = .throw s e

/-- The call raised an error and left the state alone. -/
def Rejects {σ β : Type} (r : MRes σ β) (s : σ) : Prop := ∃ e, r = .throw s e

/-- The values representable in an integer class. -/
def InRange : IntClass → Int → Prop
  | .i8, k => -128 ≤ k ∧ k < 128
  | .u8, k => 0 ≤ k ∧ k < 256
  | .i16, k => -32768 ≤ k ∧ k < 32768
  | .u16, k => 0 ≤ k ∧ k < 65536
  | .i32, k => -2147483648 ≤ k ∧ k < 2147483648
  | .u32, k => 0 ≤ k ∧ k < 4294967296
  | .i64, k => -9223372036854775808 ≤ k ∧ k < 9223372036854775808
  | .u64, k => 0 ≤ k ∧ k < 18446744073709551616

/-- The MATLAB values that exist: a matrix has as many elements as its dimensions say and integers
are in the range of their class. -/
def Proper : Val α → Prop
  | .dbl r c d => d.length = r * c
  | .int cl r c d => d.length = r * c ∧ ∀ k ∈ d, InRange cl k
  | _ => True

/-- The handle with address `a`. -/
def handle (a : Nat) : Val α := .int .u64 1 1 [a]

/-- A `3x1` matrix. -/
def vec31 (v : V3 α) : Val α := .dbl 3 1 [v.x, v.y, v.z]

/-- A `4x4` matrix with last row `l0 l1 l2 l3`. -/
def mat44 (a : Affine α) (l0 l1 l2 l3 : α) : Val α :=
  .dbl 4 4 [a.linear.c0.x, a.linear.c0.y, a.linear.c0.z, l0,
    a.linear.c1.x, a.linear.c1.y, a.linear.c1.z, l1,
    a.linear.c2.x, a.linear.c2.y, a.linear.c2.z, l2, a.trans.x, a.trans.y, a.trans.z, l3]

/-- The classes of C++ objects. -/
inductive Kind where
  | flat | mesh | triangleground | shell | point | plane
  deriving DecidableEq

/-- The class of an object. -/
def kindOf : Obj α → Kind
  | .flat _ => .flat
  | .mesh _ => .mesh
  | .tri _ => .triangleground
  | .shell _ => .shell
  | .point _ => .point
  | .plane _ => .plane

/-- The class a MEX file works on. -/
def kindOfFile : File → Kind
  | .flat => .flat
  | .mesh => .mesh
  | .triangleground => .triangleground
  | .shell => .shell

/-- Address `a` holds the live object `o`. -/
def Live (h : Heap α) (a : Nat) (o : Obj α) : Prop := h[a]? = some (some o)

/-- The commands that change the object named by their first handle, or delete it. -/
def mutators : File → List String
  | .flat => ["delete", "setOrigin", "setNormal", "setPlane", "setFriction", "copy"]
  | .mesh => ["delete", "copy", "load"]
  | .triangleground => ["delete", "copy"]
  | .shell => ["delete", "resize", "translate", "rotate", "transform", "setupFlat", "setupMesh"]

/-- The command names a MEX file understands. -/
def commands : File → List String
  | .flat => ["new", "delete", "getOrigin", "setOrigin", "getNormal", "setNormal", "getPlane",
      "setPlane", "setFriction", "getFriction", "isDegenerated", "isApprox", "copy"]
  | .mesh => ["new", "delete", "getTriangleground", "getTrianglegroundVertices", "size", "copy",
      "load"]
  | .triangleground => ["new", "delete", "getID", "getFriction", "getVertex1", "getVertex2",
      "getVertex3", "copy", "normal"]
  | .shell => ["new", "delete", "resize", "size", "surfaceMaxRadius", "surfaceMaxWidth",
      "surfaceWidth", "checkWidthBound", "surfaceRadius", "surfaceDerivative", "surfaceAngle",
      "ribRadius", "ribCenter", "ribWidth", "ribAngle", "translate", "translation", "rotate",
      "rotation", "transform", "transformation", "checkTransformation", "x", "y", "z", "eulerAngles",
      "setupFlat", "setupMesh", "contactPointAvg", "contactPointRib", "contactNormalAvg",
      "contactNormalRib", "contactDepthAvg", "contactDepthRib", "contactFrictionAvg",
      "contactFrictionRib", "contactAreaAvg", "contactAreaRib", "contactVolumeAvg",
      "contactVolumeRib", "contactPointAffineAvg", "contactPointAffineRib", "relativeAnglesAvg",
      "relativeAnglesRib"]

/-- The command name of a call: its first input, when that is text. -/
def nameOf : List (Val α) → Option String
  | .chars c :: _ => some (String.ofList c)
  | _ => none

/-- A call made by a script. -/
structure Call (α : Type) where
  file : File
  nout : Nat
  args : List (Val α)

/-- All values of a call are MATLAB values. -/
def Call.Proper (c : Call α) : Prop := ∀ v ∈ c.args, MexSpec.Proper v

/-- The call may change or delete the object with address `a`. -/
def Call.Touches (c : Call α) (a : Nat) : Prop :=
  (∃ s, nameOf c.args = some s ∧ s ∈ mutators c.file) ∧ c.args[1]? = some (handle a)

/-- A script that makes the calls one after the other, catching errors, and leads from one heap to
another. -/
inductive Session [Scalar α] (env : Env α) : Heap α → List (Call α) → Heap α → Prop where
  | nil (h : Heap α) : Session env h [] h
  | cons {h h' h'' : Heap α} {c : Call α} {cs : List (Call α)} :
      Leaves (Mex.call env c.file h c.nout c.args) h' → Session env h' cs h'' →
      Session env h (c :: cs) h''

/-- The class wanted for the second handle of a command. -/
def secondKind : File → String → Option Kind
  | .flat, "setPlane" => some .flat
  | .flat, "isApprox" => some .flat
  | .flat, "copy" => some .flat
  | .mesh, "copy" => some .mesh
  | .triangleground, "copy" => some .triangleground
  | .shell, "setupFlat" => some .flat
  | .shell, "setupMesh" => some .mesh
  | _, _ => none

/-- The value is no handle at all, or the handle of a live object of another class than `k`. -/
def WrongFor (h : Heap α) (k : Kind) (v : Val α) : Prop :=
  (∀ a, v ≠ handle a) ∨ ∃ a o, v = handle a ∧ Live h a o ∧ kindOf o ≠ k

/-- A double scalar. -/
def scalar (x : α) : Val α := .dbl 1 1 [x]

/-- The value is a double `r x c` matrix. -/
def IsDouble (v : Val α) (r c : Nat) : Prop := ∃ d, v = .dbl r c d

/-- Neither the number of rows nor the number of columns fits. -/
def Misfit (v : Val α) (r c : Nat) : Prop := ∀ m n, v.dims = some (m, n) → m ≠ r ∧ n ≠ c

/-- The commands with the live object `a` and one vector value: file, number of outputs and the
values around the vector. -/
def vectorCalls (a : Nat) (x : α) (v : Val α) : List (Call α) := [
  ⟨.flat, 0, [.chars "setOrigin".toList, handle a, v]⟩,
  ⟨.flat, 0, [.chars "setNormal".toList, handle a, v]⟩,
  ⟨.shell, 0, [.chars "translate".toList, handle a, v]⟩,
  ⟨.shell, 0, [.chars "rotate".toList, handle a, scalar x, v]⟩]

/-- The commands with the live object `a` and one pose value; `b` is the ground. -/
def poseCalls (a b : Nat) (m : List Char) (v : Val α) : List (Call α) := [
  ⟨.shell, 0, [.chars "transform".toList, handle a, v]⟩,
  ⟨.shell, 1, [.chars "setupFlat".toList, handle a, handle b, v, .chars m]⟩,
  ⟨.shell, 1, [.chars "setupMesh".toList, handle a, handle b, v, .chars m]⟩]

/-- The second object of a setup is of the class the setup wants. -/
def GroundFits (h : Heap α) (b : Nat) (c : Call α) : Prop :=
  ∀ s k, nameOf c.args = some s → secondKind c.file s = some k → ∃ o, Live h b o ∧ kindOf o = k

end Enve.MexSpec
