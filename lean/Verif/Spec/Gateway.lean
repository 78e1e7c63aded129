import Verif.Spec.Mex

/-! # What the commands of the MATLAB interface are meant to return

The tables name, for each query command, the member function of the C++ class whose result it should
deliver. -/

namespace Enve.MexSpec
open Mex
variable {α : Type}

/-- An `int64` scalar. -/
def int64 (k : Int) : Val α := .int .i64 1 1 [k]

/-- A `4x4` matrix with last row `0 0 0 1`. -/
def pose44 [Scalar α] (a : Affine α) : Val α :=
  mat44 a Scalar.zero Scalar.zero Scalar.zero Scalar.one

/-- A `3x3` matrix with the columns of `m`. -/
def mat33 (m : M3 α) : Val α :=
  .dbl 3 3 [m.c0.x, m.c0.y, m.c0.z, m.c1.x, m.c1.y, m.c1.z, m.c2.x, m.c2.y, m.c2.z]

/-- The outcome of a query: a value, and nothing changes. -/
def answer (h : Heap α) : Res (Val α) → MRes (Heap α) (List (Val α))
  | .ok v => .ok h [v]
  | .throw e => .throw h e
  | .ub w => .ub w

/-- The outcome of a query for an object: a new handle. -/
def answerNew (h : Heap α) : Res (Obj α) → MRes (Heap α) (List (Val α))
  | .ok o => .ok (h ++ [some o]) [handle h.length]
  | .throw e => .throw h e
  | .ub w => .ub w

/-- Apply a function to a result. -/
def mapR {β γ : Type} (f : β → γ) : Res β → Res γ
  | .ok b => .ok (f b)
  | .throw e => .throw e
  | .ub w => .ub w

/-- The value `v` denotes the integer `k`: an integer scalar, or a double scalar with an integral
value. -/
def Denotes (env : Env α) (v : Val α) (k : Int) : Prop :=
  (∃ c, v = .int c 1 1 [k] ∧ InRange c k) ∨
  ∃ x, v = .dbl 1 1 [x] ∧ env.integral x = true ∧ env.toInt64 x = some k

variable [Scalar α]

/-- The number that a MATLAB scalar stands for: characters count as their code, `true` and `false` as one and zero. -/
inductive Number : Val α → α → Prop
  | double (x : α) : Number (.dbl 1 1 [x]) x
  | integer (c : IntClass) (k : Int) : Number (.int c 1 1 [k]) (Scalar.ofInt k)
  | character (c : Char) : Number (.chars [c]) (Scalar.ofNat c.toNat)
  | yes : Number (.bool true) Scalar.one
  | no : Number (.bool false) Scalar.zero

/-- `mex_shell`, commands with the shell only. -/
def shellValues (env : Env α) : List (String × (Shell α → Res (Val α))) := [
  ("size", fun s => .ok (int64 s.size)),
  ("surfaceMaxRadius", fun s => .ok (scalar s.shape.surfaceMaxRadius)),
  ("surfaceMaxWidth", fun s => .ok (scalar s.shape.surfaceMaxWidth)),
  ("surfaceWidth", fun s => .ok (scalar s.shape.surfaceMaxWidth)),
  ("translation", fun s => .ok (vec31 s.pose.trans)),
  ("transformation", fun s => .ok (pose44 s.pose)),
  ("x", fun s => .ok (vec31 s.pose.linear.c0)),
  ("y", fun s => .ok (vec31 s.pose.linear.c1)),
  ("z", fun s => .ok (vec31 s.pose.linear.c2)),
  ("eulerAngles", fun s => .ok (vec31 s.poseAngles)),
  ("contactNormalAvg", fun s => mapR vec31 (s.contactNormal env.pol)),
  ("contactDepthAvg", fun s => mapR scalar (s.contactDepth env.pol)),
  ("contactFrictionAvg", fun s => mapR scalar (s.contactFriction env.pol)),
  ("contactAreaAvg", fun s => mapR scalar (s.contactArea env.pol)),
  ("contactVolumeAvg", fun s => mapR scalar (s.contactVolume env.pol)),
  ("contactPointAffineAvg", fun s => mapR pose44 (s.contactPointAffine env.pol)),
  ("relativeAnglesAvg", fun s => mapR vec31 (s.relativeAngles env.pol))]

/-- `mex_shell`, commands with the shell and a rib number that return values. -/
def shellRibValues (env : Env α) : List (String × (Shell α → Nat → Res (Val α))) := [
  ("ribRadius", fun s i => mapR scalar (s.ribRadius i)),
  ("ribWidth", fun s i => mapR scalar (s.ribWidth i)),
  ("ribAngle", fun s i => mapR scalar (s.ribAngle i)),
  ("contactNormalRib", fun s i => mapR vec31 (s.contactNormalAt env.pol i)),
  ("contactDepthRib", fun s i => mapR scalar (s.contactDepthAt env.pol i)),
  ("contactFrictionRib", fun s i => mapR scalar (s.contactFrictionAt env.pol i)),
  ("contactAreaRib", fun s i => mapR scalar (s.contactAreaAt env.pol i)),
  ("contactVolumeRib", fun s i => mapR scalar (s.contactVolumeAt env.pol i)),
  ("contactPointAffineRib", fun s i => mapR pose44 (s.contactPointAffineAt env.pol i)),
  ("relativeAnglesRib", fun s i => mapR vec31 (s.relativeAnglesAt env.pol i))]

/-- `mex_shell`, commands with the shell and a rib number that return a point. -/
def shellRibPoints (env : Env α) : List (String × (Shell α → Nat → Res (V3 α))) := [
  ("ribCenter", fun s i => s.ribCenter i),
  ("contactPointRib", fun s i => s.contactPointAt env.pol i)]

/-- `mex_shell`, commands with the shell and a lateral coordinate. -/
def shellProfileValues : List (String × (Shell α → α → Res (Val α))) := [
  ("surfaceRadius", fun s y => mapR scalar (s.shape.surfaceRadius y)),
  ("surfaceDerivative", fun s y => mapR scalar (s.shape.surfaceDerivative y Scalar.eps)),
  ("surfaceAngle", fun s y => mapR scalar (s.shape.surfaceAngle y Scalar.eps))]

/-- `mex_flat`, commands with the flat only. -/
def flatValues : List (String × (Flat α → Val α)) := [
  ("getNormal", fun f => vec31 f.plane.normal),
  ("getFriction", fun f => scalar f.friction),
  ("isDegenerated", fun f => .bool (f.plane.isDegenerated Scalar.eps))]

/-- `mex_triangleground`, commands with the triangle only. -/
def triValues : List (String × (TriangleGround α → Val α)) := [
  ("getID", fun t => scalar (Scalar.ofInt t.id)),
  ("getFriction", fun t => scalar t.friction),
  ("normal", fun t => vec31 t.normal)]

/-- `mex_triangleground`, commands that return a vertex. -/
def triPoints : List (String × (TriangleGround α → V3 α)) := [
  ("getVertex1", fun t => t.tri.v0),
  ("getVertex2", fun t => t.tri.v1),
  ("getVertex3", fun t => t.tri.v2)]

end Enve.MexSpec
