import Verif.Model.Shell

/-! # The MATLAB gateways (`toolbox/src_mex/*.cc`, `mex_utils.hh`)

Each of the four MEX files is a function that takes a command name and further MATLAB values.  The
C++ objects live on a heap and MATLAB holds their addresses as `uint64` scalars.

Simplifications.  Addresses are numbered in the order of allocation and never reused: using the
address of a deleted object is undefined behaviour in C++ and has the outcome `ub` here.  Reading a
handle of one class as a handle of another is modelled as the check `is_valid` finding the other
class name (all instances of the template have the same layout).  `single`, sparse and complex
arrays are not modelled.  Printing, memory exhaustion, leaks and `mexLock`/`mexUnlock` are not
modelled.  The last row of a 4x4 matrix is taken to be `0 0 0 1`. -/

namespace Enve.Mex
open Scalar

/-- The integer classes of MATLAB. -/
inductive IntClass where
  | i8 | u8 | i16 | u16 | i32 | u32 | i64 | u64
  deriving DecidableEq

/-- MATLAB values: real double matrices and integer matrices with their columns one after the other,
character rows, logical scalars, two dimensional cell or structure arrays, and arrays with more
dimensions. -/
inductive Val (α : Type) where
  | dbl (rows cols : Nat) (data : List α)
  | int (c : IntClass) (rows cols : Nat) (data : List Int)
  | chars (s : List Char)
  | bool (b : Bool)
  | cell (rows cols : Nat)
  | nd

/-- The objects behind handles: `enve::ground::flat`, `enve::ground::mesh`, `enve::triangleground`,
`enve::shell`, `acme::point` and `acme::plane`. -/
inductive Obj (α : Type) where
  | flat (f : Flat α)
  | mesh (m : Mesh α)
  | tri (t : TriangleGround α)
  | shell (s : Shell α)
  | point (p : V3 α)
  | plane (p : Plane α)

/-- The handles made so far; `none` once deleted. -/
abbrev Heap (α : Type) := List (Option (Obj α))

/-- What the gateways use of the outside world: the treatment of records beyond the size of their
vector (`Policy`), number parsing and files for meshes, the content of fresh record storage, whether a
double has an integral value (`tmp == std::floor(tmp)`), the conversion `static_cast<int64_t>`
(`none` where it is undefined), and the rotation factor of a 3x3 matrix computed by Eigen's
`Transform::rotation`. -/
structure Env (α : Type) where
  pol : Policy
  np : NumParse α
  file : List Char → Option (List (List Char))
  fresh : Nat → Output α
  integral : α → Bool
  toInt64 : α → Option Int
  rotation : M3 α → M3 α

/-- A command: the heap, the number of outputs asked for, the inputs (the command name first). -/
abbrev Cmd (α : Type) := Heap α → Nat → List (Val α) → MRes (Heap α) (List (Val α))

variable {α : Type} [Scalar α]

namespace Val

/-- `mxGetDimensions` for two dimensional values; `none` for more dimensions. -/
def dims : Val α → Option (Nat × Nat)
  | dbl r c _ => some (r, c)
  | int _ r c _ => some (r, c)
  | chars s => some (if s.length = 0 then 0 else 1, s.length)
  | bool _ => some (1, 1)
  | cell r c => some (r, c)
  | nd => none

/-- `mxIsScalar`. -/
def isScalar (v : Val α) : Bool := decide (v.dims = some (1, 1))

/-- The data pointer `mxGetPr`: null unless the array is a double array. -/
def pr : Val α → Option (List α)
  | dbl _ _ d => some d
  | _ => none

end Val

/-- `UTILS_MEX_ASSERT(COND, MSG)`, `mex_utils.hh:89-95`. -/
def check (c : Bool) (msg : String) : Res Unit := if c then .ok () else .throw msg

/-- `prhs[k]`: reading beyond `nrhs` is undefined behaviour. -/
def arg (args : List (Val α)) (k : Nat) : Res (Val α) :=
  match args[k]? with
  | some v => .ok v
  | none => .ub "prhs[k] out of range"

/-- The tests on the dimensions in `mex_get_scalar_value` and `mex_get_int64`,
`mex_utils.hh:138-147, 188-197`. -/
def checkScalar (v : Val α) : Res Unit := check v.isScalar "not a scalar"

/-- `mex_get_scalar_value`, `mex_utils.hh:137-149`; `mxGetScalar` converts numeric, logical and
character scalars. -/
def getScalar (v : Val α) : Res α := do
  checkScalar v
  match v with
  | .dbl _ _ (x :: _) => .ok x
  | .int _ _ _ (k :: _) => .ok (Scalar.ofInt k)
  | .chars (c :: _) => .ok (Scalar.ofNat c.toNat)
  | .bool b => .ok (if b then one else zero)
  | _ => .ub "mxGetScalar"

/-- Conversion of an unsigned 64 bit value to `int64_t`. -/
def wrap64 (k : Int) : Int := (k + 9223372036854775808) % 18446744073709551616 - 9223372036854775808
/-- Conversion of an `int64_t` to `int`. -/
def wrap32 (k : Int) : Int := (k + 2147483648) % 4294967296 - 2147483648

/-- `mex_get_int64`, `mex_utils.hh:187-236`: an `int8` is read as a `uint8_t`. -/
def getInt64 (env : Env α) (v : Val α) : Res Int := do
  checkScalar v
  match v with
  | .int .i8 _ _ (k :: _) => .ok (k % 256)
  | .int .u64 _ _ (k :: _) => .ok (wrap64 k)
  | .int _ _ _ (k :: _) => .ok k
  | .dbl _ _ (x :: _) => do
    check (env.integral x) "expected int"
    match env.toInt64 x with
    | some k => .ok k
    | none => .ub "static_cast<int64_t>"
  | .int _ _ _ [] => .ub "mxGetData"
  | .dbl _ _ [] => .ub "mxGetData"
  | _ => .throw "bad type scalar"

/-- `mex_matrix_pointer`, `mex_utils.hh:287-302`: dimensions and data pointer. -/
def matrix (v : Val α) : Res (Nat × Nat × Option (List α)) :=
  match v.dims with
  | some (r, c) => .ok (r, c, v.pr)
  | none => .throw "error in input matrix"

/-- `matrix_ptr[k]`: undefined for a null pointer and beyond the data. -/
def elem (p : Option (List α)) (k : Nat) : Res α :=
  match p with
  | none => .ub "null pointer"
  | some d => match d[k]? with
    | some x => .ok x
    | none => .ub "matrix_ptr[k] out of range"

/-- A vector argument: `mex_matrix_pointer`, the test `rows == 3 || cols == 1` and the three reads
(`mex_flat.cc:148-152, 205-207`, `mex_shell.cc:405-409, 445-447`, `mex_triangleground.cc:171-175`). -/
def vecArg (v : Val α) : Res (V3 α) := do
  let (r, c, p) ← matrix v
  check (decide (r = 3) || decide (c = 1)) "expected rows = 3 and cols = 1"
  let x ← elem p 0
  let y ← elem p 1
  let z ← elem p 2
  return ⟨x, y, z⟩

/-- `pose.matrix() << matrix_ptr[0], matrix_ptr[4], …, matrix_ptr[15]` (`mex_shell.cc:491-494`,
`mex_mesh.cc:153-156`): all sixteen elements are read. -/
def readPose (p : Option (List α)) : Res (Affine α) := do
  let m0 ← elem p 0
  let m4 ← elem p 4
  let m8 ← elem p 8
  let m12 ← elem p 12
  let m1 ← elem p 1
  let m5 ← elem p 5
  let m9 ← elem p 9
  let m13 ← elem p 13
  let m2 ← elem p 2
  let m6 ← elem p 6
  let m10 ← elem p 10
  let m14 ← elem p 14
  let _ ← elem p 3
  let _ ← elem p 7
  let _ ← elem p 11
  let _ ← elem p 15
  return ⟨⟨⟨m0, m1, m2⟩, ⟨m4, m5, m6⟩, ⟨m8, m9, m10⟩⟩, ⟨m12, m13, m14⟩⟩

/-- A pose argument: `mex_matrix_pointer`, the test `rows == 4 || cols == 4` and the reads
(`mex_mesh.cc:148-156`, `mex_shell.cc:486-494, 640-646, 666-672`). -/
def poseArg (v : Val α) : Res (Affine α) := do
  let (r, c, p) ← matrix v
  check (decide (r = 4) || decide (c = 4)) "expected rows = 4 and cols = 4"
  readPose p

/-- `std::string s = mxArrayToString(v)`: `mxArrayToString` is null for anything but characters. -/
def strArg (v : Val α) : Res (List Char) :=
  match v with
  | .chars s => .ok s
  | _ => .ub "std::string(nullptr)"

/-- `int i = mex_get_int64(…)` followed by the conversion of `i - 1` to `size_t`, e.g.
`mex_shell.cc:342-343`. -/
def indexArg (env : Env α) (v : Val α) : Res Nat := do
  let k ← getInt64 env v
  let i := wrap32 k
  if i = -2147483648 then .ub "i - 1 overflows"
  else if 1 ≤ i then .ok (i - 1).toNat
  else .ok (18446744073709551615 + i).toNat

/-! ## Handles -/

/-- `mex_convert_ptr_to_mx`, `mex_utils.hh:428-438`: a new handle. -/
def alloc (h : Heap α) (o : Obj α) : MRes (Heap α) (List (Val α)) :=
  .ok (h ++ [some o]) [.int .u64 1 1 [h.length]]

/-- The tests of `mex_convert_mx_to_handle_ptr` on the value, `mex_utils.hh:446-452`. -/
def handleOf (v : Val α) : Res Nat :=
  match v with
  | .int .u64 r c d =>
    if r * c = 1 then
      match d with
      | k :: _ => .ok k.toNat
      | [] => .ub "mxGetData"
    else .throw "Input must be an uint64 scalar."
  | _ => .throw "Input must be an uint64 scalar."

/-- The object behind an address; an address that is not that of a live handle is dereferenced by
`ptr->is_valid()`, `mex_utils.hh:453`. -/
def deref (h : Heap α) (a : Nat) : Res (Obj α) :=
  match h[a]? with
  | some (some o) => .ok o
  | _ => .ub "dangling handle"

/-- The check `is_valid`, `mex_utils.hh:419-421, 453`, for each class. -/
def asFlat : Obj α → Res (Flat α)
  | .flat f => .ok f
  | _ => .throw "Handle not valid."
/-- See `asFlat`. -/
def asMesh : Obj α → Res (Mesh α)
  | .mesh m => .ok m
  | _ => .throw "Handle not valid."
/-- See `asFlat`. -/
def asTri : Obj α → Res (TriangleGround α)
  | .tri t => .ok t
  | _ => .throw "Handle not valid."
/-- See `asFlat`. -/
def asShell : Obj α → Res (Shell α)
  | .shell s => .ok s
  | _ => .throw "Handle not valid."

/-- `mex_convert_mx_to_ptr<base>(prhs[k])`, `mex_utils.hh:459-464`: address and object. -/
def getObj {β : Type} (as : Obj α → Res β) (h : Heap α) (args : List (Val α)) (k : Nat) :
    Res (Nat × β) := do
  let v ← arg args k
  let a ← handleOf v
  let o ← deref h a
  let b ← as o
  return (a, b)

/-- End a command: an error before the object is touched leaves the heap as it was. -/
def run (h : Heap α) : Res (MRes (Heap α) (List (Val α))) → MRes (Heap α) (List (Val α))
  | .ok r => r
  | .throw m => .throw h m
  | .ub w => .ub w

/-- Store the object at address `a`. -/
def store (h : Heap α) (a : Nat) (o : Obj α) : Heap α := h.set a (some o)

/-- `nrhs` and `nlhs` tests at the head of the commands. -/
def arity (nrhs : List Nat) (nlhs : Nat) (args : List (Val α)) (nout : Nat) : Res Unit := do
  check (nrhs.contains args.length) "wrong number of inputs"
  check (decide (nout = nlhs)) "wrong number of outputs"

/-- `mex_destroy_object` and the four `do_delete`, `mex_utils.hh:468-475`, `mex_flat.cc:170-179`,
`mex_mesh.cc:192-202`, `mex_triangleground.cc:199-209`, `mex_shell.cc:190-199`. -/
def doDelete {β : Type} (as : Obj α → Res β) : Cmd α := fun h nlhs args => run h do
  arity [2] 0 args nlhs
  let (a, _) ← getObj as h args 1
  return .ok (h.set a none) []

/-! ## Outputs -/

/-- What a query returns: `mex_set_scalar_value`, `mex_set_scalar_int64`, `mex_set_scalar_bool`, a
`3x1`, `3x3` or `4x4` matrix made by `mex_create_matrix_value`, or a handle to a new point or plane. -/
inductive Ret (α : Type) where
  | num (x : α)
  | int64 (k : Int)
  | bool (b : Bool)
  | vec (v : V3 α)
  | mat33 (data : List α)
  | aff (a : Affine α)
  | point (p : V3 α)
  | plane (p : Plane α)
  | tri (t : TriangleGround α)

/-- The MATLAB value of an affine transformation, column after column (`mex_shell.cc:511-526`). -/
def affData (a : Affine α) : List α :=
  [a.linear.c0.x, a.linear.c0.y, a.linear.c0.z, zero, a.linear.c1.x, a.linear.c1.y, a.linear.c1.z,
   zero, a.linear.c2.x, a.linear.c2.y, a.linear.c2.z, zero, a.trans.x, a.trans.y, a.trans.z, one]

/-- Write the output. -/
def give (h : Heap α) : Ret α → MRes (Heap α) (List (Val α))
  | .num x => .ok h [.dbl 1 1 [x]]
  | .int64 k => .ok h [.int .i64 1 1 [k]]
  | .bool b => .ok h [.bool b]
  | .vec v => .ok h [.dbl 3 1 [v.x, v.y, v.z]]
  | .mat33 d => .ok h [.dbl 3 3 d]
  | .aff a => .ok h [.dbl 4 4 (affData a)]
  | .point p => alloc h (.point p)
  | .plane p => alloc h (.plane p)
  | .tri t => alloc h (.tri t)

/-- A query with the object as only input. -/
def query0 {β : Type} (as : Obj α → Res β) (f : β → Res (Ret α)) : Cmd α := fun h nlhs args =>
  run h do
    arity [2] 1 args nlhs
    let (_, s) ← getObj as h args 1
    return give h (← f s)

/-- A query with the object and a one-based index. -/
def queryI {β : Type} (env : Env α) (as : Obj α → Res β) (f : β → Nat → Res (Ret α)) : Cmd α :=
  fun h nlhs args => run h do
    arity [3] 1 args nlhs
    let (_, s) ← getObj as h args 1
    let i ← indexArg env (← arg args 2)
    return give h (← f s i)

/-- A query with the object and a number. -/
def queryY {β : Type} (as : Obj α → Res β) (f : β → α → Res (Ret α)) : Cmd α := fun h nlhs args =>
  run h do
    arity [3] 1 args nlhs
    let (_, s) ← getObj as h args 1
    let y ← getScalar (← arg args 2)
    return give h (← f s y)

/-! ## `mex_flat` -/

/-- `do_new`, `mex_flat.cc:124-166`: with one or eight inputs all parameters stay NaN. -/
def flatNew : Cmd α := fun h nlhs args => run h do
  arity [1, 4, 8] 1 args nlhs
  if args.length = 4 then
    let mu ← getScalar (← arg args 1)
    let o ← vecArg (← arg args 2)
    let n ← vecArg (← arg args 3)
    let f ← Flat.make mu o n
    return alloc h (.flat f)
  else
    let f ← Flat.make Scalar.nan V3.nan V3.nan
    return alloc h (.flat f)

/-- `do_setOrigin`, `mex_flat.cc:198-209`: no test of the number of inputs. -/
def flatSetOrigin : Cmd α := fun h _ args => run h do
  let (a, f) ← getObj asFlat h args 1
  let o ← vecArg (← arg args 2)
  return .ok (store h a (.flat { f with plane := ⟨o, f.plane.normal⟩ })) []

/-- `do_setNormal`, `mex_flat.cc:231-245`. -/
def flatSetNormal : Cmd α := fun h nlhs args => run h do
  arity [3] 0 args nlhs
  let (a, f) ← getObj asFlat h args 1
  let n ← vecArg (← arg args 2)
  return .ok (store h a (.flat { f with plane := ⟨f.plane.origin, n⟩ })) []

/-- `do_setPlane`, `mex_flat.cc:264-275`: the other handle is read as a flat. -/
def flatSetPlane : Cmd α := fun h nlhs args => run h do
  arity [3] 0 args nlhs
  let (a, f) ← getObj asFlat h args 1
  let (_, g) ← getObj asFlat h args 2
  return .ok (store h a (.flat { f with plane := g.plane })) []

/-- `do_setFriction`, `mex_flat.cc:294-306`. -/
def flatSetFriction : Cmd α := fun h nlhs args => run h do
  arity [3] 0 args nlhs
  let (a, f) ← getObj asFlat h args 1
  let mu ← getScalar (← arg args 2)
  return .ok (store h a (.flat (f.setFriction mu))) []

/-- `do_isApprox`, `mex_flat.cc:324-335`. -/
def flatIsApprox : Cmd α := fun h nlhs args => run h do
  arity [3] 1 args nlhs
  let (_, f) ← getObj asFlat h args 1
  let (_, g) ← getObj asFlat h args 2
  return give h (.bool (f.isApprox g Scalar.eps))

/-- `do_copy`, `mex_flat.cc:339-350`. -/
def flatCopy : Cmd α := fun h nlhs args => run h do
  arity [3] 0 args nlhs
  let (a, f) ← getObj asFlat h args 1
  let (_, g) ← getObj asFlat h args 2
  return .ok (store h a (.flat (f.copy g))) []

/-- `cmd_to_fun`, `mex_flat.cc:356-369`; the queries are `mex_flat.cc:183-194, 213-227, 249-260,
279-290, 310-320`. -/
def flatTable : List (String × Cmd α) := [
  ("new", flatNew),
  ("delete", doDelete asFlat),
  ("getOrigin", query0 asFlat fun f => .ok (.point f.plane.origin)),
  ("setOrigin", flatSetOrigin),
  ("getNormal", query0 asFlat fun f => .ok (.vec f.plane.normal)),
  ("setNormal", flatSetNormal),
  ("getPlane", query0 asFlat fun f => .ok (.plane f.plane)),
  ("setPlane", flatSetPlane),
  ("setFriction", flatSetFriction),
  ("getFriction", query0 asFlat fun f => .ok (.num f.friction)),
  ("isDegenerated", query0 asFlat fun f => .ok (.bool (f.plane.isDegenerated Scalar.eps))),
  ("isApprox", flatIsApprox),
  ("copy", flatCopy)]

/-! ## `mex_mesh` -/

/-- The mesh after `self->load(…)` on a new mesh: an exception ends the command. -/
def loaded : MRes (Mesh α) Bool → Res (Mesh α)
  | .ok m _ => .ok m
  | .throw _ e => .throw e
  | .ub w => .ub w

/-- `do_new`, `mex_mesh.cc:116-188`: messages for wrong file names are only printed. -/
def meshNew (env : Env α) : Cmd α := fun h nlhs args => run h do
  arity [1, 2, 3, 4] 1 args nlhs
  if args.length = 2 then
    let path ← strArg (← arg args 1)
    let e ← Mesh.extension path
    if e ≠ ".rdf".toList then return alloc h (.mesh Mesh.empty)
    else
      let m ← loaded (Mesh.loadRdf env.np Mesh.empty path (env.file path) Affine.id)
      return alloc h (.mesh m)
  else if args.length = 3 then
    let path ← strArg (← arg args 1)
    let e ← Mesh.extension path
    let v ← arg args 2
    if e = ".obj".toList ∧ v.isScalar = true then
      let f ← getScalar v
      let m ← loaded (Mesh.loadObj env.np Mesh.empty path (env.file path) f Affine.id)
      return alloc h (.mesh m)
    else if e = ".rdf".toList then
      let pose ← poseArg v
      let m ← loaded (Mesh.loadRdf env.np Mesh.empty path (env.file path) pose)
      return alloc h (.mesh m)
    else return alloc h (.mesh Mesh.empty)
  else if args.length = 4 then
    let path ← strArg (← arg args 1)
    let f ← getScalar (← arg args 2)
    let (r, c, p) ← matrix (← arg args 3)
    let e ← Mesh.extension path
    if e = ".obj".toList ∧ r = 4 ∧ c = 4 then
      let pose ← readPose p
      let m ← loaded (Mesh.loadObj env.np Mesh.empty path (env.file path) f pose)
      return alloc h (.mesh m)
    else return alloc h (.mesh Mesh.empty)
  else return alloc h (.mesh Mesh.empty)

/-- `new triangleground()` followed by `copy`, `mex_mesh.cc:216-217, 234-235`. -/
def copiedTriangle (m : Mesh α) (i : Nat) : Res (TriangleGround α) := do
  let t ← m.ptrTriangleground i
  return TriangleGround.default.copy t

/-- The nine coordinates of `do_getTrianglegroundVertices`, `mex_mesh.cc:236-245`. -/
def vertexData (t : Triangle α) : List α :=
  [t.v0.x, t.v0.y, t.v0.z, t.v1.x, t.v1.y, t.v1.z, t.v2.x, t.v2.y, t.v2.z]

/-- `do_copy`, `mex_mesh.cc:266-278`. -/
def meshCopy : Cmd α := fun h nlhs args => run h do
  arity [3] 0 args nlhs
  let (a, m) ← getObj asMesh h args 1
  let (_, o) ← getObj asMesh h args 2
  return .ok (store h a (.mesh (m.copy o))) []

/-- `self->load(…)` on an existing mesh: an exception leaves the mesh as it is by then. -/
def storeMesh (h : Heap α) (a : Nat) : MRes (Mesh α) Bool → MRes (Heap α) (List (Val α))
  | .ok m _ => .ok (store h a (.mesh m)) []
  | .throw m e => .throw (store h a (.mesh m)) e
  | .ub w => .ub w

/-- `do_load`, `mex_mesh.cc:282-313`: no output is assigned. -/
def meshLoad (env : Env α) : Cmd α := fun h nlhs args => run h do
  arity [3, 4] 1 args nlhs
  let (a, m) ← getObj asMesh h args 1
  let path ← strArg (← arg args 2)
  let e ← Mesh.extension path
  if args.length = 3 then
    if e ≠ ".rdf".toList then return .ok h []
    else return storeMesh h a (m.loadRdf env.np path (env.file path) Affine.id)
  else
    if e ≠ ".obj".toList then return .ok h []
    else
      let f ← getScalar (← arg args 3)
      return storeMesh h a (m.loadObj env.np path (env.file path) f Affine.id)

/-- `cmd_to_fun`, `mex_mesh.cc:320-327`; the queries are `mex_mesh.cc:206-262`. -/
def meshTable (env : Env α) : List (String × Cmd α) := [
  ("new", meshNew env),
  ("delete", doDelete asMesh),
  ("getTriangleground", queryI env asMesh fun m i => do return .tri (← copiedTriangle m i)),
  ("getTrianglegroundVertices", queryI env asMesh fun m i => do
    return .mat33 (vertexData (← copiedTriangle m i).tri)),
  ("size", query0 asMesh fun m => .ok (.int64 m.size)),
  ("copy", meshCopy),
  ("load", meshLoad env)]

/-! ## `mex_triangleground` -/

/-- The conversion of the identifier to `int` in the call of the constructor,
`mex_triangleground.cc:153, 167, 192`: undefined outside the range of `int`. -/
def idArg (k : Int) : Res Int :=
  if -2147483648 ≤ k ∧ k ≤ 2147483647 then .ok k else .ub "conversion to int"

/-- `do_new`, `mex_triangleground.cc:140-195`. -/
def triNew (env : Env α) : Cmd α := fun h nlhs args => run h do
  arity [1, 6] 1 args nlhs
  if args.length = 6 then
    let k ← getInt64 env (← arg args 1)
    let mu ← getScalar (← arg args 2)
    let p ← vecArg (← arg args 3)
    let q ← vecArg (← arg args 4)
    let r ← vecArg (← arg args 5)
    let id ← idArg k
    let t ← TriangleGround.make id mu p q r
    return alloc h (.tri t)
  else
    let t ← TriangleGround.make 0 zero V3.nan V3.nan V3.nan
    return alloc h (.tri t)

/-- `do_copy`, `mex_triangleground.cc:291-303`. -/
def triCopy : Cmd α := fun h nlhs args => run h do
  arity [3] 0 args nlhs
  let (a, t) ← getObj asTri h args 1
  let (_, u) ← getObj asTri h args 2
  return .ok (store h a (.tri (t.copy u))) []

/-- `cmd_to_fun`, `mex_triangleground.cc:327-336`; the queries are `mex_triangleground.cc:213-287,
307-321`. -/
def triTable (env : Env α) : List (String × Cmd α) := [
  ("new", triNew env),
  ("delete", doDelete asTri),
  ("getID", query0 asTri fun t => .ok (.num (Scalar.ofInt t.id))),
  ("getFriction", query0 asTri fun t => .ok (.num t.friction)),
  ("getVertex1", query0 asTri fun t => .ok (.point t.tri.v0)),
  ("getVertex2", query0 asTri fun t => .ok (.point t.tri.v1)),
  ("getVertex3", query0 asTri fun t => .ok (.point t.tri.v2)),
  ("copy", triCopy),
  ("normal", query0 asTri fun t => .ok (.vec t.normal))]

/-! ## `mex_shell` -/

/-- `new enve::shell(size, …)` with an `int` converted to `size_t`: for a negative number
`m_candidates.resize` throws `std::length_error` (`shell.cc:87`). -/
def shellOfInt (env : Env α) (k : Int) (rx mx ry my ly : α) : Res (Shell α) :=
  if 0 ≤ k then Shell.make env.fresh k.toNat rx mx ry my ly
  else .throw "vector::_M_default_append"

/-- `do_new`, `mex_shell.cc:161-186`. -/
def shellNew (env : Env α) : Cmd α := fun h nlhs args => run h do
  arity [7] 1 args nlhs
  let n ← getInt64 env (← arg args 1)
  let rx ← getScalar (← arg args 2)
  let mx ← getScalar (← arg args 3)
  let ry ← getScalar (← arg args 4)
  let my ← getScalar (← arg args 5)
  let ly ← getScalar (← arg args 6)
  let s ← shellOfInt env (wrap32 n) rx mx ry my ly
  return alloc h (.shell s)

/-- `self->resize(size)` with an `int` converted to `size_t`: for a negative number the exception
comes after the ribs and records have been cleared (`shell.cc:81-87`). -/
def resizeInt (env : Env α) (s : Shell α) (k : Int) : MRes (Shell α) Unit :=
  if 0 ≤ k then s.resize env.fresh k.toNat
  else .throw { s with ribs := [], out := s.out.clearReserve env.fresh, cands := [] }
    "vector::_M_default_append"

/-- Store the shell left by a call and return its outputs. -/
def storeShell {β : Type} (h : Heap α) (a : Nat) (outs : β → List (Val α)) :
    MRes (Shell α) β → MRes (Heap α) (List (Val α))
  | .ok s b => .ok (store h a (.shell s)) (outs b)
  | .throw s e => .throw (store h a (.shell s)) e
  | .ub w => .ub w

/-- `do_resize`, `mex_shell.cc:203-214`. -/
def shellResize (env : Env α) : Cmd α := fun h nlhs args => run h do
  arity [3] 0 args nlhs
  let (a, s) ← getObj asShell h args 1
  let n ← getInt64 env (← arg args 2)
  return storeShell h a (fun _ => []) (resizeInt env s (wrap32 n))

/-- `do_translate`, `mex_shell.cc:395-412`. -/
def shellTranslate : Cmd α := fun h nlhs args => run h do
  arity [3] 0 args nlhs
  let (a, s) ← getObj asShell h args 1
  let v ← vecArg (← arg args 2)
  return .ok (store h a (.shell (s.translate v))) []

/-- `do_rotate`, `mex_shell.cc:434-450`. -/
def shellRotate : Cmd α := fun h nlhs args => run h do
  arity [4] 0 args nlhs
  let (a, s) ← getObj asShell h args 1
  let angle ← getScalar (← arg args 2)
  let axis ← vecArg (← arg args 3)
  return .ok (store h a (.shell (s.rotate angle axis))) []

/-- `do_transform`, `mex_shell.cc:478-497`. -/
def shellTransform : Cmd α := fun h nlhs args => run h do
  arity [3] 0 args nlhs
  let (a, s) ← getObj asShell h args 1
  let pose ← poseArg (← arg args 2)
  return .ok (store h a (.shell (s.transform pose))) []

/-- `do_checkTransformation`, `mex_shell.cc:532-552`: the test wants two inputs, then the third is
read. -/
def shellCheckTransformation : Cmd α := fun h nlhs args => run h do
  arity [2] 1 args nlhs
  let (_, _) ← getObj asShell h args 1
  let pose ← poseArg (← arg args 2)
  return give h (.bool (Shell.checkTransformation pose Scalar.eps))

/-- `do_setupFlat`, `mex_shell.cc:629-651`. -/
def shellSetupFlat (env : Env α) : Cmd α := fun h nlhs args => run h do
  arity [5] 1 args nlhs
  let (a, s) ← getObj asShell h args 1
  let (_, g) ← getObj asFlat h args 2
  let pose ← poseArg (← arg args 3)
  let method ← strArg (← arg args 4)
  return storeShell h a (fun b => [.bool b]) (s.setupFlat env.pol g pose (String.ofList method))

/-- `do_setupMesh`, `mex_shell.cc:655-677`. -/
def shellSetupMesh (env : Env α) : Cmd α := fun h nlhs args => run h do
  arity [5] 1 args nlhs
  let (a, s) ← getObj asShell h args 1
  let (_, g) ← getObj asMesh h args 2
  let pose ← poseArg (← arg args 3)
  let method ← strArg (← arg args 4)
  return storeShell h a (fun b => [.bool b]) (s.setupMesh env.pol g pose (String.ofList method))

/-- The output of `do_rotation`, `mex_shell.cc:463-472`: the rows one after the other. -/
def rotationData (m : M3 α) : List α :=
  [m.c0.x, m.c1.x, m.c2.x, m.c0.y, m.c1.y, m.c2.y, m.c0.z, m.c1.z, m.c2.z]

/-- The commands of `mex_shell` with the shell as only input. -/
def shellQueries (env : Env α) : List (String × (Shell α → Res (Ret α))) := [
  -- mex_shell.cc:218-228
  ("size", fun s => .ok (.int64 s.size)),
  -- mex_shell.cc:232-242
  ("surfaceMaxRadius", fun s => .ok (.num s.shape.surfaceMaxRadius)),
  -- mex_shell.cc:246-256
  ("surfaceMaxWidth", fun s => .ok (.num s.shape.surfaceMaxWidth)),
  -- mex_shell.cc:260-270
  ("surfaceWidth", fun s => .ok (.num s.shape.surfaceMaxWidth)),
  -- mex_shell.cc:416-430
  ("translation", fun s => .ok (.vec s.pose.trans)),
  -- mex_shell.cc:454-474
  ("rotation", fun s => .ok (.mat33 (rotationData (env.rotation s.pose.linear)))),
  -- mex_shell.cc:501-528
  ("transformation", fun s => .ok (.aff s.pose)),
  -- mex_shell.cc:556-570
  ("x", fun s => .ok (.vec s.pose.linear.c0)),
  -- mex_shell.cc:574-588
  ("y", fun s => .ok (.vec s.pose.linear.c1)),
  -- mex_shell.cc:592-606
  ("z", fun s => .ok (.vec s.pose.linear.c2)),
  -- mex_shell.cc:610-625
  ("eulerAngles", fun s => .ok (.vec s.poseAngles)),
  -- mex_shell.cc:681-693
  ("contactPointAvg", fun s => do return .point (← s.contactPoint env.pol)),
  -- mex_shell.cc:714-729
  ("contactNormalAvg", fun s => do return .vec (← s.contactNormal env.pol)),
  -- mex_shell.cc:753-765
  ("contactDepthAvg", fun s => do return .num (← s.contactDepth env.pol)),
  -- mex_shell.cc:786-798
  ("contactFrictionAvg", fun s => do return .num (← s.contactFriction env.pol)),
  -- mex_shell.cc:819-831
  ("contactAreaAvg", fun s => do return .num (← s.contactArea env.pol)),
  -- mex_shell.cc:852-864
  ("contactVolumeAvg", fun s => do return .num (← s.contactVolume env.pol)),
  -- mex_shell.cc:885-913
  ("contactPointAffineAvg", fun s => do return .aff (← s.contactPointAffine env.pol)),
  -- mex_shell.cc:950-965
  ("relativeAnglesAvg", fun s => do return .vec (← s.relativeAngles env.pol))]

/-- The commands of `mex_shell` with a rib index. -/
def shellRibQueries (env : Env α) : List (String × (Shell α → Nat → Res (Ret α))) := [
  -- mex_shell.cc:334-345
  ("ribRadius", fun s i => do return .num (← s.ribRadius i)),
  -- mex_shell.cc:349-361
  ("ribCenter", fun s i => do return .point (← s.ribCenter i)),
  -- mex_shell.cc:365-376
  ("ribWidth", fun s i => do return .num (← s.ribWidth i)),
  -- mex_shell.cc:380-391
  ("ribAngle", fun s i => do return .num (← s.ribAngle i)),
  -- mex_shell.cc:697-710
  ("contactPointRib", fun s i => do return .point (← s.contactPointAt env.pol i)),
  -- mex_shell.cc:733-749
  ("contactNormalRib", fun s i => do return .vec (← s.contactNormalAt env.pol i)),
  -- mex_shell.cc:769-782
  ("contactDepthRib", fun s i => do return .num (← s.contactDepthAt env.pol i)),
  -- mex_shell.cc:802-815
  ("contactFrictionRib", fun s i => do return .num (← s.contactFrictionAt env.pol i)),
  -- mex_shell.cc:835-848
  ("contactAreaRib", fun s i => do return .num (← s.contactAreaAt env.pol i)),
  -- mex_shell.cc:868-881
  ("contactVolumeRib", fun s i => do return .num (← s.contactVolumeAt env.pol i)),
  -- mex_shell.cc:917-946
  ("contactPointAffineRib", fun s i => do return .aff (← s.contactPointAffineAt env.pol i)),
  -- mex_shell.cc:969-985
  ("relativeAnglesRib", fun s i => do return .vec (← s.relativeAnglesAt env.pol i))]

/-- The commands of `mex_shell` with a lateral coordinate. -/
def shellProfileQueries : List (String × (Shell α → α → Res (Ret α))) := [
  -- mex_shell.cc:274-285: the truth value is returned as a double
  ("checkWidthBound", fun s y => .ok (.num (if s.shape.checkWidthBound y then one else zero))),
  -- mex_shell.cc:289-300
  ("surfaceRadius", fun s y => do return .num (← s.shape.surfaceRadius y)),
  -- mex_shell.cc:304-315
  ("surfaceDerivative", fun s y => do return .num (← s.shape.surfaceDerivative y Scalar.eps)),
  -- mex_shell.cc:319-330
  ("surfaceAngle", fun s y => do return .num (← s.shape.surfaceAngle y Scalar.eps))]

/-- The commands of `mex_shell` that change something. -/
def shellActions (env : Env α) : List (String × Cmd α) := [
  ("new", shellNew env),
  ("delete", doDelete asShell),
  ("resize", shellResize env),
  ("translate", shellTranslate),
  ("rotate", shellRotate),
  ("transform", shellTransform),
  ("checkTransformation", shellCheckTransformation),
  ("setupFlat", shellSetupFlat env),
  ("setupMesh", shellSetupMesh env)]

/-- `cmd_to_fun`, `mex_shell.cc:991-1039`. -/
def shellTable (env : Env α) : List (String × Cmd α) :=
  shellActions env ++
  (shellQueries env).map (fun e => (e.1, query0 asShell e.2)) ++
  (shellRibQueries env).map (fun e => (e.1, queryI env asShell e.2)) ++
  shellProfileQueries.map (fun e => (e.1, queryY asShell e.2))

/-! ## The entry points -/

/-- The four MEX files. -/
inductive File where
  | flat | mesh | triangleground | shell
  deriving DecidableEq

/-- The command table of a MEX file. -/
def table (env : Env α) : File → List (String × Cmd α)
  | .flat => flatTable
  | .mesh => meshTable env
  | .triangleground => triTable env
  | .shell => shellTable env

/-- `mexFunction`, `mex_flat.cc:373-398`, `mex_mesh.cc:331-357`, `mex_triangleground.cc:340-365`,
`mex_shell.cc:1043-1068`: every exception becomes a MATLAB error. -/
def mexFunction (env : Env α) (file : File) : Cmd α := fun h nlhs args =>
  match args with
  | [] => .throw h "usage"
  | .chars c :: _ =>
    match (table env file).lookup (String.ofList c) with
    | some f => f h nlhs args
    | none => .throw h "map::at"
  | _ => .throw h "first argument must be a string"

/-- A call from MATLAB: when the gateway returns without assigning the outputs asked for, MATLAB
reports an error (the effects remain). -/
def call (env : Env α) (file : File) : Cmd α := fun h nlhs args =>
  match mexFunction env file h nlhs args with
  | .ok h' outs =>
    if outs.length < nlhs then .throw h' "One or more output arguments not assigned" else .ok h' outs
  | .throw h' e => .throw h' e
  | .ub w => .ub w

end Enve.Mex
