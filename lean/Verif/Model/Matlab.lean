import Verif.Model.Mex

/-! # The MATLAB classes (`toolbox/lib/enve_{flat,mesh,triangleground,shell}.m`)

An instance holds the handle of its C++ object.  The `acme_*` classes belong to another project: where
a method copies a returned point or plane into such an object, the model stops at the new handle.
Plotting is not modelled. -/

namespace Enve.Matlab
open Scalar Mex

/-- An instance of one of the classes: the text returned by its method `type` and its
`objectHandle`. -/
structure Inst (α : Type) where
  type : String
  handle : Val α

/-- The result of `type()`: `enve_flat.m:167-169`, `enve_mesh.m:156-158`,
`enve_triangleground.m:166-168`, `enve_shell.m:752-754`. -/
def typeOf : File → String
  | .flat => "flat"
  | .mesh => "mesh"
  | .triangleground => "triangleground"
  | .shell => "shell"

variable {α : Type} [Scalar α]

/-- A method consisting of one call of the gateway with the handle of the instance. -/
def method (env : Env α) (file : File) (cmd : String) (nout : Nat) (this : Inst α)
    (rest : List (Val α)) (h : Heap α) : MRes (Heap α) (List (Val α)) :=
  call env file h nout (.chars cmd.toList :: this.handle :: rest)

/-- Continue with the next statement after a call. -/
def andThen {β γ : Type} (r : MRes (Heap α) β) (f : Heap α → β → MRes (Heap α) γ) :
    MRes (Heap α) γ :=
  match r with
  | .ok h b => f h b
  | .throw h e => .throw h e
  | .ub w => .ub w

/-- The constructors of `enve_flat`, `enve_triangleground` and `enve_shell`: `enve_flat.m:37-39`,
`enve_triangleground.m:30-33`, `enve_shell.m:37-39`. -/
def construct (env : Env α) (file : File) (h : Heap α) (args : List (Val α)) :
    MRes (Heap α) (Inst α) :=
  andThen (call env file h 1 (.chars "new".toList :: args)) fun h outs =>
    match outs with
    | v :: _ => .ok h ⟨typeOf file, v⟩
    | [] => .throw h "no output"

/-- `length(v)` of a two dimensional value: its larger dimension. -/
def len (v : Val α) : Nat :=
  match v.dims with
  | some (r, c) => if r * c = 0 then 0 else if r < c then c else r
  | none => 0

/-- The tests on the inputs in the constructor of `enve_mesh`, `enve_mesh.m:47-61`; `args` are the
inputs after the path. -/
def meshArgs (ext : List Char) (args : List (Val α)) : Res Unit :=
  if ext = ".rdf".toList then
    match args with
    | [] => .ok ()
    | [v] => check v.dims.isSome "enve_mesh: invalid inputs for *.rdf file!"
    | _ => .throw "enve_mesh: invalid inputs for *.rdf file!"
  else if ext = ".obj".toList then
    match args with
    | [] => .ok ()
    | [v] => check v.isScalar "enve_mesh: invalid inputs for *.obj file!"
    | [v, w] => check (v.isScalar && decide (len w = 4)) "enve_mesh: invalid inputs for *.obj file!"
    | _ => .throw "enve_mesh: invalid inputs for *.obj file!"
  else .throw "enve_mesh: not a *.rdf or *.obj file!"

/-- The constructor of `enve_mesh`, `enve_mesh.m:38-64`: `varargin{1}(end-3:end)` fails for a short
path; `isfile` holds for the files that exist. -/
def newMesh (env : Env α) (h : Heap α) (path : List Char) (args : List (Val α)) :
    MRes (Heap α) (Inst α) :=
  if path.length < 4 then .throw h "index must be positive"
  else if (env.file path).isNone then .throw h "enve_mesh: no *.rdf or *.obj file found!"
  else match meshArgs (path.drop (path.length - 4)) args with
    | .throw e => .throw h e
    | .ub w => .ub w
    | .ok _ => construct env .mesh h (.chars path :: args)

/-- `enve_flat.copy`, `enve_flat.m:130-136`. -/
def flatCopy (env : Env α) (this other : Inst α) (h : Heap α) : MRes (Heap α) (List (Val α)) :=
  if other.type = "mesh" then method env .flat "copy" 0 this [other.handle] h
  else .throw h "mex_flat::copy(): other_obj must be an ENVE mesh object type."

/-- `enve_flat.isApprox`, `enve_flat.m:119-125`. -/
def flatIsApprox (env : Env α) (this other : Inst α) (h : Heap α) : MRes (Heap α) (List (Val α)) :=
  if other.type = "flat" then method env .flat "isApprox" 1 this [other.handle] h
  else .throw h "mex_flat::isApprox(): other_obj must be an ENVE flat object type."

/-- `enve_mesh.copy`, `enve_mesh.m:112-118`. -/
def meshCopy (env : Env α) (this other : Inst α) (h : Heap α) : MRes (Heap α) (List (Val α)) :=
  if other.type = "mesh" then method env .mesh "copy" 0 this [other.handle] h
  else .throw h "mex_mesh::copy(): other_obj must be an ENVE mesh object type."

/-- `enve_triangleground.copy`, `enve_triangleground.m:104-110`. -/
def triCopy (env : Env α) (this other : Inst α) (h : Heap α) : MRes (Heap α) (List (Val α)) :=
  if other.type = "triangleground" then method env .triangleground "copy" 0 this [other.handle] h
  else .throw h
    "mex_triangleground::copy(): other_obj must be an ENVE triangleground object type."

/-- `enve_flat.setPlane`, `enve_flat.m:88-93`: `o` and `n` are the origin and normal of the
`acme_plane` given. -/
def flatSetPlane (env : Env α) (this : Inst α) (o n : V3 α) (h : Heap α) :
    MRes (Heap α) (List (Val α)) :=
  andThen (method env .flat "setOrigin" 0 this [.dbl 3 1 [o.x, o.y, o.z]] h) fun h _ =>
    method env .flat "setNormal" 0 this [.dbl 3 1 [n.x, n.y, n.z]] h

/-- `enve_mesh.getTriangleground`, `enve_mesh.m:76-79`. -/
def getTriangleground (env : Env α) (this : Inst α) (i : Val α) (h : Heap α) :
    MRes (Heap α) (Inst α) :=
  andThen (construct env .triangleground h []) fun h out =>
    andThen (method env .mesh "getTriangleground" 1 this [i] h) fun h vs =>
      match vs with
      | v :: _ => andThen (method env .triangleground "copy" 0 out [v] h) fun h _ => .ok h out
      | [] => .throw h "no output"

/-- `enve_triangleground.setVertex1`, `setVertex2`, `setVertex3`, `enve_triangleground.m:83-99`;
`n` is the digit in the name. -/
def setVertex (env : Env α) (n : String) (this other : Inst α) (h : Heap α) :
    MRes (Heap α) (List (Val α)) :=
  method env .triangleground ("setVertex" ++ n) 0 this [other.handle] h

/-- `enve_shell.surfaceWidthBound`, `enve_shell.m:79-81`. -/
def surfaceWidthBound (env : Env α) (this : Inst α) (y : Val α) (h : Heap α) :
    MRes (Heap α) (List (Val α)) :=
  method env .shell "surfaceWidthBound" 1 this [y] h

/-- The loops `for i = 1:this.size() out{i} = this.xRib(i); end`: `k` iterations remain and `i` is the
index, an `int64`. -/
def vecLoop (env : Env α) (cmd : String) (this : Inst α) : Nat → Nat → Heap α →
    MRes (Heap α) (List (Val α))
  | 0, _, h => .ok h []
  | k + 1, i, h =>
    andThen (method env .shell cmd 1 this [.int .i64 1 1 [i]] h) fun h vs =>
      andThen (vecLoop env cmd this k (i + 1) h) fun h ws => .ok h (vs ++ ws)

/-- `enve_shell.contactPointVec`, `contactNormalVec`, `contactDepthVec`, `contactFrictionVec`,
`contactAreaVec`, `contactVolumeVec`, `relativeAnglesVec`, `contactPointAffineVec`:
`enve_shell.m:237-242, 261-266, 285-290, 309-314, 333-338, 357-362, 381-386, 405-410`; `cmd` is the
command called for each rib. -/
def contactVec (env : Env α) (cmd : String) (this : Inst α) (h : Heap α) :
    MRes (Heap α) (List (Val α)) :=
  andThen (method env .shell "size" 1 this [] h) fun h vs =>
    match vs with
    | .int _ _ _ (n :: _) :: _ => vecLoop env cmd this n.toNat 1 h
    | _ => .throw h "no size"

end Enve.Matlab
