import Verif.Model.Shell

/-! # Simulink S-function interface (`sfun/src_sfun/enve_sfun_interface.cc`) -/

namespace Enve
open Scalar

/-- `EnveOutputBus` (`sfun/include_sfun/enve_sfun_types.h`): affine matrices are stored column by
column; `ENVE_MAX_RIBS` is 20. -/
structure OutputBus (α : Type) where
  inMesh : Bool
  shellAffine : List α
  shellRho : α
  shellFriction : α
  ribsAffine : List (List α)
  ribsRho : List α
  ribsFriction : List α

variable {α : Type} [Scalar α]

namespace Sfun

/-- `ENVE_MAX_RIBS`, `enve_sfun_types.h`. -/
def maxRibs : Nat := 20

/-- The 16 entries written by `Bus[r+4*c] = matrix(r,c)`, `enve_sfun_interface.cc:171-177, 187-193`. -/
def columns (p : Affine α) : List α :=
  [p.linear.c0.x, p.linear.c0.y, p.linear.c0.z, zero,
   p.linear.c1.x, p.linear.c1.y, p.linear.c1.z, zero,
   p.linear.c2.x, p.linear.c2.y, p.linear.c2.z, zero,
   p.trans.x, p.trans.y, p.trans.z, one]

/-- `enve_sfun_interface.cc:196-206`: the entries of an unused slot. -/
def nanColumns : List α := List.replicate 16 Scalar.nan

/-- The selection of the method, `enve_sfun_interface.cc:134-141`. -/
def methodName (m : α) : Res String :=
  if m ==. zero then .ok "geometric"
  else if m ==. one then .ok "sampling"
  else .throw "not a ''geometric'' or ''sampling'' method."

/-- One iteration of the loop over the output slots, `enve_sfun_interface.cc:182-207`. -/
def ribSlot (pol : Policy) (s : Shell α) (i : Nat) : Res (List α × α × α) :=
  if i < s.size then do
    let f ← s.contactPointAffineAt pol i
    let d ← s.contactDepthAt pol i
    let mu ← s.contactFrictionAt pol i
    return (columns f, d, mu)
  else .ok (nanColumns, Scalar.nan, Scalar.nan)

/-- The slots `i, …, i+k-1`, `enve_sfun_interface.cc:180-208`. -/
def slots (pol : Policy) (s : Shell α) : Nat → Nat → Res (List (List α × α × α))
  | 0, _ => .ok []
  | k + 1, i => do
    let a ← ribSlot pol s i
    let as ← slots pol s k (i + 1)
    return a :: as

/-- The part of `enve_sfun_out` that fills the bus, `enve_sfun_interface.cc:166-208`. -/
def fillBus (pol : Policy) (s : Shell α) (inMesh : Bool) : Res (OutputBus α) := do
  let f ← s.contactPointAffine pol
  let d ← s.contactDepth pol
  let mu ← s.contactFriction pol
  let rs ← slots pol s maxRibs 0
  return ⟨inMesh, columns f, d, mu, rs.map (·.1), rs.map (·.2.1), rs.map (·.2.2)⟩

/-- Attach the bus to the state of the shell. -/
def finish (pol : Policy) (s : Shell α) (inMesh : Bool) : MRes (Shell α) (OutputBus α) :=
  match fillBus pol s inMesh with
  | .ok b => .ok s b
  | .throw m => .throw s m
  | .ub w => .ub w

/-- `enve_sfun_out`, `enve_sfun_interface.cc:107-211`.  The three global pointers are the arguments
`mesh, flat, s`; the shell is returned because it is modified. -/
def out (pol : Policy) (mesh : Mesh α) (flat : Flat α) (s : Shell α) (hub : Affine α)
    (method flatEnable : α) : MRes (Shell α) (OutputBus α) :=
  match methodName method with
  | .throw m => .throw s m
  | .ub w => .ub w
  | .ok name =>
    if flatEnable ==. zero then
      match s.setupMesh pol mesh hub name with
      | .throw s m => .throw s m
      | .ub w => .ub w
      | .ok s true => finish pol s true
      | .ok s false =>
        match s.setupFlat pol flat hub name with
        | .throw s m => .throw s m
        | .ub w => .ub w
        | .ok s _ => finish pol s false
    else if flatEnable ==. one then
      match s.setupFlat pol flat hub name with
      | .throw s m => .throw s m
      | .ub w => .ub w
      | .ok s _ => finish pol s true
    else .throw s "invalid mesh/flat selector."

/-- `enve_sfun_init`, `enve_sfun_interface.cc:50-105`, given the value of the environment variable
`ENVE_GROUND_PATH` and the file it names.  `*SizePar` is a `double` converted to `size_t`; the
conversion is left to the caller (`n`). -/
def init (np : NumParse α) (fresh : Nat → Output α) (path : Option (List Char))
    (file : Option (List (List Char))) (n : Nat) (rx mx ry my ly flatHeight flatFriction : α) :
    Res (Mesh α × Flat α × Shell α) := do
  match path with
  | none => .throw "environment variable ENVE_GROUND_PATH does not exist."
  | some path =>
    let ext ← Mesh.extension path
    let mesh ←
      if ext = ".rdf".toList then Mesh.ofRdf np path file Affine.id
      else if ext = ".obj".toList then Mesh.ofObj np path file one Affine.id
      else .throw "not a *.rdf or *.obj file."
    let flat ← Flat.make flatFriction ⟨zero, zero, flatHeight⟩ V3.ez
    let shell ← Shell.make fresh n rx mx ry my ly
    return (mesh, flat, shell)

end Sfun
end Enve
