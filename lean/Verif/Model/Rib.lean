import Verif.Model.Intersection
import Verif.Model.Ground

/-! # `enve::rib` (`src/rib.cc`) -/

namespace Enve
open Scalar

/-- `enve::output` (`enve/output.hxx:48-55`). -/
@[ext] structure Output (α : Type) where
  point : V3 α
  normal : V3 α
  friction : α
  depth : α
  area : α
  volume : α

/-- `enve::rib`: base class `disk`, members `m_id, m_y, m_width, m_angle` (`rib.hxx:53-59`). -/
@[ext] structure Rib (α : Type) where
  disk : Disk α
  id : Int
  y : α
  width : α
  angle : α

variable {α : Type} [Scalar α]

/-- The initial content of an `output` (`enve/output.hxx:49-54`). -/
def Output.default : Output α :=
  ⟨V3.nan, V3.nan, Scalar.nan, Scalar.nan, Scalar.nan, Scalar.nan⟩

namespace Rib

/-- `rib::rib(id, radius, y, width, angle)`, `rib.cc:63-76`. -/
def make (id : Int) (radius y width angle : α) : Rib α :=
  ⟨⟨radius, ⟨⟨zero, y, zero⟩, V3.ey⟩⟩, id, y, width, angle⟩

/-- `rib::copy`, `rib.cc:80-89`: `m_y` keeps its old value. -/
def copy (this other : Rib α) : Rib α :=
  { this with disk := other.disk, id := other.id, width := other.width, angle := other.angle }

/-- `rib::isApprox`, `rib.cc:127-139`. -/
def isApprox (r s : Rib α) (tol : α) : Bool :=
  r.disk.isApprox s.disk tol && Scalar.isApprox (Scalar.ofInt r.id) (Scalar.ofInt s.id) tol &&
  Scalar.isApprox r.y s.y tol && Scalar.isApprox r.width s.width tol &&
  Scalar.isApprox r.angle s.angle tol

/-- `this->radius()`. -/
def radius (r : Rib α) : α := r.disk.radius
/-- `this->center()`. -/
def center (r : Rib α) : V3 α := r.disk.center

/-- `rib::envelop(pose, out)`, `rib.cc:189-204`: the record written when there is no contact. -/
def noContact (r : Rib α) (pose : Affine α) : Output α :=
  { point := V3.add pose.trans
      (M3.mulVec pose.linear (V3.sub r.center (V3.smul r.radius V3.ez)))
    normal := M3.mulVec pose.linear V3.ez
    friction := zero
    depth := zero
    area := zero
    volume := zero }

/-- `center_grd`, e.g. `rib.cc:226`. -/
def centerGrd (r : Rib α) (pose : Affine α) : V3 α :=
  V3.add pose.trans (M3.mulVec pose.linear r.center)
/-- `normal_grd`, e.g. `rib.cc:225`. -/
def normalGrd (r : Rib α) (pose : Affine α) : V3 α := M3.mulVec pose.linear r.disk.normal
/-- `rib_grd`, e.g. `rib.cc:248`. -/
def diskGrd (r : Rib α) (pose : Affine α) : Disk α :=
  ⟨r.radius, ⟨r.centerGrd pose, r.normalGrd pose⟩⟩

/-- Contact area for a given depth, `rib.cc:361, 431, 501`. -/
def depthArea (radius width depth : α) : α :=
  two *. Scalar.sqrt (depth *. (two *. radius -. depth)) *. width

/-- Contact volume for a given depth, `rib.cc:362-363, 432-433, 502-503`. -/
def depthVolume (radius width depth : α) : α :=
  (radius *. radius *. Scalar.acos ((radius -. depth) /. radius) -.
   (radius -. depth) *. Scalar.sqrt (depth *. (two *. radius -. depth))) *. width

/-- The accumulators of `rib::envelopGeometric`, `rib.cc:234-246`. -/
structure Acc (α : Type) where
  hit : Bool
  area : α
  volume : α
  point : V3 α
  normal : V3 α
  friction : α

/-- Initial accumulators, `rib.cc:234-246`. -/
def Acc.init : Acc α := ⟨false, zero, zero, V3.zeros, V3.zeros, zero⟩

/-- What one intersected triangle contributes, `rib.cc:255-296`. -/
structure Contrib (α : Type) where
  area : α
  volume : α
  point : V3 α
  normal : V3 α
  friction : α

/-- `rib.cc:255-296` for a triangle intersected in `seg`; `none` is the `break` of line 274.
(The exchange of `r_a, r_b` at line 266 acts on values that lines 279-280 overwrite; on the first
triangle those are uninitialised; `Model/Uninit.lean` has it.) -/
def contrib (r : Rib α) (pose : Affine α) (t : TriangleGround α) (seg : Segment α) :
    Option (Contrib α) :=
  let inv := M3.transpose pose.linear
  let cg := r.centerGrd pose
  let ng := r.normalGrd pose
  let pa := M3.mulVec inv (V3.sub seg.v0 cg)
  let pb := M3.mulVec inv (V3.sub seg.v1 cg)
  let ta0 := Scalar.atan2 pa.z pa.x
  let tb0 := Scalar.atan2 pb.z pb.x
  let ta := if tb0 <. ta0 then tb0 else ta0
  let tb := if tb0 <. ta0 then ta0 else tb0
  let tc := (ta +. tb) /. two
  let td := (tb -. ta) /. two
  let len := seg.length
  if tb -. ta <. Scalar.eps && len <. Scalar.eps then none else
  let ra := Scalar.min r.radius (V3.norm pa)
  let rb := Scalar.min r.radius (V3.norm pb)
  let rc := Scalar.min r.radius (Scalar.max zero
    (two *. ra *. rb /. Scalar.max Scalar.eps (ra +. rb) *. Scalar.cos td))
  let sectionArea := r.radius *. r.radius *. td -. ra *. rb *. Scalar.sin (tb -. ta) /. two
  let c := Scalar.cos tc
  let s := Scalar.sin tc
  let nt := M3.mulVec pose.linear ⟨-. c, zero, -. s⟩
  some
    { area := len *. r.width
      volume := sectionArea *. r.width
      point := V3.add pose.trans (M3.mulVec pose.linear (V3.add r.center (V3.smul rc ⟨c, zero, s⟩)))
      normal := V3.normalized (V3.add nt (V3.smul (V3.dot (V3.sub t.normal nt) ng) ng))
      friction := t.friction }

/-- `rib.cc:299-303` (and `int_bool = true`, line 276). -/
def Acc.add (a : Acc α) (c : Contrib α) : Acc α :=
  { hit := true
    area := a.area +. c.area
    volume := a.volume +. c.volume
    point := V3.add a.point (V3.smul c.volume c.point)
    normal := V3.add a.normal (V3.smul c.volume c.normal)
    friction := a.friction +. c.volume *. c.friction }

/-- The loop of `rib::envelopGeometric`, `rib.cc:249-305`. -/
def geomLoop (r : Rib α) (pose : Affine α) : List (TriangleGround α) → Acc α → Res (Acc α)
  | [], acc => .ok acc
  | t :: ts, acc => do
    match ← Inter.triangleDisk t.tri (r.diskGrd pose) Scalar.eps with
    | none => geomLoop r pose ts acc
    | some seg =>
      match r.contrib pose t seg with
      | none => return acc
      | some c => geomLoop r pose ts (acc.add c)

/-- `rib.cc:307-323`. -/
def geomFinish (r : Rib α) (pose : Affine α) (acc : Acc α) : Bool × Output α :=
  if acc.hit && (Scalar.eps <. acc.area || Scalar.eps <. acc.volume) then
    let p := V3.sdiv acc.point acc.volume
    (true,
      { point := p
        normal := V3.normalized (V3.sdiv acc.normal acc.volume)
        friction := acc.friction /. acc.volume
        depth := r.radius -. V3.norm (V3.sub p (r.centerGrd pose))
        area := acc.area
        volume := acc.volume })
  else (false, r.noContact pose)

/-- `rib::envelopGeometric(ground, pose, out)` for a mesh, `rib.cc:208-324`; the result is the
returned flag and the record written. -/
def envelopGeometricMesh (r : Rib α) (ground : List (TriangleGround α)) (pose : Affine α) :
    Res (Bool × Output α) := do
  let acc ← geomLoop r pose ground Acc.init
  return geomFinish r pose acc

/-- `rib::envelopGeometric(ground, pose, out)` for a flat ground, `rib.cc:328-372`. -/
def envelopGeometricFlat (r : Rib α) (ground : Flat α) (pose : Affine α) : Bool × Output α :=
  match Inter.planeDisk ground.plane (r.diskGrd pose) Scalar.eps with
  | none => (false, r.noContact pose)
  | some seg =>
    if Scalar.eps <. seg.length then
      let p := seg.centroid
      let cg := r.centerGrd pose
      let nt := V3.normalized (V3.cross (r.normalGrd pose) (V3.sub cg p))
      let depth := r.radius -. V3.norm (V3.sub p cg)
      (true,
        { point := p
          normal := V3.normalized
            (V3.sub ground.normal (V3.smul (V3.dot ground.normal nt) nt))
          friction := ground.friction
          depth := depth
          area := depthArea r.radius r.width depth
          volume := depthVolume r.radius r.width depth })
    else (false, r.noContact pose)

/-- The intersection points collected by `rib::samplingLine`, `rib.cc:534-542`, in order. -/
def samplingHits (ground : List (TriangleGround α)) (l : Line α) : List (V3 α × α) :=
  ground.filterMap fun t => (Inter.lineTriangle l t.tri Scalar.eps).map fun p => (p, t.friction)

/-- The selection loop of `rib::samplingLine`, `rib.cc:552-561`. -/
def highest (first : V3 α × α) (rest : List (V3 α × α)) : V3 α × α :=
  rest.foldl (fun best h => if best.1.z <. h.1.z then h else best) first

/-- `rib::samplingLine` on a mesh, `rib.cc:516-581`; `none` is `return false`. -/
def samplingLineMesh (ground : List (TriangleGround α)) (l : Line α) : Option (V3 α × α) :=
  match samplingHits ground l with
  | [] => none
  | h :: hs => some (highest h hs)

/-- `rib::samplingLine` on a flat ground, `rib.cc:585-603`. -/
def samplingLineFlat (ground : Flat α) (l : Line α) : Option (V3 α × α) :=
  (Inter.linePlane l ground.plane Scalar.eps).map fun p => (p, ground.friction)

/-- `rib.cc:403` and `rib.cc:404` take `center ± delta_x * UNITX_VEC3`. -/
def lineXp (r : Rib α) (pose : Affine α) : Line α :=
  ⟨V3.add pose.trans (M3.mulVec pose.linear
    (V3.add r.center (V3.smul (lit 1 10 *. r.radius) V3.ex))), V3.neg V3.ez⟩
/-- `rib.cc:404`. -/
def lineXm (r : Rib α) (pose : Affine α) : Line α :=
  ⟨V3.add pose.trans (M3.mulVec pose.linear
    (V3.sub r.center (V3.smul (lit 1 10 *. r.radius) V3.ex))), V3.neg V3.ez⟩
/-- `rib.cc:405`. -/
def lineYp (r : Rib α) (pose : Affine α) : Line α :=
  ⟨V3.add pose.trans (M3.mulVec pose.linear
    (V3.add r.center (V3.smul (lit 3 10 *. r.width) V3.ey))), V3.neg V3.ez⟩
/-- `rib.cc:406`. -/
def lineYm (r : Rib α) (pose : Affine α) : Line α :=
  ⟨V3.add pose.trans (M3.mulVec pose.linear
    (V3.sub r.center (V3.smul (lit 3 10 *. r.width) V3.ey))), V3.neg V3.ez⟩

/-- `rib::envelopSampling`, `rib.cc:376-442` and `446-512` (the two bodies are identical up to the
ground type, abstracted here as the function `sample`).  When a line misses, the code goes on to
compute with uninitialised points, but `sampling && …` at line 428 then discards the result. -/
def envelopSampling (r : Rib α) (sample : Line α → Option (V3 α × α)) (pose : Affine α) :
    Bool × Output α :=
  match sample (r.lineXp pose), sample (r.lineXm pose), sample (r.lineYp pose),
    sample (r.lineYm pose) with
  | some (p0, f0), some (p1, f1), some (p2, f2), some (p3, f3) =>
    let point := V3.sdiv (V3.add (V3.add (V3.add p0 p1) p2) p3) (lit 4 1)
    let normal := V3.normalized (V3.cross (V3.sub p0 p1) (V3.sub p2 p3))
    let ey := V3.normalized pose.linear.c1
    let ex := V3.normalized (V3.cross normal ey)
    let ez := V3.normalized (V3.cross ey ex)
    let depth := r.radius *. Scalar.abs (V3.dot normal ez) -.
      V3.norm (V3.sub point (r.centerGrd pose))
    if zero <. depth then
      (true,
        { point := point
          normal := normal
          friction := (f0 +. f1 +. f2 +. f3) /. lit 4 1
          depth := depth
          area := depthArea r.radius r.width depth
          volume := depthVolume r.radius r.width depth })
    else (false, r.noContact pose)
  | _, _, _, _ => (false, r.noContact pose)

/-- `rib::envelopSampling` on a mesh, `rib.cc:376-442`. -/
def envelopSamplingMesh (r : Rib α) (ground : List (TriangleGround α)) (pose : Affine α) :
    Bool × Output α :=
  r.envelopSampling (samplingLineMesh ground) pose

/-- `rib::envelopSampling` on a flat ground, `rib.cc:446-512`. -/
def envelopSamplingFlat (r : Rib α) (ground : Flat α) (pose : Affine α) : Bool × Output α :=
  r.envelopSampling (samplingLineFlat ground) pose

/-- `rib::envelop(ground, pose, method, out)` for a mesh, `rib.cc:143-162`. -/
def envelopMesh (r : Rib α) (ground : List (TriangleGround α)) (pose : Affine α)
    (method : String) : Res (Bool × Output α) :=
  if method = "geometric" then r.envelopGeometricMesh ground pose
  else if method = "sampling" then .ok (r.envelopSamplingMesh ground pose)
  else .throw "invalid enveloping method."

/-- `rib::envelop(ground, pose, method, out)` for a flat ground, `rib.cc:166-185`. -/
def envelopFlat (r : Rib α) (ground : Flat α) (pose : Affine α) (method : String) :
    Res (Bool × Output α) :=
  if method = "geometric" then .ok (r.envelopGeometricFlat ground pose)
  else if method = "sampling" then .ok (r.envelopSamplingFlat ground pose)
  else .throw "invalid enveloping method."

end Rib
end Enve
