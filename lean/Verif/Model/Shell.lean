import Verif.Model.Shape
import Verif.Model.Rib
import Verif.Model.Mesh

/-! # `enve::shell` (`src/shell.cc`) -/

namespace Enve
open Scalar

/-- How an access `m_out[i]` beyond the size of the vector is treated: `strict` follows the C++
standard (undefined behaviour); `raw` is what compiled code does in practice, namely reading and
writing the reserved but unused storage as long as `i < capacity`. -/
inductive Policy where
  | strict
  | raw
  deriving DecidableEq

/-- `std::vector<output> m_out`: size, capacity and the cells of its storage. -/
structure RecVec (α : Type) where
  size : Nat
  cap : Nat
  mem : Nat → Output α

namespace RecVec
variable {α : Type}
/-- Whether `m_out[i]` is an access inside the vector (or, for `raw`, inside its storage). -/
def accessible (pol : Policy) (v : RecVec α) (i : Nat) : Bool :=
  decide (i < v.size) || (decide (pol = .raw) && decide (i < v.cap))
/-- Reading `m_out[i]`. -/
def read (pol : Policy) (v : RecVec α) (i : Nat) : Res (Output α) :=
  if v.accessible pol i then .ok (v.mem i) else .ub "m_out[i] out of range"
/-- The storage after assigning to `m_out[i]`. -/
def set (v : RecVec α) (i : Nat) (o : Output α) : RecVec α :=
  { v with mem := fun j => if j = i then o else v.mem j }
/-- `m_out.clear(); m_out.reserve(200)`, `shell.cc:84`: the size becomes 0; if the capacity was
smaller than 200 new storage with unspecified content `fresh` is allocated. -/
def clearReserve (v : RecVec α) (fresh : Nat → Output α) : RecVec α :=
  if v.cap < 200 then ⟨0, 200, fresh⟩ else { v with size := 0 }
/-- The vector of a shell under construction. -/
def init (fresh : Nat → Output α) : RecVec α := ⟨0, 0, fresh⟩
end RecVec

/-- `enve::shell`: members `m_affine, m_shape, m_bbox, m_ribs, m_out, m_candidates`. -/
structure Shell (α : Type) where
  pose : Affine α
  shape : Shape α
  bbox : Box α
  ribs : List (Rib α)
  out : RecVec α
  cands : List (List (TriangleGround α))

variable {α : Type} [Scalar α]

namespace Shell

/-- `shell::size`, `shell.cc:115-120`. -/
def size (s : Shell α) : Nat := s.ribs.length

/-- The loop of `shell::resize`, `shell.cc:96-108`: `k` iterations remain, `i` is the index, `y` is
`ribY` before the increment, `acc` the ribs emplaced so far. -/
def resizeLoop (shape : Shape α) (ribW : α) : Nat → Nat → α → List (Rib α) →
    MRes (List (Rib α)) Unit
  | 0, _, _, acc => .ok acc ()
  | k + 1, i, y, acc =>
    let y := y +. ribW
    let rib : Res (Rib α) := do
      let r ← shape.surfaceRadius y
      let a ← shape.surfaceAngle y Scalar.eps
      Res.assert (zero <. r) "negative rib radius detected."
      Res.assert (r ==. r) "NaN rib radius detected."
      Res.assert (a ==. a) "NaN rib angle detected."
      return Rib.make i r y ribW a
    match rib with
    | .ok r => resizeLoop shape ribW k (i + 1) y (acc ++ [r])
    | .throw m => .throw acc m
    | .ub w => .ub w

/-- `shell::resize`, `shell.cc:70-111`. `fresh` is the unspecified content of newly allocated record
storage. -/
def resize (fresh : Nat → Output α) (s : Shell α) (n : Nat) : MRes (Shell α) Unit :=
  if n = 0 then .throw s "negative ribs number detected." else
  let s := { s with ribs := [], out := s.out.clearReserve fresh, cands := List.replicate n [] }
  let w := s.shape.surfaceMaxWidth
  let ribW := two *. w /. Scalar.ofNat n
  match resizeLoop s.shape ribW n 0 ((-. w) -. ribW /. two) [] with
  | .ok ribs _ => .ok { s with ribs := ribs } ()
  | .throw ribs m => .throw { s with ribs := ribs } m
  | .ub w => .ub w

/-- `shell::updateBBox`, `shell.cc:416-425`. -/
def updateBBox (s : Shell α) : Shell α :=
  let r := s.shape.surfaceMaxRadius
  let e : V3 α := ⟨r, r, r⟩
  let b : Box α := { s.bbox with min := V3.sub s.pose.trans e, max := V3.add s.pose.trans e }
  { s with bbox := b.updateMaxMin }

/-- `shell::shell(size, Rx, Mx, Ry, My, Ly)`, `shell.cc:52-66`. -/
def make (fresh : Nat → Output α) (n : Nat) (rx mx ry my ly : α) : Res (Shell α) :=
  let s : Shell α := ⟨Affine.id, ⟨rx, mx, ry, my, ly⟩, Box.default, [], RecVec.init fresh, []⟩
  match resize fresh s n with
  | .ok s _ => .ok s.updateBBox
  | .throw _ m => .throw m
  | .ub w => .ub w

/-- `shell::translate`, `shell.cc:263-269`. -/
def translate (s : Shell α) (v : V3 α) : Shell α := { s with pose := s.pose.translate v }

/-- `shell::rotate`, `shell.cc:282-289`. -/
def rotate (s : Shell α) (angle : α) (axis : V3 α) : Shell α :=
  { s with pose := s.pose.rotate (M3.ofAngleAxis angle axis) }

/-- `shell::checkTransformation`, `shell.cc:331-354`; the determinant of the 4x4 matrix with last row
`0 0 0 1` is that of its linear part. -/
def checkTransformation (pose : Affine α) (tol : α) : Bool :=
  if Scalar.abs (M3.det pose.linear -. one) <. tol then true else false

/-- `shell::transform`, `shell.cc:311-318`: the result of the check is not used. -/
def transform (s : Shell α) (pose : Affine α) : Shell α :=
  let _ := checkTransformation pose Scalar.eps
  { s with pose := pose }

/-- `shell::y`, `shell.cc:367-372`. -/
def yAxis (s : Shell α) : V3 α := s.pose.linear.c1

/-- `mid_plane`, `shell.cc:1020-1021`. -/
def midPlane (s : Shell α) : Plane α := Plane.normalize ⟨s.pose.trans, s.yAxis⟩

/-- The test of `shell.cc:1036-1049` deciding whether a triangle is a candidate for the rib at `y`.
`sum` is a sum of three values in `{-1,0,1}` and is kept as an integer. -/
def isCandidate (mid : Plane α) (refine : Bool) (y : α) (t : TriangleGround α) : Bool :=
  if !refine then true else
  let d0 := mid.signedDistance t.tri.v0
  let d1 := mid.signedDistance t.tri.v1
  let d2 := mid.signedDistance t.tri.v2
  let sum := Scalar.sign (d0 -. y) + Scalar.sign (d1 -. y) + Scalar.sign (d2 -. y)
  decide (-3 < sum) && decide (sum < 3)

/-- `shell::refineIntersection`, `shell.cc:1004-1052`: the candidate list of every rib is replaced;
lists beyond the number of ribs are left alone; `m_candidates[j]` must exist. -/
def refineIntersection (s : Shell α) (ground : List (TriangleGround α)) (refine : Bool) :
    Res (Shell α) :=
  if s.cands.length < s.ribs.length then .ub "m_candidates[j] out of range" else
  .ok { s with cands :=
    (s.ribs.map fun r => ground.filter (isCandidate s.midPlane refine r.center.y)) ++
      s.cands.drop s.ribs.length }

/-- The loops over the ribs in `shell::setup`, `shell.cc:461-462, 472-473, 497-498`: rib `i` writes
`m_out[i]`; `comb` combines the flag of this rib with the one so far. -/
def ribLoop (pol : Policy) (comb : Bool → Bool → Bool) (f : Nat → Rib α → Res (Bool × Output α)) :
    List (Rib α) → Nat → RecVec α → Bool → MRes (RecVec α) Bool
  | [], _, out, b => .ok out b
  | r :: rs, i, out, b =>
    if !(out.accessible pol i) then .ub "m_out[i] out of range" else
    match f i r with
    | .ok (c, o) => ribLoop pol comb f rs (i + 1) (out.set i o) (comb c b)
    | .throw m => .throw out m
    | .ub w => .ub w

/-- Put the records back into the shell. -/
def withOut (s : Shell α) : MRes (RecVec α) Bool → MRes (Shell α) Bool
  | .ok out b => .ok { s with out := out } b
  | .throw out m => .throw { s with out := out } m
  | .ub w => .ub w

/-- `m_candidates[i]`. -/
def candidate (s : Shell α) (i : Nat) : Res (List (TriangleGround α)) :=
  match s.cands[i]? with
  | some c => .ok c
  | none => .ub "m_candidates[i] out of range"

/-- `shell::setup(mesh, pose, method)`, `shell.cc:440-478`. -/
def setupMesh (pol : Policy) (s : Shell α) (ground : Mesh α) (pose : Affine α) (method : String) :
    MRes (Shell α) Bool :=
  let s := (s.transform pose).updateBBox
  match ground.intersection s.bbox with
  | .throw m => .throw s m
  | .ub w => .ub w
  | .ok local' =>
    if local'.length < 1 then
      withOut s (ribLoop pol (fun _ _ => false) (fun _ r => .ok (false, r.noContact pose))
        s.ribs 0 s.out false)
    else
      match s.refineIntersection local' (decide (method = "geometric") && decide (local'.length > 3)) with
      | .throw m => .throw s m
      | .ub w => .ub w
      | .ok s =>
        withOut s (ribLoop pol (fun c b => c || b)
          (fun i r => do
            let c ← s.candidate i
            r.envelopMesh c pose method)
          s.ribs 0 s.out false)

/-- `shell::setup(flat, pose, method)`, `shell.cc:482-502`: the flag is overwritten by every rib. -/
def setupFlat (pol : Policy) (s : Shell α) (ground : Flat α) (pose : Affine α) (method : String) :
    MRes (Shell α) Bool :=
  let s := (s.transform pose).updateBBox
  withOut s (ribLoop pol (fun c _ => c) (fun _ r => r.envelopFlat ground pose method)
    s.ribs 0 s.out false)

/-! ## Queries -/

/-- The records of the ribs `i, i+1, …, i+k-1`. -/
def readFrom (pol : Policy) (v : RecVec α) : Nat → Nat → Res (List (Output α))
  | 0, _ => .ok []
  | k + 1, i => do
    let o ← v.read pol i
    let os ← readFrom pol v k (i + 1)
    return o :: os

/-- `m_out[0], …, m_out[size()-1]`: every loop of the queries below visits exactly these. -/
def records (pol : Policy) (s : Shell α) : Res (List (Output α)) := readFrom pol s.out s.size 0

/-- `shell::contactVolume(volume)`, `shell.cc:764-773`. -/
def contactVolume (pol : Policy) (s : Shell α) : Res α := do
  let os ← s.records pol
  return os.foldl (fun v o => v +. o.volume) zero

/-- `shell::contactPoint(point)`, `shell.cc:517-539`. -/
def contactPoint (pol : Policy) (s : Shell α) : Res (V3 α) := do
  let vol ← s.contactVolume pol
  let os ← s.records pol
  if vol <. Scalar.eps then
    return V3.sdiv (os.foldl (fun p o => V3.add p o.point) V3.zeros) (Scalar.ofNat s.size)
  else
    return V3.sdiv (os.foldl (fun p o => V3.add p (V3.smul o.volume o.point)) V3.zeros) vol

/-- `shell::contactNormal(normal)`, `shell.cc:569-593`. -/
def contactNormal (pol : Policy) (s : Shell α) : Res (V3 α) := do
  let vol ← s.contactVolume pol
  let os ← s.records pol
  if vol <. Scalar.eps then
    return V3.normalized
      (V3.sdiv (os.foldl (fun p o => V3.add p o.normal) V3.zeros) (Scalar.ofNat s.size))
  else
    return V3.normalized
      (V3.sdiv (os.foldl (fun p o => V3.add p (V3.smul o.volume o.normal)) V3.zeros) vol)

/-- `shell::contactFriction(friction)`, `shell.cc:623-645`. -/
def contactFriction (pol : Policy) (s : Shell α) : Res α := do
  let vol ← s.contactVolume pol
  let os ← s.records pol
  if vol <. Scalar.eps then
    return os.foldl (fun f o => f +. o.friction) zero /. Scalar.ofNat s.size
  else
    return os.foldl (fun f o => f +. o.friction *. o.volume) zero /. vol

/-- `shell::contactDepth(depth)`, `shell.cc:675-695`. -/
def contactDepth (pol : Policy) (s : Shell α) : Res α := do
  let vol ← s.contactVolume pol
  let os ← s.records pol
  if vol <. Scalar.eps then
    return vol /. Scalar.ofNat s.size
  else
    return os.foldl (fun f o => f +. o.depth *. o.volume) zero /. vol

/-- `shell::contactArea(area)`, `shell.cc:725-734`: the loop adds `friction`. -/
def contactArea (pol : Policy) (s : Shell α) : Res α := do
  let os ← s.records pol
  return os.foldl (fun a o => a +. o.friction) zero

/-- `shell::contactPoint(i, point)`, `shell.cc:543-551`. -/
def contactPointAt (pol : Policy) (s : Shell α) (i : Nat) : Res (V3 α) := do
  return (← s.out.read pol i).point
/-- `shell::contactNormal(i, normal)`, `shell.cc:597-605`. -/
def contactNormalAt (pol : Policy) (s : Shell α) (i : Nat) : Res (V3 α) := do
  return (← s.out.read pol i).normal
/-- `shell::contactFriction(i, friction)`, `shell.cc:649-657`. -/
def contactFrictionAt (pol : Policy) (s : Shell α) (i : Nat) : Res α := do
  return (← s.out.read pol i).friction
/-- `shell::contactDepth(i, depth)`, `shell.cc:699-707`. -/
def contactDepthAt (pol : Policy) (s : Shell α) (i : Nat) : Res α := do
  return (← s.out.read pol i).depth
/-- `shell::contactArea(i, area)`, `shell.cc:738-746`. -/
def contactAreaAt (pol : Policy) (s : Shell α) (i : Nat) : Res α := do
  return (← s.out.read pol i).area
/-- `shell::contactVolume(i, volume)`, `shell.cc:777-785`. -/
def contactVolumeAt (pol : Policy) (s : Shell α) (i : Nat) : Res α := do
  return (← s.out.read pol i).volume

/-- The loops `for (i < size()) v[i] = …` of the vector valued queries: `k` iterations remain, `i` is the
index, `v` the caller's vector; `v[i]` must exist. -/
def fillLoop {β : Type} (f : Nat → Res β) : Nat → Nat → List β → Res (List β)
  | 0, _, v => .ok v
  | k + 1, i, v =>
    if i < v.length then do
      let b ← f i
      fillLoop f k (i + 1) (v.set i b)
    else .ub "v[i] out of range"

/-- `v.resize(n)`: entries beyond `n` are dropped, missing ones appended; the content of the new
entries is `d` (zero for `real`, unspecified for Eigen vectors). -/
def resizeVec {β : Type} (v : List β) (n : Nat) (d : β) : List β :=
  v.take n ++ List.replicate (n - v.length) d

/-- `shell::contactPoint(std::vector<point> &)`, `shell.cc:555-565`. -/
def contactPointVec (pol : Policy) (s : Shell α) (d : V3 α) (v : List (V3 α)) : Res (List (V3 α)) :=
  fillLoop (s.contactPointAt pol) s.size 0 (resizeVec v s.size d)
/-- `shell::contactNormal(std::vector<vec3> &)`, `shell.cc:609-619`. -/
def contactNormalVec (pol : Policy) (s : Shell α) (d : V3 α) (v : List (V3 α)) : Res (List (V3 α)) :=
  fillLoop (s.contactNormalAt pol) s.size 0 (resizeVec v s.size d)
/-- `shell::contactFriction(std::vector<real> &)`, `shell.cc:661-671`. -/
def contactFrictionVec (pol : Policy) (s : Shell α) (d : α) (v : List α) : Res (List α) :=
  fillLoop (s.contactFrictionAt pol) s.size 0 (resizeVec v s.size d)
/-- `shell::contactDepth(std::vector<real> &)`, `shell.cc:711-721`. -/
def contactDepthVec (pol : Policy) (s : Shell α) (d : α) (v : List α) : Res (List α) :=
  fillLoop (s.contactDepthAt pol) s.size 0 (resizeVec v s.size d)
/-- `shell::contactArea(std::vector<real> &)`, `shell.cc:750-760`. -/
def contactAreaVec (pol : Policy) (s : Shell α) (d : α) (v : List α) : Res (List α) :=
  fillLoop (s.contactAreaAt pol) s.size 0 (resizeVec v s.size d)
/-- `shell::contactVolume(std::vector<real> &)`, `shell.cc:789-799`. -/
def contactVolumeVec (pol : Policy) (s : Shell α) (d : α) (v : List α) : Res (List α) :=
  fillLoop (s.contactVolumeAt pol) s.size 0 (resizeVec v s.size d)

/-- The frame of `shell.cc:813-817, 829-833`. -/
def contactFrame (y normal point : V3 α) : Affine α :=
  let x := V3.normalized (V3.cross y normal)
  let y' := V3.normalized (V3.cross normal x)
  ⟨⟨x, y', normal⟩, point⟩

/-- `shell::contactPointAffine(pose)`, `shell.cc:803-818`. -/
def contactPointAffine (pol : Policy) (s : Shell α) : Res (Affine α) := do
  let p ← s.contactPoint pol
  let n ← s.contactNormal pol
  return contactFrame s.yAxis n p

/-- `shell::contactPointAffine(i, pose)`, `shell.cc:822-834`. -/
def contactPointAffineAt (pol : Policy) (s : Shell α) (i : Nat) : Res (Affine α) := do
  let o ← s.out.read pol i
  return contactFrame s.yAxis o.normal o.point

/-- `Matrix3::eulerAngles(2, 0, 1)` (`Eigen/src/Geometry/EulerAngles.h`, Eigen 3.3/3.4) with
`odd = 0, i = 2, j = 0, k = 1`; `m(r,c)` is row `r` of column `c`. -/
def eulerAngles (m : M3 α) : V3 α :=
  let r0 := Scalar.atan2 m.c1.x m.c1.y
  let c2 := Scalar.sqrt (m.c2.z *. m.c2.z +. m.c0.z *. m.c0.z)
  let flip := zero <. r0
  let a0 := if flip then r0 -. Scalar.pi else r0
  let a1 := if flip then Scalar.atan2 (-. m.c1.z) (-. c2) else Scalar.atan2 (-. m.c1.z) c2
  let s1 := Scalar.sin a0
  let c1 := Scalar.cos a0
  let a2 := Scalar.atan2 (s1 *. m.c2.y -. c1 *. m.c2.x) (c1 *. m.c0.x -. s1 *. m.c0.y)
  ⟨-. a0, -. a1, -. a2⟩

/-- `shell::eulerAngles`, `shell.cc:385-392`. -/
def poseAngles (s : Shell α) : V3 α := eulerAngles s.pose.linear

/-- `shell::relativeAngles(angles)`, `shell.cc:850-860`. -/
def relativeAngles (pol : Policy) (s : Shell α) : Res (V3 α) := do
  let f ← s.contactPointAffine pol
  return eulerAngles (M3.mul (M3.transpose f.linear) s.pose.linear)

/-- `m_ribs[i]`. -/
def ribAt (s : Shell α) (i : Nat) : Res (Rib α) :=
  match s.ribs[i]? with
  | some r => .ok r
  | none => .ub "m_ribs[i] out of range"

/-- `shell::relativeAngles(i, angles)`, `shell.cc:864-876`. -/
def relativeAnglesAt (pol : Policy) (s : Shell α) (i : Nat) : Res (V3 α) := do
  let f ← s.contactPointAffineAt pol i
  let a := eulerAngles (M3.mul (M3.transpose f.linear) s.pose.linear)
  let r ← s.ribAt i
  return { a with x := a.x -. r.angle }

/-- `shell::contactPointAffine(std::vector<affine> &)`, `shell.cc:838-846`: the vector is not resized. -/
def contactPointAffineVec (pol : Policy) (s : Shell α) (v : List (Affine α)) :
    Res (List (Affine α)) :=
  fillLoop (s.contactPointAffineAt pol) s.size 0 v

/-- `shell::relativeAngles(std::vector<vec3> &)`, `shell.cc:880-888`: the vector is not resized. -/
def relativeAnglesVec (pol : Policy) (s : Shell α) (v : List (V3 α)) : Res (List (V3 α)) :=
  fillLoop (s.relativeAnglesAt pol) s.size 0 v

/-- `shell::ribRadius`, `shell.cc:208-215`. -/
def ribRadius (s : Shell α) (i : Nat) : Res α := do return (← s.ribAt i).radius
/-- `shell::ribCenter`, `shell.cc:219-226`. -/
def ribCenter (s : Shell α) (i : Nat) : Res (V3 α) := do return (← s.ribAt i).center
/-- `shell::ribWidth`, `shell.cc:230-237`. -/
def ribWidth (s : Shell α) (i : Nat) : Res α := do return (← s.ribAt i).width
/-- `shell::ribAngle`, `shell.cc:241-248`. -/
def ribAngle (s : Shell α) (i : Nat) : Res α := do return (← s.ribAt i).angle

end Shell
end Enve
