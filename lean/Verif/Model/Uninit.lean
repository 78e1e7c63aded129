import Verif.Model.Rib

/-! # Local variables of `enve::rib` that are read before they are written

`Model/Rib.lean` leaves these reads out, since their values are never used.  By the C++ standard the read itself is
undefined behaviour.  Here a local variable that has no value yet is `none`, and to read it is `ub`. -/

namespace Enve
open Scalar

variable {α : Type} [Scalar α]

namespace Rib

/-- The value of a local variable. -/
def read {β : Type} : Option β → Res β
  | some v => .ok v
  | none => .ub "read of a variable that has no value"

/-- The local variables `r_a` and `r_b` of `rib::envelopGeometric`, declared without a value in `rib.cc:231`. -/
structure Radii (α : Type) where
  a : Option α
  b : Option α

/-- `if (t_b < t_a) std::swap(r_a, r_b)`, `rib.cc:259-267`: the exchange reads both. -/
def swapRadii (r : Rib α) (pose : Affine α) (seg : Segment α) (v : Radii α) : Res (Radii α) :=
  let pa := M3.mulVec (M3.transpose pose.linear) (V3.sub seg.v0 (r.centerGrd pose))
  let pb := M3.mulVec (M3.transpose pose.linear) (V3.sub seg.v1 (r.centerGrd pose))
  if Scalar.atan2 pb.z pb.x <. Scalar.atan2 pa.z pa.x then do
    let a ← read v.a
    let b ← read v.b
    return ⟨some b, some a⟩
  else .ok v

/-- `rib.cc:279-280`. -/
def newRadii (r : Rib α) (pose : Affine α) (seg : Segment α) : Radii α :=
  ⟨some (Scalar.min r.radius (V3.norm (M3.mulVec (M3.transpose pose.linear) (V3.sub seg.v0 (r.centerGrd pose))))),
   some (Scalar.min r.radius (V3.norm (M3.mulVec (M3.transpose pose.linear) (V3.sub seg.v1 (r.centerGrd pose)))))⟩

/-- The loop of `rib::envelopGeometric`, `rib.cc:249-305`, with the variables `r_a` and `r_b`. -/
def geomLoopStd (r : Rib α) (pose : Affine α) : List (TriangleGround α) → Acc α → Radii α → Res (Acc α)
  | [], acc, _ => .ok acc
  | t :: ts, acc, v => do
    match ← Inter.triangleDisk t.tri (r.diskGrd pose) Scalar.eps with
    | none => geomLoopStd r pose ts acc v
    | some seg =>
      let _ ← r.swapRadii pose seg v
      match r.contrib pose t seg with
      | none => return acc
      | some c => geomLoopStd r pose ts (acc.add c) (r.newRadii pose seg)

/-- `rib::envelopGeometric(ground, pose, out)` for a mesh, `rib.cc:208-324`, by the C++ standard. -/
def envelopGeometricMeshStd (r : Rib α) (ground : List (TriangleGround α)) (pose : Affine α) : Res (Bool × Output α) := do
  let acc ← geomLoopStd r pose ground Acc.init ⟨none, none⟩
  return geomFinish r pose acc

/-- The statements `sampling = sampling && this->samplingLine(…)`, `rib.cc:410-413`: after the first line that misses the others
are not evaluated.  The result is `sampling` and what is in `point_vec` and `friction_vec`. -/
def sampleLines (sample : Line α → Option (V3 α × α)) : List (Line α) → Bool → Bool × List (Option (V3 α × α))
  | [], s => (s, [])
  | l :: ls, s =>
    let v := if s then sample l else none
    let rest := sampleLines sample ls v.isSome
    (rest.1, v :: rest.2)

/-- `rib::envelopSampling`, `rib.cc:376-442` and `446-512`, by the C++ standard.  The points of `point_vec(4)` have no value:
`point::point()` (`point.cc:50-53`) evaluates `Constant(QUIET_NAN)` and discards it.  Lines 416-417 read them all. -/
def envelopSamplingStd (r : Rib α) (sample : Line α → Option (V3 α × α)) (pose : Affine α) : Res (Bool × Output α) :=
  let s := sampleLines sample [r.lineXp pose, r.lineXm pose, r.lineYp pose, r.lineYm pose] true
  match s.2 with
  | [v0, v1, v2, v3] => do
    let (p0, f0) ← read v0
    let (p1, f1) ← read v1
    let (p2, f2) ← read v2
    let (p3, f3) ← read v3
    let point := V3.sdiv (V3.add (V3.add (V3.add p0 p1) p2) p3) (lit 4 1)
    let normal := V3.normalized (V3.cross (V3.sub p0 p1) (V3.sub p2 p3))
    let ey := V3.normalized pose.linear.c1
    let ex := V3.normalized (V3.cross normal ey)
    let ez := V3.normalized (V3.cross ey ex)
    let depth := r.radius *. Scalar.abs (V3.dot normal ez) -. V3.norm (V3.sub point (r.centerGrd pose))
    if s.1 && zero <. depth then
      return (true,
        { point := point
          normal := normal
          friction := (f0 +. f1 +. f2 +. f3) /. lit 4 1
          depth := depth
          area := depthArea r.radius r.width depth
          volume := depthVolume r.radius r.width depth })
    else return (false, r.noContact pose)
  | _ => .ub "unreachable: there are four lines"

/-- `rib::envelop(ground, pose, method, out)` for a mesh, `rib.cc:143-162`, by the C++ standard. -/
def envelopMeshStd (r : Rib α) (ground : List (TriangleGround α)) (pose : Affine α) (method : String) : Res (Bool × Output α) :=
  if method = "geometric" then r.envelopGeometricMeshStd ground pose
  else if method = "sampling" then r.envelopSamplingStd (samplingLineMesh ground) pose
  else .throw "invalid enveloping method."

/-- `rib::envelop(ground, pose, method, out)` for a flat ground, `rib.cc:166-185`, by the C++ standard. -/
def envelopFlatStd (r : Rib α) (ground : Flat α) (pose : Affine α) (method : String) : Res (Bool × Output α) :=
  if method = "geometric" then .ok (r.envelopGeometricFlat ground pose)
  else if method = "sampling" then r.envelopSamplingStd (samplingLineFlat ground) pose
  else .throw "invalid enveloping method."

end Rib
end Enve
