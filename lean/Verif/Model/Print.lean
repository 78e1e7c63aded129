import Verif.Model.Shell
import Verif.Model.Mesh
import Verif.Model.Entity

/-! # Printed reports

What the `print` members and the `operator<<` overloads send to the stream, as a list of tokens.  The text of a number
(which depends on the format flags of the stream) is not modelled; the change of the format flags is. -/

namespace Enve

open Scalar

/-- One thing sent to a stream. -/
inductive Tok (α : Type) where
  /-- A string literal. -/
  | text (s : String)
  /-- A number. -/
  | num (x : α)
  /-- An integer. -/
  | int (n : Int)
  /-- An Eigen row vector `v.transpose()`, printed by Eigen: the entries and blanks. -/
  | row (v : V3 α)
  /-- An Eigen matrix `pose.matrix()`, printed by Eigen: four rows. -/
  | mat (p : Affine α)
  /-- `std::scientific << std::showpoint << std::setprecision(6)`: the flags stay set. -/
  | sci
  /-- `std::endl`. -/
  | endl

variable {α : Type} [Scalar α]

namespace Print

open Tok

omit [Scalar α] in
/-- `operator<<(std::ostream &, vec3 const &)` and `(…, point const &)`, `utilities.cc:49-75`. -/
def vec (v : V3 α) : List (Tok α) :=
  [sci, text "[ ", num v.x, text ", ", num v.y, text ", ", num v.z, text " ]'"]

omit [Scalar α] in
/-- `operator<<(out_stream &, line const &)`, `utilities.cc:79-91`. -/
def line (l : Line α) : List (Tok α) :=
  [sci, text "Line origin    = "] ++ vec l.origin ++ [endl, text "Line direction = "] ++ vec l.direction

omit [Scalar α] in
/-- `operator<<(out_stream &, ray const &)`, `utilities.cc:95-107`. -/
def ray (r : Line α) : List (Tok α) :=
  [sci, text "Ray origin    = "] ++ vec r.origin ++ [endl, text "Ray direction = "] ++ vec r.direction

omit [Scalar α] in
/-- `operator<<(out_stream &, plane const &)`, `utilities.cc:111-123`. -/
def plane (p : Plane α) : List (Tok α) :=
  [sci, text "Plane origin = "] ++ vec p.origin ++ [endl, text "Plane normal = "] ++ vec p.normal

omit [Scalar α] in
/-- `operator<<(out_stream &, segment const &)`, `utilities.cc:127-139`. -/
def segment (s : Segment α) : List (Tok α) :=
  [sci, text "Segment vertex 0 = "] ++ vec s.v0 ++ [endl, text "Segment vertex 1 = "] ++ vec s.v1

omit [Scalar α] in
/-- `operator<<(out_stream &, aabb const &)`, `utilities.cc:143-155`. -/
def box (b : Box α) : List (Tok α) :=
  [sci, text "Aabb minimum point = "] ++ vec b.min ++ [endl, text "Aabb maximum point = "] ++ vec b.max

omit [Scalar α] in
/-- `operator<<(out_stream &, triangle const &)`, `utilities.cc:159-172`. -/
def triangle (t : Triangle α) : List (Tok α) :=
  [sci, text "Triangle vertex 0 = "] ++ vec t.v0 ++ [endl, text "Triangle vertex 1 = "] ++ vec t.v1 ++
    [endl, text "Triangle vertex 2 = "] ++ vec t.v2

omit [Scalar α] in
/-- `operator<<(out_stream &, disk const &)`, `utilities.cc:176-189`. -/
def disk (d : Disk α) : List (Tok α) :=
  [sci, text "Disk radius = ", num d.radius, endl, text "Disk center = "] ++ vec d.center ++
    [endl, text "Disk normal = "] ++ vec d.normal

omit [Scalar α] in
/-- `operator<<(out_stream &, ball const &)`, `utilities.cc:193-205`. -/
def ball (b : Ball α) : List (Tok α) :=
  [sci, text "Ball radius = ", num b.radius, endl, text "Ball center = "] ++ vec b.center

/-- One row of the output of an `affine`. -/
def affineRow (label : String) (a b c d : α) : List (Tok α) :=
  [text label, num a, text ", ", num b, text ", ", num c, text ", ", num d, text " ]"]

/-- `operator<<(out_stream &, affine const &)`, `utilities.cc:209-223`. -/
def affine (p : Affine α) : List (Tok α) :=
  [sci] ++ affineRow "Affine = [ " p.linear.c0.x p.linear.c1.x p.linear.c2.x p.trans.x ++ [endl] ++
    affineRow "         [ " p.linear.c0.y p.linear.c1.y p.linear.c2.y p.trans.y ++ [endl] ++
    affineRow "         [ " p.linear.c0.z p.linear.c1.z p.linear.c2.z p.trans.z ++ [endl] ++
    affineRow "         [ " zero zero zero one

omit [Scalar α] in
/-- A vector as the `print` members write it, e.g. `triangleground.cc:246`. -/
def coords (label : String) (v : V3 α) (note : String) : List (Tok α) :=
  [text label, num v.x, text ", ", num v.y, text ", ", num v.z, text note, endl]

omit [Scalar α] in
/-- `shape::print`, `shape.cc:296-309`. -/
def shape (s : Shape α) : List (Tok α) :=
  [text "SHAPE DATA", endl,
   text "\t Rx = ", num s.rx, text "\t : real - Section radius on x axis (m)", endl,
   text "\t Mx = ", num s.mx, text "\t : real - Section curve degree for x axis (-)", endl,
   text "\t Ry = ", num s.ry, text "\t : real - Section radius on y axis (m)", endl,
   text "\t My = ", num s.my, text "\t : real - Section curve degree for y axis (-)", endl,
   text "\t Ly = ", num s.ly, text "\t : real - Section surface effective half width (m)", endl]

omit [Scalar α] in
/-- `triangleground::print`, `triangleground.cc:229-253`. -/
def triangleGround (t : TriangleGround α) : List (Tok α) :=
  [text "TRINGLEGROUND DATA", text "\t ID  = ", int t.id, text "\t : integer - ID (-)", endl,
   text "\t F   = ", num t.friction, text "\t : real - Friction coefficient scaling factor (-)", endl] ++
  coords "\t V0  = [" t.tri.v0 "]'\t : point - Vertex 0 (m)" ++
  coords "\t V1  = [" t.tri.v1 "]'\t : point - Vertex 1 (m)" ++
  coords "\t V2  = [" t.tri.v2 "]'\t : point - Vertex 2 (m)" ++
  coords "\t N   = [" t.normal "]'\t : vec3 - Unit normal (-)" ++
  coords "\t Max = [" t.bbox.max "]'\t : point - Aabb maximum point (m)" ++
  coords "\t Min = [" t.bbox.min "]'\t : point - Aabb minimum point (m)"

omit [Scalar α] in
/-- `flat::print`, `flat.cc:189-203`. -/
def flat (g : Flat α) : List (Tok α) :=
  [text "TRINGLEGROUND DATA", text "\t F = ", num g.friction,
   text "\t : real - Friction coefficient scaling factor (-)", endl] ++
  coords "\t O = [" g.plane.origin "]'\t : point - Plane origin point (m)" ++
  coords "\t N = [" g.plane.normal "]'\t : vec3 - Plane unit normal (-)"

omit [Scalar α] in
/-- The part of `mesh::print` for one triangle, `mesh.cc:187-194`. -/
def meshTriangle (t : TriangleGround α) (i : Nat) : List (Tok α) :=
  [text "T  = ", int i, endl, text "V0 = "] ++ vec t.tri.v0 ++ [endl, text "V1 = "] ++ vec t.tri.v1 ++
  [endl, text "V2 = "] ++ vec t.tri.v2 ++ [endl, text "N  = "] ++ vec t.normal ++
  [endl, text "F  = ", num t.friction, endl, endl]

omit [Scalar α] in
/-- What `mesh::print` writes to its file, `mesh.cc:158-198`.  (A file that cannot be opened gets nothing; the code does
not look.) -/
def mesh (m : Mesh α) : List (Tok α) :=
  [text "MESH DATA", endl, endl, text "Legend:", endl, text "T  : i-th triangle position", endl,
   text "V0 : triangle vertex 0", endl, text "V1 : triangle vertex 1", endl, text "V2 : triangle vertex 2", endl,
   text "N  : normal to the face", endl, text "F  : friction coefficient", endl, endl] ++
  (m.triangles.mapIdx fun i t => meshTriangle t i).flatten

omit [Scalar α] in
/-- The part of `AABBtree::print` for the box of a node, `AABBtree.cc:196-202`. -/
def treeBox (b : Box α) : List (Tok α) :=
  [sci, text "Box =", endl,
   text "Minimum = [ ", num b.min.x, text ", ", num b.min.y, text ", ", num b.min.z, text " ]'", endl,
   text "Maximum = [ ", num b.max.x, text ", ", num b.max.y, text ", ", num b.max.z, text " ]'", endl, endl]

mutual
/-- `AABBtree::print`, `AABBtree.cc:183-209`; `level` is handed on and not used. -/
def tree : Tree α → Int → Res (List (Tok α))
  | .mk none [], _ => .ok [text "[EMPTY AABB tree]", endl]
  | .mk none (_ :: _), _ => .ub "m_ptrbox is null"
  | .mk (some b) cs, level => do
    let rest ← trees cs (level + 1)
    return treeBox b ++ rest
/-- The loop over the children, `AABBtree.cc:203-207`. -/
def trees : List (Tree α) → Int → Res (List (Tok α))
  | [], _ => .ok []
  | c :: cs, level => do
    let a ← tree c level
    let b ← trees cs level
    return a ++ b
end

omit [Scalar α] in
/-- The lines of one quantity of all the ribs, e.g. `shell.cc:962-963`. -/
def ribLines {β : Type} (label : String) (tok : β → Tok α) (unit : String) (vs : List β) : List (List (Tok α)) :=
  vs.mapIdx fun i v => [text "Rib ", int i, text label, tok v, text unit, endl]

/-- The tokens of `shell::print`, statement by statement, `shell.cc:935-999`, with the values gathered at
`shell.cc:899-933`. -/
def shellBlocks (s : Shell α) (point normal : V3 α) (friction depth area volume : α) (rel : V3 α) (frame : Affine α)
    (points normals : List (V3 α)) (frictions depths areas volumes : List α) (rels : List (V3 α))
    (ribs : List (Rib α)) : List (List (Tok α)) :=
  let angles := s.poseAngles
  [[text " ------------ SHELL PRINT ------------", endl, endl], shape s.shape, [text "Ribs info:", endl]] ++
  (ribs.mapIdx fun i r =>
    [text "Rib ", int i, text " : C = "] ++ vec r.center ++
    [text "        R = ", num r.radius, text " m", endl,
     text "        W = ", num r.width, text " m", endl,
     text "        A = ", num r.angle, text " rad", endl]) ++
  [[text "Contact parameters:", endl],
   [text "Shell maximum radius", endl, text "R = ", num s.shape.surfaceMaxRadius, text " m", endl],
   [text "Camber angle", endl, text "Γ = ", num (angles.y /. Scalar.pi), text "pi rad", endl],
   [text "Rotation angle", endl, text "ß = ", num (angles.z /. Scalar.pi), text "pi rad", endl],
   [text "Yaw angle", endl, text "α = ", num (angles.x /. Scalar.pi), text "pi rad", endl],
   [text "Contact point (absolute reference frame)", endl, text "P = ", row point, endl],
   [text "Contact point (absolute reference frame)", endl]] ++
  ribLines " - P = " row " m" points ++
  [[text "Contact normal (absolute reference frame)", endl, text "N = ", row normal, endl],
   [text "Contact normal vector (absolute reference frame)", endl]] ++
  ribLines " - N = " row "" normals ++
  [[text "Contact point friction", endl, text "f = ", num friction, endl],
   [text "Contact point friction vector", endl]] ++
  ribLines " - f = " num "" frictions ++
  [[text "Contact depth (on average point)", endl, text "d = ", num depth, text " m", endl],
   [text "Contact depth vector", endl]] ++
  ribLines " - d = " num " m" depths ++
  [[text "Contact area (total)", endl, text "A = ", num area, text " m^2", endl],
   [text "Contact area vector", endl]] ++
  ribLines " - A = " num " m^2" areas ++
  [[text "Contact volume (total)", endl, text "V = ", num volume, text " m^3", endl],
   [text "Contact volume vector", endl]] ++
  ribLines " - V = " num " m^3" volumes ++
  [[text "Shell reference frame", endl, mat s.pose, endl],
   [text "Local contact point reference frame", endl, mat frame, endl],
   [text "Relative pose angles", endl, text "[Γ ß α]' = ", row (V3.sdiv rel Scalar.pi), text "pi rad", endl],
   [text "Ribs relative pose angles", endl]] ++
  ribLines " - [Γ ß α]' = " (fun a => row (V3.sdiv a Scalar.pi)) "pi rad" rels ++
  [[endl], [text " ------------     END     ------------", endl, endl]]

end Print

/-- `m_ribs[i]` for the indices of the loop at `shell.cc:940-946`. -/
def Shell.printedRibs (s : Shell α) : Nat → Nat → Res (List (Rib α))
  | 0, _ => .ok []
  | k + 1, i => do
    let r ← s.ribAt i
    let rs ← s.printedRibs k (i + 1)
    return r :: rs

/-- `shell::print`, `shell.cc:892-1000`.  `v` and `x` are the values of new entries of the vectors. -/
def Shell.print (pol : Policy) (s : Shell α) (v : V3 α) (x : α) (p : Affine α) : Res (List (Tok α)) := do
  let point ← s.contactPoint pol
  let normal ← s.contactNormal pol
  let friction ← s.contactFriction pol
  let depth ← s.contactDepth pol
  let area ← s.contactArea pol
  let volume ← s.contactVolume pol
  let rel ← s.relativeAngles pol
  let frame ← s.contactPointAffine pol
  let points ← s.contactPointVec pol v []
  let normals ← s.contactNormalVec pol v []
  let frictions ← s.contactFrictionVec pol x (List.replicate s.size x)
  let depths ← s.contactDepthVec pol x (List.replicate s.size x)
  let areas ← s.contactAreaVec pol x (List.replicate s.size x)
  let volumes ← s.contactVolumeVec pol x (List.replicate s.size x)
  let _ ← s.contactPointAffineVec pol (List.replicate s.size p)
  let rels ← s.relativeAnglesVec pol (List.replicate s.size v)
  let ribs ← s.printedRibs rels.length 0
  return (Print.shellBlocks s point normal friction depth area volume rel frame points normals frictions depths areas
    volumes rels ribs).flatten

end Enve
