import Verif.Model.AabbTree
import Verif.Model.Ground
import Verif.Model.Text

/-! # `enve::ground::mesh` (`src/mesh.cc`) -/

namespace Enve
open Scalar

/-- `enve::ground::mesh`: members `m_triangles, m_bboxes, m_AABBtree`.  The shared pointers to
constant triangles and boxes are represented by the values pointed to (null pointers inside the
triangle list are not modelled). -/
structure Mesh (α : Type) where
  triangles : List (TriangleGround α)
  bboxes : List (Box α)
  tree : Tree α

/-- `std::stod` and `std::stoi`: `none` is a thrown `invalid_argument`/`out_of_range`. -/
structure NumParse (α : Type) where
  stod : List Char → Option α
  stoi : List Char → Option Int

variable {α : Type} [Scalar α]

namespace Mesh

/-- `mesh::mesh(void)`, `mesh.cc:52-56`. -/
def empty : Mesh α := ⟨[], [], Tree.empty⟩

/-- `mesh::updateBBoxes`, `mesh.cc:514-524`. -/
def updateBBoxes (m : Mesh α) : Mesh α := { m with bboxes := m.triangles.map (·.bbox) }

/-- `mesh::buildAABBtree`, `mesh.cc:501-510`. -/
def buildAABBtree (m : Mesh α) : Mesh α :=
  let m := m.updateBBoxes
  { m with tree := Tree.build m.bboxes }

/-- `mesh::mesh(triangleground::vecptr)`, `mesh.cc:60-67`. -/
def ofTriangles (ts : List (TriangleGround α)) : Mesh α :=
  buildAABBtree { (empty : Mesh α) with triangles := ts }

/-- `mesh::copy`, `mesh.cc:104-110`. -/
def copy (this other : Mesh α) : Mesh α := { this with triangles := other.triangles }

/-- `mesh::clear`, `mesh.cc:114-123`. -/
def clear (m : Mesh α) : Mesh α := { m with triangles := [] }

/-- `mesh::size`, `mesh.cc:202-207`. -/
def size (m : Mesh α) : Nat := m.triangles.length

/-- `mesh::ptrTriangleground(i)` with an `int` argument converted to `size_t`, `mesh.cc:136-143`:
unchecked `operator[]`. -/
def ptrTriangleground (m : Mesh α) (i : Int) : Res (TriangleGround α) :=
  if 0 ≤ i then
    match m.triangles[i.toNat]? with
    | some t => .ok t
    | none => .ub "m_triangles[i] out of range"
  else .ub "m_triangles[i] out of range"

/-- The loop of `mesh::intersection`, `mesh.cc:487-492`. -/
def lookupAll (m : Mesh α) : List (Box α × Box α) → Res (List (TriangleGround α))
  | [] => .ok []
  | p :: ps => do
    let t ← m.ptrTriangleground p.1.id
    let ts ← lookupAll m ps
    return t :: ts

/-- `mesh::intersection`, `mesh.cc:472-497`: the triangles written to the output vector; the
returned flag is whether there are any. -/
def intersection (m : Mesh α) (box : Box α) : Res (List (TriangleGround α)) := do
  let pairs ← Tree.inter m.tree (Tree.build [box]) false
  m.lookupAll pairs

/-- `mesh::intersection` as called, `mesh.cc:472-497`: the returned flag and the content of the
caller's vector, whose previous content `_old` is cleared. -/
def query (m : Mesh α) (box : Box α) (_old : List (TriangleGround α)) :
    Res (Bool × List (TriangleGround α)) := do
  let out ← m.intersection box
  return (decide (0 < out.length), out)

/-! ## Loading -/

/-- The local state of the loader: `nodes`, `elements_count`, section flags, and `m_triangles`
(`mesh.cc:239-246`).  `nodes_count` always equals `nodes.size()` and is not kept separately. -/
structure LoadState (α : Type) where
  nodes : List (V3 α)
  triangles : List (TriangleGround α)
  elements : Nat
  nodesParse : Bool
  elementsParse : Bool

/-- Three vertices `nodes[i_element[k]]` of `mesh.cc:318, 432`: unchecked `operator[]`. -/
def nodeAt (nodes : List (V3 α)) (i : Int) : Res (V3 α) :=
  match nodes[i.toNat]? with
  | some p => .ok p
  | none => .ub "nodes[i] out of range"

/-- `std::stod`. -/
def stod (np : NumParse α) (s : List Char) : Res α :=
  match np.stod s with
  | some x => .ok x
  | none => .throw "stod"

/-- `std::stoi`. -/
def stoi (np : NumParse α) (s : List Char) : Res Int :=
  match np.stoi s with
  | some x => .ok x
  | none => .throw "stoi"

/-- A vertex line: `mesh.cc:285-292` (RDF) and `402-409` (OBJ). -/
def parseNode (np : NumParse α) (pose : Affine α) (l : List Char) : Res (V3 α) :=
  match Text.split (Text.tail l) with
  | [a, b, c] => do
    let x ← stod np a
    let y ← stod np b
    let z ← stod np c
    return pose.apply ⟨x, y, z⟩
  | _ => .throw "wrong numbder of elements detected."

/-- An RDF element line: `mesh.cc:298-320`. -/
def parseRdfElement (np : NumParse α) (nodes : List (V3 α)) (id : Nat) (l : List Char) :
    Res (TriangleGround α) :=
  match Text.split l with
  | [a, b, c, f] => do
    let i ← stoi np a
    let j ← stoi np b
    let k ← stoi np c
    let f ← stod np f
    Res.assert (decide (0 ≤ i)) "element 0 index cannot be negative."
    Res.assert (decide (0 ≤ j)) "element 1 index cannot be negative."
    Res.assert (decide (0 ≤ k)) "element 2 index cannot be negative."
    Res.assert (zero <=. f) "element friction cannot be negative."
    let p ← nodeAt nodes i
    let q ← nodeAt nodes j
    let r ← nodeAt nodes k
    TriangleGround.make id f p q r
  | _ => .throw "wrong numbder of elements detected."

/-- `std::stoi(s) - 1`: the subtraction overflows `int` for the smallest value. -/
def stoiMinus1 (np : NumParse α) (s : List Char) : Res Int := do
  let i ← stoi np s
  if i = -2147483648 then .ub "signed overflow" else return i - 1

/-- An OBJ face line: `mesh.cc:415-434`. -/
def parseObjFace (np : NumParse α) (friction : α) (nodes : List (V3 α)) (id : Nat)
    (l : List Char) : Res (TriangleGround α) :=
  match Text.split (Text.tail l) with
  | [a, b, c] => do
    let i ← stoiMinus1 np a
    let j ← stoiMinus1 np b
    let k ← stoiMinus1 np c
    Res.assert (decide (0 ≤ i)) "element 0 index cannot be negative."
    Res.assert (decide (0 ≤ j)) "element 1 index cannot be negative."
    Res.assert (decide (0 ≤ k)) "element 2 index cannot be negative."
    let p ← nodeAt nodes i
    let q ← nodeAt nodes j
    let r ← nodeAt nodes k
    TriangleGround.make id friction p q r
  | _ => .throw "wrong numbder of elements detected."

/-- `token[0]` of a possibly empty `std::string` (the terminating `'\0'` when empty). -/
def tokenHead (t : List Char) : Char := t.headD (Char.ofNat 0)

/-- The branch `if (nodes_parse)` of the RDF loop, `mesh.cc:283-293`. -/
def rdfNode (np : NumParse α) (pose : Affine α) (s : LoadState α) (l : List Char) :
    Res (LoadState α) :=
  if s.nodesParse then do
    let p ← parseNode np pose l
    return { s with nodes := s.nodes ++ [p] }
  else return s

/-- The branch `if (elements_parse)` of the RDF loop, `mesh.cc:296-321`. -/
def rdfElement (np : NumParse α) (s : LoadState α) (l : List Char) : Res (LoadState α) :=
  if s.elementsParse then do
    let t ← parseRdfElement np s.nodes s.elements l
    return { s with triangles := s.triangles ++ [t], elements := s.elements + 1 }
  else return s

/-- The body of the RDF loop, `mesh.cc:257-322`. -/
def rdfLine (np : NumParse α) (pose : Affine α) (s : LoadState α) (l : List Char) :
    Res (LoadState α) :=
  let token := Text.firstToken l
  if token = "[NODES]".toList ∨ token = "NODES".toList then
    .ok { s with nodesParse := true, elementsParse := false }
  else if token = "[ELEMENTS]".toList ∨ token = "ELEMENTS".toList then
    .ok { s with nodesParse := false, elementsParse := true }
  else if tokenHead token = '{' then .ok s
  else if tokenHead token = '%' ∨ tokenHead token = '#' ∨ tokenHead token = '\r' then .ok s
  else do
    let s ← rdfNode np pose s l
    rdfElement np s l

/-- The body of the OBJ loop, `mesh.cc:398-441`. -/
def objLine (np : NumParse α) (friction : α) (pose : Affine α) (s : LoadState α) (l : List Char) :
    Res (LoadState α) :=
  let token := Text.firstToken l
  if token = "v".toList then do
    let p ← parseNode np pose l
    return { s with nodes := s.nodes ++ [p] }
  else if token = "f".toList then do
    let t ← parseObjFace np friction s.nodes s.elements l
    return { s with triangles := s.triangles ++ [t], elements := s.elements + 1 }
  else .ok s

/-- The `while (std::getline(…))` loops, `mesh.cc:255-323, 396-442`: on an exception the object
keeps the triangles pushed so far. -/
def lineLoop (step : LoadState α → List Char → Res (LoadState α)) :
    List (List Char) → LoadState α → MRes (LoadState α) Unit
  | [], s => .ok s ()
  | l :: ls, s =>
    match step s l with
    | .ok s' => lineLoop step ls s'
    | .throw m => .throw s m
    | .ub w => .ub w

/-- The end of both loaders, `mesh.cc:327-347, 446-465`. -/
def loadFinish (m : Mesh α) (s : LoadState α) : MRes (Mesh α) Bool :=
  let m := { m with triangles := s.triangles }
  if s.triangles.length ≠ s.elements then .throw m "safety check not passed."
  else if s.triangles.isEmpty then .throw m "loaded mesh is empty."
  else .ok m.buildAABBtree true

/-- `path.substr(path.size() - 4, 4)`, `mesh.cc:223, 367`: for a path shorter than four characters
the position wraps around and `substr` throws `std::out_of_range`. -/
def extension (path : List Char) : Res (List Char) :=
  if path.length < 4 then .throw "out_of_range" else .ok (path.drop (path.length - 4))

/-- The frame common to `mesh::load(path, pose)` (`mesh.cc:211-350`) and
`mesh::load(path, friction, pose)` (`mesh.cc:354-468`).  `file` is the list of lines of the file, or
`none` if it cannot be opened. -/
def loadWith (step : LoadState α → List Char → Res (LoadState α)) (ext : List Char)
    (m : Mesh α) (path : List Char) (file : Option (List (List Char))) : MRes (Mesh α) Bool :=
  match extension path with
  | .throw e => .throw m e
  | .ub w => .ub w
  | .ok e =>
    if e ≠ ext then .throw m "wrong file extension." else
    match file with
    | none => .throw m "file not opened."
    | some lines =>
      match lineLoop step lines ⟨[], m.triangles, 0, false, false⟩ with
      | .ok s _ => loadFinish m s
      | .throw s e => .throw { m with triangles := s.triangles } e
      | .ub w => .ub w

/-- `mesh::load(path, pose)`, `mesh.cc:211-350`. -/
def loadRdf (np : NumParse α) (m : Mesh α) (path : List Char) (file : Option (List (List Char)))
    (pose : Affine α) : MRes (Mesh α) Bool :=
  loadWith (rdfLine np pose) ".rdf".toList m path file

/-- `mesh::load(path, friction, pose)`, `mesh.cc:354-468`. -/
def loadObj (np : NumParse α) (m : Mesh α) (path : List Char) (file : Option (List (List Char)))
    (friction : α) (pose : Affine α) : MRes (Mesh α) Bool :=
  loadWith (objLine np friction pose) ".obj".toList m path file

/-- Constructing an object: an exception leaves no object behind. -/
def constructed : MRes (Mesh α) Bool → Res (Mesh α)
  | .ok m true => .ok m
  | .ok _ false => .throw "error while reading file."
  | .throw _ e => .throw e
  | .ub w => .ub w

/-- `mesh::mesh(path, pose)`, `mesh.cc:71-83`. -/
def ofRdf (np : NumParse α) (path : List Char) (file : Option (List (List Char)))
    (pose : Affine α) : Res (Mesh α) := constructed (loadRdf np empty path file pose)

/-- `mesh::mesh(path, friction, pose)`, `mesh.cc:87-100`. -/
def ofObj (np : NumParse α) (path : List Char) (file : Option (List (List Char))) (friction : α)
    (pose : Affine α) : Res (Mesh α) := constructed (loadObj np empty path file friction pose)

end Mesh
end Enve
