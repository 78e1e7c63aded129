import Verif.Spec.Gateway
import Verif.Spec.MeshFile
import Verif.Spec.History
import Verif.Model.Mesh

/-! # Scripts that use the MATLAB interface with care -/

namespace Enve.MexSpec
open Mex Scalar
variable {α : Type} [Scalar α]

/-- The text of an RDF file has no tabs and stray line ends, and every element names nodes listed
before it. -/
def RdfSafe (np : NumParse α) (lines : List (List Char)) : Prop :=
  (∀ l ∈ lines, Spec.Clean l) ∧
  ∀ pre l post st i j k f, lines = pre ++ l :: post →
    Spec.RdfReads np.stod np.stoi (fun f => (zero <=. f) = true) .init pre st →
    Spec.RdfMeans np.stod np.stoi l (.element i j k f) →
    i < st.nodes.length ∧ j < st.nodes.length ∧ k < st.nodes.length

/-- The text of an OBJ file has no tabs and stray line ends, every face names vertices listed before
it, and no face has the index -2147483648. -/
def ObjSafe (np : NumParse α) (lines : List (List Char)) : Prop :=
  (∀ l ∈ lines, Spec.Clean l) ∧
  (∀ pre l post st i j k, lines = pre ++ l :: post →
    Spec.ObjReads np.stod np.stoi .init pre st → Spec.ObjMeans np.stod np.stoi l (.face i j k) →
    i ≤ st.vertices.length ∧ j ≤ st.vertices.length ∧ k ≤ st.vertices.length) ∧
  ∀ l ∈ lines, ∀ ws, Spec.WordLine l ("f".toList :: ws) → ∀ w ∈ ws, np.stoi w ≠ some (-2147483648)

/-- `m` is the result of reading a file into a new mesh. -/
def FromFile (np : NumParse α) (m : Mesh α) : Prop :=
  (∃ path file pose, Mesh.loadRdf np Mesh.empty path file pose = .ok m true) ∨
  ∃ path file friction pose, Mesh.loadObj np Mesh.empty path file friction pose = .ok m true

/-- The inputs of a command after its name. -/
inductive Slot where
  | object | ground | rib | triangle | vec | pose | pose44 | num | friction | count | id | text | file

/-- What a careful script passes; `this` is the first input after the name.

* `object`: anything but the handle of an object that is not live;
* `ground`: likewise, and a mesh must be as read from a file;
* `rib`, `triangle`: a number from one to the number of ribs or triangles of `this`;
* `vec`, `pose`: a `3x1` or `4x4` double matrix, or a value with another number of rows and columns;
* `pose44`: a `4x4` double matrix;
* `num`: anything but a `1x1` cell or structure;
* `friction`: a number that is not negative;
* `count`: a number of at most 200, `id`: a number in the range of `int`;
* `file`: the name of a file that is missing or safe to read. -/
def Fits (env : Env α) (h : Heap α) (this : Option (Val α)) : Slot → Val α → Prop
  | .object, v => ∀ a, v = handle a → ∃ o, Live h a o
  | .ground, v => ∀ a, v = handle a → ∃ o, Live h a o ∧ ∀ m, o = .mesh m → FromFile env.np m
  | .rib, v => ∃ k, Denotes env v k ∧ 1 ≤ k ∧ ∀ a s, this = some (handle a) → Live h a (.shell s) →
      k ≤ s.size
  | .triangle, v => ∃ k, Denotes env v k ∧ 1 ≤ k ∧ k ≤ 2147483647 ∧
      ∀ a m, this = some (handle a) → Live h a (.mesh m) → k ≤ m.triangles.length
  | .vec, v => IsDouble v 3 1 ∨ Misfit v 3 1
  | .pose, v => IsDouble v 4 4 ∨ Misfit v 4 4
  | .pose44, v => IsDouble v 4 4
  | .num, v => v ≠ .cell 1 1
  | .friction, v => ∃ x, v = scalar x ∧ (zero <=. x) = true
  | .count, v => ∃ k, Denotes env v k ∧ 0 ≤ k ∧ k ≤ 200
  | .id, v => ∃ k, Denotes env v k ∧ 0 ≤ k ∧ k ≤ 2147483647
  | .text, v => ∃ c, v = .chars c
  | .file, v => ∃ c, v = .chars c ∧ ∀ lines, env.file c = some lines →
      ((∃ stem, c = stem ++ ".rdf".toList) → RdfSafe env.np lines) ∧
      ((∃ stem, c = stem ++ ".obj".toList) → ObjSafe env.np lines)

/-- The lists of inputs a careful script gives to a command. -/
def signatures : File → String → List (List Slot)
  | .flat, "new" => [[], [.num, .vec, .vec]]
  | .flat, "setOrigin" => [[.object, .vec]]
  | .flat, "setNormal" => [[.object, .vec]]
  | .flat, "setFriction" => [[.object, .num]]
  | .flat, "setPlane" => [[.object, .object]]
  | .flat, "isApprox" => [[.object, .object]]
  | .flat, "copy" => [[.object, .object]]
  | .flat, _ => [[.object]]
  | .mesh, "new" => [[], [.file], [.file, .friction], [.file, .pose44],
      [.file, .friction, .pose44]]
  | .mesh, "getTriangleground" => [[.object, .triangle]]
  | .mesh, "getTrianglegroundVertices" => [[.object, .triangle]]
  | .mesh, "copy" => [[.object, .object]]
  | .mesh, "load" => [[.object, .file], [.object, .file, .friction]]
  | .mesh, _ => [[.object]]
  | .triangleground, "new" => [[], [.id, .num, .vec, .vec, .vec]]
  | .triangleground, "copy" => [[.object, .object]]
  | .triangleground, _ => [[.object]]
  | .shell, "new" => [[.count, .num, .num, .num, .num, .num]]
  | .shell, "resize" => [[.object, .count]]
  | .shell, "translate" => [[.object, .vec]]
  | .shell, "rotate" => [[.object, .num, .vec]]
  | .shell, "transform" => [[.object, .pose]]
  | .shell, "checkTransformation" => []
  | .shell, "setupFlat" => [[.object, .object, .pose, .text]]
  | .shell, "setupMesh" => [[.object, .ground, .pose, .text]]
  | .shell, c =>
    if c ∈ ["ribRadius", "ribCenter", "ribWidth", "ribAngle", "contactPointRib", "contactNormalRib",
      "contactDepthRib", "contactFrictionRib", "contactAreaRib", "contactVolumeRib",
      "contactPointAffineRib", "relativeAnglesRib"] then [[.object, .rib]]
    else if c ∈ ["checkWidthBound", "surfaceRadius", "surfaceDerivative", "surfaceAngle"] then
      [[.object, .num]]
    else [[.object]]

/-- A call a careful script makes when the heap is `h`: MATLAB values only, and the inputs of a known
command fit one of its lists. -/
def Careful (env : Env α) (h : Heap α) (c : Call α) : Prop :=
  c.Proper ∧ ∀ s, nameOf c.args = some s → s ∈ commands c.file →
    ∃ sig ∈ signatures c.file s, List.Forall₂ (Fits env h c.args[1]?) sig c.args.tail

/-- A script whose calls are careful, whatever the earlier ones have returned. -/
def CarefulScript (env : Env α) : Heap α → List (Call α) → Prop
  | _, [] => True
  | h, c :: cs => Careful env h c ∧
      ∀ h', Leaves (Mex.call env c.file h c.nout c.args) h' → CarefulScript env h' cs

end Enve.MexSpec
