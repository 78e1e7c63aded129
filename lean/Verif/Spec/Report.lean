import Verif.Model.Print

/-! What a printed report has to show. -/

namespace Enve.Spec

variable {α : Type}

/-- A change of the number format of the stream. -/
def isFormat : Tok α → Bool
  | .sci => true
  | _ => false

/-- The output without the changes of the number format. -/
def plain (ts : List (Tok α)) : List (Tok α) := ts.filter fun t => !isFormat t

/-- The output `ts` contains `block`, without interruption. -/
def Prints (ts block : List (Tok α)) : Prop := block <:+: plain ts

/-- Whether the stream writes numbers in scientific notation with six digits after the output, if it did so before
(`b`). -/
def scientificAfter (ts : List (Tok α)) (b : Bool) : Bool := b || ts.any isFormat

/-- How often a label occurs. -/
def occurrences (label : String) (ts : List (Tok α)) : Nat :=
  ts.countP fun t => match t with
    | .text s => s == label
    | _ => false

/-- A vector in the format `[ x, y, z ]'`. -/
def bracketed (v : V3 α) : List (Tok α) :=
  [.text "[ ", .num v.x, .text ", ", .num v.y, .text ", ", .num v.z, .text " ]'"]

/-- The boxes of a tree, parents before children. -/
inductive Boxes : List (Tree α) → List (Box α) → Prop where
  | nil : Boxes [] []
  | node {b : Box α} {cs rest : List (Tree α)} {bs bs' : List (Box α)} (hc : Boxes cs bs) (hr : Boxes rest bs') :
      Boxes (.mk (some b) cs :: rest) (b :: bs ++ bs')

variable [Scalar α]

/-- The report on a shell: every quantity stands behind its label, with the value that the query of the shell returns,
and there is exactly one line per rib for the quantities of the ribs. -/
structure ShellReport (pol : Policy) (s : Shell α) (ts : List (Tok α)) : Prop where
  rx : Prints ts [.text "\t Rx = ", .num s.shape.rx]
  mx : Prints ts [.text "\t Mx = ", .num s.shape.mx]
  ry : Prints ts [.text "\t Ry = ", .num s.shape.ry]
  my : Prints ts [.text "\t My = ", .num s.shape.my]
  ly : Prints ts [.text "\t Ly = ", .num s.shape.ly]
  maxRadius : Prints ts [.text "Shell maximum radius", .endl, .text "R = ", .num s.shape.surfaceMaxRadius]
  ribs : ∀ i r, s.ribAt i = .ok r → Prints ts ([.text "Rib ", .int i, .text " : C = "] ++ bracketed r.center ++
    [.text "        R = ", .num r.radius, .text " m", .endl, .text "        W = ", .num r.width, .text " m", .endl,
     .text "        A = ", .num r.angle, .text " rad", .endl])
  camber : Prints ts [.text "Camber angle", .endl, .text "Γ = ", .num (Scalar.div s.poseAngles.y Scalar.pi), .text "pi rad"]
  rotation : Prints ts [.text "Rotation angle", .endl, .text "ß = ", .num (Scalar.div s.poseAngles.z Scalar.pi),
    .text "pi rad"]
  yaw : Prints ts [.text "Yaw angle", .endl, .text "α = ", .num (Scalar.div s.poseAngles.x Scalar.pi), .text "pi rad"]
  point : ∀ p, s.contactPoint pol = .ok p →
    Prints ts [.text "Contact point (absolute reference frame)", .endl, .text "P = ", .row p]
  normal : ∀ n, s.contactNormal pol = .ok n →
    Prints ts [.text "Contact normal (absolute reference frame)", .endl, .text "N = ", .row n]
  friction : ∀ f, s.contactFriction pol = .ok f → Prints ts [.text "Contact point friction", .endl, .text "f = ", .num f]
  depth : ∀ d, s.contactDepth pol = .ok d →
    Prints ts [.text "Contact depth (on average point)", .endl, .text "d = ", .num d, .text " m"]
  area : ∀ a, s.contactArea pol = .ok a →
    Prints ts [.text "Contact area (total)", .endl, .text "A = ", .num a, .text " m^2"]
  volume : ∀ v, s.contactVolume pol = .ok v →
    Prints ts [.text "Contact volume (total)", .endl, .text "V = ", .num v, .text " m^3"]
  pose : Prints ts [.text "Shell reference frame", .endl, .mat s.pose]
  frame : ∀ f, s.contactPointAffine pol = .ok f →
    Prints ts [.text "Local contact point reference frame", .endl, .mat f]
  ribPoint : ∀ i < s.size, ∀ p, s.contactPointAt pol i = .ok p →
    Prints ts [.text "Rib ", .int i, .text " - P = ", .row p, .text " m", .endl]
  ribNormal : ∀ i < s.size, ∀ n, s.contactNormalAt pol i = .ok n →
    Prints ts [.text "Rib ", .int i, .text " - N = ", .row n, .text "", .endl]
  ribFriction : ∀ i < s.size, ∀ f, s.contactFrictionAt pol i = .ok f →
    Prints ts [.text "Rib ", .int i, .text " - f = ", .num f, .text "", .endl]
  ribDepth : ∀ i < s.size, ∀ d, s.contactDepthAt pol i = .ok d →
    Prints ts [.text "Rib ", .int i, .text " - d = ", .num d, .text " m", .endl]
  ribArea : ∀ i < s.size, ∀ a, s.contactAreaAt pol i = .ok a →
    Prints ts [.text "Rib ", .int i, .text " - A = ", .num a, .text " m^2", .endl]
  ribVolume : ∀ i < s.size, ∀ v, s.contactVolumeAt pol i = .ok v →
    Prints ts [.text "Rib ", .int i, .text " - V = ", .num v, .text " m^3", .endl]
  lines : ∀ label, label = " : C = " ∨ label = " - P = " ∨ label = " - N = " ∨ label = " - f = " ∨ label = " - d = " ∨
    label = " - A = " ∨ label = " - V = " ∨ label = " - [Γ ß α]' = " → occurrences label ts = s.size

/-- The angles of the wheel relative to the contact frame as the label announces them: camber, rotation, yaw, in units
of π.  (In the vector that the query returns, yaw comes first: C100.) -/
structure AngleReport (pol : Policy) (s : Shell α) (ts : List (Tok α)) : Prop where
  shell : ∀ e, s.relativeAngles pol = .ok e → Prints ts [.text "[Γ ß α]' = ",
    .row ⟨Scalar.div e.y Scalar.pi, Scalar.div e.z Scalar.pi, Scalar.div e.x Scalar.pi⟩]
  rib : ∀ i < s.size, ∀ e, s.relativeAnglesAt pol i = .ok e → Prints ts [.text "Rib ", .int i, .text " - [Γ ß α]' = ",
    .row ⟨Scalar.div e.y Scalar.pi, Scalar.div e.z Scalar.pi, Scalar.div e.x Scalar.pi⟩]

omit [Scalar α] in
/-- The report of one triangle in the file of a mesh. -/
def triangleReport (i : Nat) (t : TriangleGround α) : List (Tok α) :=
  [.text "T  = ", .int i, .endl, .text "V0 = "] ++ bracketed t.tri.v0 ++ [.endl, .text "V1 = "] ++ bracketed t.tri.v1 ++
  [.endl, .text "V2 = "] ++ bracketed t.tri.v2 ++ [.endl, .text "N  = "] ++ bracketed t.normal ++
  [.endl, .text "F  = ", .num t.friction, .endl]

omit [Scalar α] in
/-- The report of one box of a bounding box tree. -/
def boxReport (b : Box α) : List (Tok α) :=
  [.text "Box =", .endl,
   .text "Minimum = [ ", .num b.min.x, .text ", ", .num b.min.y, .text ", ", .num b.min.z, .text " ]'", .endl,
   .text "Maximum = [ ", .num b.max.x, .text ", ", .num b.max.y, .text ", ", .num b.max.z, .text " ]'", .endl, .endl]

omit [Scalar α] in
/-- The numbers of an output, in reading order. -/
def numbers (ts : List (Tok α)) : List α :=
  ts.filterMap fun t => match t with
    | .num x => some x
    | _ => none

omit [Scalar α] in
/-- The three numbers of a vector. -/
def three (v : V3 α) : List α := [v.x, v.y, v.z]

end Enve.Spec
