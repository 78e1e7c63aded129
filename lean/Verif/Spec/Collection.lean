import Verif.Model.Collection

/-! # What a collection holds -/

namespace Enve.Spec

/-- The nine kinds of entities. -/
inductive Kind where
  | none | point | line | ray | plane | segment | triangle | disk | ball
  deriving DecidableEq

/-- The kind of an entity. -/
def kind {α : Type} : Entity α → Kind
  | .none => .none
  | .point _ => .point
  | .line _ => .line
  | .ray _ => .ray
  | .plane _ => .plane
  | .segment _ => .segment
  | .triangle _ => .triangle
  | .disk _ => .disk
  | .ball _ => .ball

/-- The kinds that describe bounded sets. -/
def Kind.bounded : Kind → Bool
  | .point | .segment | .triangle | .disk | .ball => true
  | .none | .line | .ray | .plane => false

/-- The kinds that describe unbounded sets. -/
def Kind.unbounded : Kind → Bool
  | .line | .ray | .plane => true
  | _ => false

/-- The pointers `ps` are not null and point to the entities `es`, in this order. -/
def Points {α : Type} (h : Heap α) (ps : List (Option Nat)) (es : List (Entity α)) : Prop :=
  List.Forall₂ (fun p e => ∃ a, p = some a ∧ h a = e) ps es

/-- The collection consists of the entities `es`, in this order. -/
def Holds {α : Type} (h : Heap α) (c : Coll α) (es : List (Entity α)) : Prop := Points h c.entities es

/-- `contain⟨Kind⟩()`. -/
def contain {α : Type} : Kind → Heap α → Coll α → Res Bool
  | .none => Coll.containNone
  | .point => Coll.containPoint
  | .line => Coll.containLine
  | .ray => Coll.containRay
  | .plane => Coll.containPlane
  | .segment => Coll.containSegment
  | .triangle => Coll.containTriangle
  | .disk => Coll.containDisk
  | .ball => Coll.containBall

/-- `are⟨Kind⟩()`. -/
def are {α : Type} : Kind → Heap α → Coll α → Res Bool
  | .none => Coll.areNone
  | .point => Coll.arePoint
  | .line => Coll.areLine
  | .ray => Coll.areRay
  | .plane => Coll.arePlane
  | .segment => Coll.areSegment
  | .triangle => Coll.areTriangle
  | .disk => Coll.areDisk
  | .ball => Coll.areBall

/-- `is⟨Kind⟩(i)`. -/
def isAt {α : Type} : Kind → Heap α → Coll α → Int → Res Bool
  | .none => Coll.isNone
  | .point => Coll.isPoint
  | .line => Coll.isLine
  | .ray => Coll.isRay
  | .plane => Coll.isPlane
  | .segment => Coll.isSegment
  | .triangle => Coll.isTriangle
  | .disk => Coll.isDisk
  | .ball => Coll.isBall

/-- `count⟨Kind⟩()`. -/
def countOf {α : Type} : Kind → Heap α → Coll α → Res Int
  | .none => Coll.countNone
  | .point => Coll.countPoint
  | .line => Coll.countLine
  | .ray => Coll.countRay
  | .plane => Coll.countPlane
  | .segment => Coll.countSegment
  | .triangle => Coll.countTriangle
  | .disk => Coll.countDisk
  | .ball => Coll.countBall

/-- `remove⟨Kind⟩()`. -/
def removeKind {α : Type} : Kind → Heap α → Coll α → Res (Coll α)
  | .none => Coll.removeNone
  | .point => Coll.removePoint
  | .line => Coll.removeLine
  | .ray => Coll.removeRay
  | .plane => Coll.removePlane
  | .segment => Coll.removeSegment
  | .triangle => Coll.removeTriangle
  | .disk => Coll.removeDisk
  | .ball => Coll.removeBall

end Enve.Spec
