import Verif.Model.CollectionStore
import Verif.Spec.Collection

/-! # What can be said about one of several collections -/

namespace Enve.Spec
open Enve.World

variable {α : Type}

/-- The collection `i` as a value: its entities and its tree.  There is none when it was never created, or was moved from. -/
def view (w : World α) (i : Nat) : Option (Coll α) :=
  match w.colls[i]? with
  | some c => match c.tree with
    | some t => (w.trees[t]?).map fun x => ⟨c.entities, x⟩
    | none => none
  | none => none

/-- A program that has made no call yet. -/
def start (h : Heap α) (n : Nat) : World α := ⟨h, n, [], []⟩

/-- The collections a call is meant to change. -/
def Writes : Cmd α → Nat → Prop
  | .create _, _ => False
  | .copy _, _ => False
  | .move i, j => j = i
  | .clear i, j => j = i
  | .pushBack i _, j => j = i
  | .build i, j => j = i
  | .query _ _ k, j => j = k
  | .queryBoxes _ _ k, j => j = k
  | .meet _ k _, j => j = k

/-- The call is a copy construction. -/
def IsCopy : Cmd α → Prop
  | .copy _ => True
  | _ => False

end Enve.Spec
