import Verif.Model.Collection

/-! # Collections as objects in memory (`toolbox/src/collection.cc`)

`Model/Collection.lean` describes the members of `acme::collection` on values.  Here the collections of a program are
objects: the pointers to trees can be shared, and the output argument of a query can be the receiver or the other
argument.  The loops therefore read the vectors of the state they have reached. -/

namespace Enve
open Scalar

/-- `acme::collection`, members `m_entities` and `m_AABBtree` (`acme/collection.hxx:59-60`); the tree is reached through a
shared pointer, which is null in an object that was moved from. -/
structure CollObj where
  entities : List (Option Nat)
  tree : Option Nat

/-- The objects of a program: the entities by address (`next` and the addresses above it are free), the trees and the
collections in the order of their creation. -/
structure World (α : Type) where
  heap : Heap α
  next : Nat
  trees : List (Tree α)
  colls : List CollObj

variable {α : Type} [Scalar α]

namespace World

/-- The object `i`. -/
def get (w : World α) (i : Nat) : Res CollObj :=
  match w.colls[i]? with
  | some c => .ok c
  | none => .ub "no such object"

/-- `*m_AABBtree`. -/
def treeOf (w : World α) (c : CollObj) : Res (Tree α) :=
  match c.tree with
  | none => .ub "null tree pointer dereferenced"
  | some t => match w.trees[t]? with
    | some x => .ok x
    | none => .ub "no such tree"

/-- Assignment to `m_entities` of the object `i`. -/
def setEntities (w : World α) (i : Nat) (es : List (Option Nat)) : World α :=
  { w with colls := w.colls.modify i fun c => { c with entities := es } }

/-- `m_entities.push_back` of the object `i`. -/
def push (w : World α) (i : Nat) (p : Option Nat) : World α :=
  { w with colls := w.colls.modify i fun c => { c with entities := c.entities ++ [p] } }

/-- `collection::collection(void)` and `collection::collection(entity::vecptr &)`, `collection.cc:50-63`: a tree of its own. -/
def create (w : World α) (es : List (Option Nat)) : World α :=
  { w with trees := w.trees ++ [Tree.empty], colls := w.colls ++ [⟨es, some w.trees.length⟩] }

/-- `collection(collection const &) = default`, `acme/collection.hxx:64`: the pointer to the tree is copied.  (There is no
assignment: declaring the move constructor deletes it.) -/
def copy (w : World α) (i : Nat) : Res (World α) := do
  let c ← w.get i
  return { w with colls := w.colls ++ [c] }

/-- `collection(collection &&) = default`, `acme/collection.hxx:67`. -/
def move (w : World α) (i : Nat) : Res (World α) := do
  let c ← w.get i
  return { w with colls := w.colls.set i ⟨[], none⟩ ++ [c] }

/-- `collection::clear`, `collection.cc:67-71`. -/
def clear (w : World α) (i : Nat) : Res (World α) := do
  let _ ← w.get i
  return w.setEntities i []

/-- `collection::push_back`, `collection.cc:85-91`. -/
def pushBack (w : World α) (i : Nat) (p : Option Nat) : Res (World α) := do
  let _ ← w.get i
  return w.push i p

/-- `collection::buildAABBtree`, `collection.cc:1014-1020`: the object behind the pointer is overwritten. -/
def build (w : World α) (i : Nat) : Res (World α) := do
  let c ← w.get i
  let bs ← Coll.clampFrom w.heap 0 c.entities
  let _ ← w.treeOf c
  return { w with trees := w.trees.set (c.tree.getD 0) (Tree.build bs) }

/-- The loop of `collection::intersection(collection, collection)`, `collection.cc:1041-1045`: `i` is the receiver, `j` the
argument and `k` the output. -/
def pairsLoop (i j k : Nat) : World α → List (Box α × Box α) → Res (World α)
  | w, [] => .ok w
  | w, p :: ps => do
    let a ← Coll.at' (← w.get i).entities p.1.id
    let w := w.push k a
    let b ← Coll.at' (← w.get j).entities p.2.id
    let w := w.push k b
    pairsLoop i j k w ps

/-- `collection::intersection(collection & entities, collection & candidates)`, `collection.cc:1032-1048`; it returns whether
the output has entities afterwards. -/
def query (w : World α) (i j k : Nat) : Res (World α) := do
  let w ← w.clear k
  let t ← w.treeOf (← w.get i)
  let u ← w.treeOf (← w.get j)
  let ps ← Tree.inter t u false
  pairsLoop i j k w ps

/-- The loop of `collection::intersection(AABBtree, collection)`, `collection.cc:1062-1065`. -/
def firstLoop (i k : Nat) : World α → List (Box α × Box α) → Res (World α)
  | w, [] => .ok w
  | w, p :: ps => do
    let a ← Coll.at' (← w.get i).entities p.1.id
    firstLoop i k (w.push k a) ps

/-- `collection::intersection(AABBtree, candidates)`, `collection.cc:1052-1067`. -/
def queryTree (w : World α) (i : Nat) (u : Tree α) (k : Nat) : Res (World α) := do
  let w ← w.clear k
  let t ← w.treeOf (← w.get i)
  let ps ← Tree.inter t u false
  firstLoop i k w ps

/-- `collection::intersection(vector of boxes, candidates)` and the one with a single box, `collection.cc:1071-1095`. -/
def queryBoxes (w : World α) (i : Nat) (bs : List (Box α)) (k : Nat) : Res (World α) := w.queryTree i (Tree.build bs) k

/-- The loops of `collection::intersection(entities, tolerance)`, `collection.cc:1107-1114`, over the remaining pairs of
indices; the results are new objects.  (What an exception leaves in the output is not described.) -/
def meetPairs (i k : Nat) (tol : α) : World α → List (Nat × Nat) → Res (World α)
  | w, [] => .ok w
  | w, (m, n) :: ps => do
    let e ← Coll.deref w.heap (← Coll.at' (← w.get i).entities m)
    let f ← Coll.deref w.heap (← Coll.at' (← w.get i).entities n)
    let r ← Inter.entity e f tol
    let w : World α := { w with heap := Coll.store w.heap w.next r, next := w.next + 1 }
    meetPairs i k tol (w.push k (some (w.next - 1))) ps

/-- The pairs of indices `m ≤ n < size`, row by row. -/
def indexPairs (size : Nat) : List (Nat × Nat) :=
  (List.range size).flatMap fun m => (List.range' m (size - m)).map fun n => (m, n)

/-- `collection::intersection(entities, tolerance)`, `collection.cc:1099-1115`: the size is read before the output is
cleared. -/
def meet (w : World α) (i k : Nat) (tol : α) : Res (World α) := do
  let size := (← w.get i).entities.length
  let w ← w.clear k
  meetPairs i k tol w (indexPairs size)

/-- The calls a program makes. -/
inductive Cmd (α : Type) where
  | create (es : List (Option Nat))
  | copy (i : Nat)
  | move (i : Nat)
  | clear (i : Nat)
  | pushBack (i : Nat) (p : Option Nat)
  | build (i : Nat)
  | query (i j k : Nat)
  | queryBoxes (i : Nat) (bs : List (Box α)) (k : Nat)
  | meet (i k : Nat) (tol : α)

/-- One call. -/
def exec (w : World α) : Cmd α → Res (World α)
  | .create es => .ok (w.create es)
  | .copy i => w.copy i
  | .move i => w.move i
  | .clear i => w.clear i
  | .pushBack i p => w.pushBack i p
  | .build i => w.build i
  | .query i j k => w.query i j k
  | .queryBoxes i bs k => w.queryBoxes i bs k
  | .meet i k tol => w.meet i k tol

/-- A sequence of calls; it ends with the first exception. -/
def run (w : World α) : List (Cmd α) → Res (World α)
  | [] => .ok w
  | c :: cs => do (← w.exec c).run cs

end World
end Enve
