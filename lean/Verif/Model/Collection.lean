import Verif.Model.IntersectionMore
import Verif.Model.AabbTree

/-! # `acme::collection` (`toolbox/src/collection.cc`)

A collection is a vector of shared pointers to entities together with a bounding box tree.  The
objects live in a heap; a pointer is an address or null.  Two entries may hold the same address, and
so may two collections (`collection::intersection` hands out the pointers it found), which is why the
heap is explicit.  Dereferencing a null entry is undefined behaviour. -/

namespace Enve
open Scalar

/-- The entity objects reachable through the shared pointers of `collection` (`entity::ptr`,
`acme/entity.hxx:55`), by address. -/
abbrev Heap (α : Type) := Nat → Entity α

/-- `acme::collection`, members `m_entities` and `m_AABBtree` (`acme/collection.hxx:59-60`). -/
structure Coll (α : Type) where
  entities : List (Option Nat)
  tree : Tree α

variable {α : Type} [Scalar α]

namespace Coll

/-- `collection::collection(void)`, `collection.cc:50-53`. -/
def empty : Coll α := ⟨[], Tree.empty⟩
/-- `collection::collection(entity::vecptr &)`, `collection.cc:57-63`: no tree is built. -/
def ofEntities (es : List (Option Nat)) : Coll α := ⟨es, Tree.empty⟩
/-- `collection::clear`, `collection.cc:67-71`: the tree is kept. -/
def clear (c : Coll α) : Coll α := { c with entities := [] }
/-- `collection::resize`, `collection.cc:75-81` (a negative size is converted to a huge `size_t` and
throws `std::length_error`; new entries are null). -/
def resize (c : Coll α) (n : Int) : Res (Coll α) :=
  if n < 0 then .throw "std::length_error"
  else .ok ⟨c.entities.take n.toNat ++ List.replicate (n.toNat - c.entities.length) none, c.tree⟩
/-- `collection::push_back`, `collection.cc:85-91`. -/
def pushBack (c : Coll α) (p : Option Nat) : Coll α := { c with entities := c.entities ++ [p] }
/-- `collection::operator[]`, `collection.cc:95-112`: an unchecked access to a `std::vector`. -/
def at' (es : List (Option Nat)) (i : Int) : Res (Option Nat) :=
  if i < 0 then .ub "vector index out of range" else
  match es[i.toNat]? with
  | some p => .ok p
  | none => .ub "vector index out of range"
/-- Dereferencing an `entity::ptr`. -/
def deref (h : Heap α) : Option Nat → Res (Entity α)
  | some a => .ok (h a)
  | none => .ub "null entity pointer dereferenced"

/-- Replace the object at one address. -/
def store (h : Heap α) (a : Nat) (e : Entity α) : Heap α := fun b => if b = a then e else h b

/-- The loops of `collection::translate`, `rotate` and `transform`, `collection.cc:116-152`: the
objects are modified in place, one entry after the other. -/
def mapLoop (g : Entity α → Entity α) : Heap α → List (Option Nat) → Res (Heap α)
  | h, [] => .ok h
  | _, none :: _ => .ub "null entity pointer dereferenced"
  | h, some a :: ps => mapLoop g (store h a (g (h a))) ps

/-- `collection::translate`, `collection.cc:116-125`. -/
def translate (h : Heap α) (c : Coll α) (v : V3 α) : Res (Heap α) :=
  mapLoop (Entity.translate v) h c.entities
/-- `collection::rotate`, `collection.cc:129-139`. -/
def rotate (h : Heap α) (c : Coll α) (angle : α) (axis : V3 α) : Res (Heap α) :=
  mapLoop (Entity.rotate angle axis) h c.entities
/-- `collection::transform`, `collection.cc:143-152`. -/
def transform (h : Heap α) (c : Coll α) (m : Affine α) : Res (Heap α) :=
  mapLoop (Entity.transform m) h c.entities

/-! ## Queries by kind -/

/-- The loop `for … if (p) return true; return false` of the `contain…` functions. -/
def anyLoop (h : Heap α) (p : Entity α → Bool) : List (Option Nat) → Res Bool
  | [] => .ok false
  | x :: xs => do
    let e ← deref h x
    if p e then return true else anyLoop h p xs
/-- The loop `for … if (!p) return false; return true` of the `are…` functions. -/
def allLoop (h : Heap α) (p : Entity α → Bool) : List (Option Nat) → Res Bool
  | [] => .ok true
  | x :: xs => do
    let e ← deref h x
    if !p e then return false else allLoop h p xs
/-- The loop of the `count…` functions. -/
def countLoop (h : Heap α) (p : Entity α → Bool) : List (Option Nat) → Res Int
  | [] => .ok 0
  | x :: xs => do
    let e ← deref h x
    let n ← countLoop h p xs
    return (if p e then 1 else 0) + n
/-- The body of the `is…(i)` functions. -/
def testAt (h : Heap α) (p : Entity α → Bool) (es : List (Option Nat)) (i : Int) : Res Bool := do
  let x ← at' es i
  let e ← deref h x
  return p e

/-- `std::remove_if` on a vector of shared pointers.  The vector is `kept ++ hole ++ rest`, where
`kept` ends at the write position and `rest` starts at the read position: an entry to be kept is moved
to the write position, which leaves a null pointer behind; an entry to be removed stays where it is. -/
def removeIf (h : Heap α) (p : Entity α → Bool) :
    List (Option Nat) → List (Option Nat) → List (Option Nat) → Res (List (Option Nat))
  | kept, hole, [] => .ok (kept ++ hole)
  | kept, hole, x :: rest => do
    let e ← deref h x
    if p e then removeIf h p kept (hole ++ [x]) rest
    else match hole with
      | [] => removeIf h p (kept ++ [x]) [] rest
      | _ :: hole => removeIf h p (kept ++ [x]) (hole ++ [none]) rest

/-- The body of the `remove…` functions: `std::remove_if` without a following `erase`, so the length
of the vector does not change. -/
def removeWith (h : Heap α) (p : Entity α → Bool) (c : Coll α) : Res (Coll α) := do
  let es ← removeIf h p [] [] c.entities
  return { c with entities := es }

/-! ### None -/

/-- `collection::containNone`, `collection.cc:156-166`. -/
def containNone (h : Heap α) (c : Coll α) : Res Bool := anyLoop h Entity.isNone c.entities
/-- `collection::areNone`, `collection.cc:170-180`. -/
def areNone (h : Heap α) (c : Coll α) : Res Bool := allLoop h Entity.isNone c.entities
/-- `collection::isNone`, `collection.cc:184-191`. -/
def isNone (h : Heap α) (c : Coll α) (i : Int) : Res Bool := testAt h Entity.isNone c.entities i
/-- `collection::removeNone`, `collection.cc:195-203`. -/
def removeNone (h : Heap α) (c : Coll α) : Res (Coll α) := removeWith h Entity.isNone c
/-- `collection::countNone`, `collection.cc:207-218`. -/
def countNone (h : Heap α) (c : Coll α) : Res Int := countLoop h Entity.isNone c.entities

/-! ### Point -/

/-- `collection::containPoint`, `collection.cc:222-232`. -/
def containPoint (h : Heap α) (c : Coll α) : Res Bool := anyLoop h Entity.isPoint c.entities
/-- `collection::arePoint`, `collection.cc:236-246`. -/
def arePoint (h : Heap α) (c : Coll α) : Res Bool := allLoop h Entity.isPoint c.entities
/-- `collection::isPoint`, `collection.cc:250-257`. -/
def isPoint (h : Heap α) (c : Coll α) (i : Int) : Res Bool := testAt h Entity.isPoint c.entities i
/-- `collection::removePoint`, `collection.cc:261-269`. -/
def removePoint (h : Heap α) (c : Coll α) : Res (Coll α) := removeWith h Entity.isPoint c
/-- `collection::countPoint`, `collection.cc:273-284`. -/
def countPoint (h : Heap α) (c : Coll α) : Res Int := countLoop h Entity.isPoint c.entities

/-! ### Line -/

/-- `collection::containLine`, `collection.cc:288-298`. -/
def containLine (h : Heap α) (c : Coll α) : Res Bool := anyLoop h Entity.isLine c.entities
/-- `collection::areLine`, `collection.cc:302-312`. -/
def areLine (h : Heap α) (c : Coll α) : Res Bool := allLoop h Entity.isLine c.entities
/-- `collection::isLine`, `collection.cc:316-323`. -/
def isLine (h : Heap α) (c : Coll α) (i : Int) : Res Bool := testAt h Entity.isLine c.entities i
/-- `collection::removeLine`, `collection.cc:327-335`. -/
def removeLine (h : Heap α) (c : Coll α) : Res (Coll α) := removeWith h Entity.isLine c
/-- `collection::countLine`, `collection.cc:339-350`. -/
def countLine (h : Heap α) (c : Coll α) : Res Int := countLoop h Entity.isLine c.entities

/-! ### Ray -/

/-- `collection::containRay`, `collection.cc:354-364`. -/
def containRay (h : Heap α) (c : Coll α) : Res Bool := anyLoop h Entity.isRay c.entities
/-- `collection::areRay`, `collection.cc:368-378`. -/
def areRay (h : Heap α) (c : Coll α) : Res Bool := allLoop h Entity.isRay c.entities
/-- `collection::isRay`, `collection.cc:382-389`. -/
def isRay (h : Heap α) (c : Coll α) (i : Int) : Res Bool := testAt h Entity.isRay c.entities i
/-- `collection::removeRay`, `collection.cc:393-401`. -/
def removeRay (h : Heap α) (c : Coll α) : Res (Coll α) := removeWith h Entity.isRay c
/-- `collection::countRay`, `collection.cc:405-416`. -/
def countRay (h : Heap α) (c : Coll α) : Res Int := countLoop h Entity.isRay c.entities

/-! ### Plane -/

/-- `collection::containPlane`, `collection.cc:420-430`. -/
def containPlane (h : Heap α) (c : Coll α) : Res Bool := anyLoop h Entity.isPlane c.entities
/-- `collection::arePlane`, `collection.cc:434-444`. -/
def arePlane (h : Heap α) (c : Coll α) : Res Bool := allLoop h Entity.isPlane c.entities
/-- `collection::isPlane`, `collection.cc:448-454`. -/
def isPlane (h : Heap α) (c : Coll α) (i : Int) : Res Bool := testAt h Entity.isPlane c.entities i
/-- `collection::removePlane`, `collection.cc:458-466`. -/
def removePlane (h : Heap α) (c : Coll α) : Res (Coll α) := removeWith h Entity.isPlane c
/-- `collection::countPlane`, `collection.cc:470-481`. -/
def countPlane (h : Heap α) (c : Coll α) : Res Int := countLoop h Entity.isPlane c.entities

/-! ### Segment -/

/-- `collection::containSegment`, `collection.cc:485-495`. -/
def containSegment (h : Heap α) (c : Coll α) : Res Bool := anyLoop h Entity.isSegment c.entities
/-- `collection::areSegment`, `collection.cc:499-509`: the predicate is `isBall`. -/
def areSegment (h : Heap α) (c : Coll α) : Res Bool := allLoop h Entity.isBall c.entities
/-- `collection::isSegment`, `collection.cc:513-520`. -/
def isSegment (h : Heap α) (c : Coll α) (i : Int) : Res Bool := testAt h Entity.isSegment c.entities i
/-- `collection::removeSegment`, `collection.cc:524-532`. -/
def removeSegment (h : Heap α) (c : Coll α) : Res (Coll α) := removeWith h Entity.isSegment c
/-- `collection::countSegment`, `collection.cc:536-547`. -/
def countSegment (h : Heap α) (c : Coll α) : Res Int := countLoop h Entity.isSegment c.entities

/-! ### Triangle -/

/-- `collection::containTriangle`, `collection.cc:551-561`. -/
def containTriangle (h : Heap α) (c : Coll α) : Res Bool := anyLoop h Entity.isTriangle c.entities
/-- `collection::areTriangle`, `collection.cc:565-575`. -/
def areTriangle (h : Heap α) (c : Coll α) : Res Bool := allLoop h Entity.isTriangle c.entities
/-- `collection::isTriangle`, `collection.cc:579-586`. -/
def isTriangle (h : Heap α) (c : Coll α) (i : Int) : Res Bool := testAt h Entity.isTriangle c.entities i
/-- `collection::removeTriangle`, `collection.cc:590-598`. -/
def removeTriangle (h : Heap α) (c : Coll α) : Res (Coll α) := removeWith h Entity.isTriangle c
/-- `collection::countTriangle`, `collection.cc:602-613`. -/
def countTriangle (h : Heap α) (c : Coll α) : Res Int := countLoop h Entity.isTriangle c.entities

/-! ### Disk -/

/-- `collection::containDisk`, `collection.cc:617-627`. -/
def containDisk (h : Heap α) (c : Coll α) : Res Bool := anyLoop h Entity.isDisk c.entities
/-- `collection::areDisk`, `collection.cc:631-641`. -/
def areDisk (h : Heap α) (c : Coll α) : Res Bool := allLoop h Entity.isDisk c.entities
/-- `collection::isDisk`, `collection.cc:645-652`. -/
def isDisk (h : Heap α) (c : Coll α) (i : Int) : Res Bool := testAt h Entity.isDisk c.entities i
/-- `collection::removeDisk`, `collection.cc:656-664`. -/
def removeDisk (h : Heap α) (c : Coll α) : Res (Coll α) := removeWith h Entity.isDisk c
/-- `collection::countDisk`, `collection.cc:668-679`. -/
def countDisk (h : Heap α) (c : Coll α) : Res Int := countLoop h Entity.isDisk c.entities

/-! ### Ball -/

/-- `collection::containBall`, `collection.cc:683-693`. -/
def containBall (h : Heap α) (c : Coll α) : Res Bool := anyLoop h Entity.isBall c.entities
/-- `collection::areBall`, `collection.cc:697-707`. -/
def areBall (h : Heap α) (c : Coll α) : Res Bool := allLoop h Entity.isBall c.entities
/-- `collection::isBall`, `collection.cc:711-718`. -/
def isBall (h : Heap α) (c : Coll α) (i : Int) : Res Bool := testAt h Entity.isBall c.entities i
/-- `collection::removeBall`, `collection.cc:722-730`. -/
def removeBall (h : Heap α) (c : Coll α) : Res (Coll α) := removeWith h Entity.isBall c
/-- `collection::countBall`, `collection.cc:734-745`. -/
def countBall (h : Heap α) (c : Coll α) : Res Int := countLoop h Entity.isBall c.entities

/-! ### Degenerated -/

/-- `collection::containDegenerated`, `collection.cc:749-761`: the body is that of `areDegenerated`. -/
def containDegenerated (h : Heap α) (c : Coll α) (tol : α) : Res Bool := allLoop h (Entity.isDegenerated tol) c.entities
/-- `collection::areDegenerated`, `collection.cc:765-777`. -/
def areDegenerated (h : Heap α) (c : Coll α) (tol : α) : Res Bool := allLoop h (Entity.isDegenerated tol) c.entities
/-- `collection::isDegenerated`, `collection.cc:781-789`. -/
def isDegenerated (h : Heap α) (c : Coll α) (i : Int) (tol : α) : Res Bool := testAt h (Entity.isDegenerated tol) c.entities i
/-- `collection::removeDegenerated`, `collection.cc:793-803`. -/
def removeDegenerated (h : Heap α) (c : Coll α) (tol : α) : Res (Coll α) := removeWith h (Entity.isDegenerated tol) c
/-- `collection::countDegenerated`, `collection.cc:807-820`. -/
def countDegenerated (h : Heap α) (c : Coll α) (tol : α) : Res Int := countLoop h (Entity.isDegenerated tol) c.entities

/-! ### Clampable -/

/-- `collection::containClampable`, `collection.cc:824-834`. -/
def containClampable (h : Heap α) (c : Coll α) : Res Bool := anyLoop h Entity.isClampable c.entities
/-- `collection::areClampable`, `collection.cc:838-848`. -/
def areClampable (h : Heap α) (c : Coll α) : Res Bool := allLoop h Entity.isClampable c.entities
/-- `collection::isClampable`, `collection.cc:852-859`. -/
def isClampable (h : Heap α) (c : Coll α) (i : Int) : Res Bool := testAt h Entity.isClampable c.entities i
/-- `collection::removeClampable`, `collection.cc:863-871`. -/
def removeClampable (h : Heap α) (c : Coll α) : Res (Coll α) := removeWith h Entity.isClampable c
/-- `collection::countClampable`, `collection.cc:875-886`. -/
def countClampable (h : Heap α) (c : Coll α) : Res Int := countLoop h Entity.isClampable c.entities

/-! ### NonClampable -/

/-- `collection::containNonClampable`, `collection.cc:890-900`. -/
def containNonClampable (h : Heap α) (c : Coll α) : Res Bool := anyLoop h Entity.isNonClampable c.entities
/-- `collection::areNonClampable`, `collection.cc:904-914`. -/
def areNonClampable (h : Heap α) (c : Coll α) : Res Bool := allLoop h Entity.isNonClampable c.entities
/-- `collection::isNonClampable`, `collection.cc:918-925`. -/
def isNonClampable (h : Heap α) (c : Coll α) (i : Int) : Res Bool := testAt h Entity.isNonClampable c.entities i
/-- `collection::removeNonClampable`, `collection.cc:929-937`. -/
def removeNonClampable (h : Heap α) (c : Coll α) : Res (Coll α) := removeWith h Entity.isNonClampable c
/-- `collection::countNonClampable`, `collection.cc:941-952`: counts the entities that are not non-clampable. -/
def countNonClampable (h : Heap α) (c : Coll α) : Res Int := countLoop h (fun e => !Entity.isNonClampable e) c.entities

/-- `collection::size`, `collection.cc:956-961`. -/
def size (c : Coll α) : Int := c.entities.length

/-- `collection::count`, `collection.cc:965-983`: the table of counts, in the order in which they are
computed (a `std::map` iterates over it in the order of the keys). -/
def count (h : Heap α) (c : Coll α) (tol : α) : Res (List (String × Int)) := do
  let none ← c.countNone h
  let point ← c.countPoint h
  let line ← c.countLine h
  let ray ← c.countRay h
  let plane ← c.countPlane h
  let segment ← c.countSegment h
  let triangle ← c.countTriangle h
  let disk ← c.countDisk h
  let ball ← c.countBall h
  let degenerated ← c.countDegenerated h tol
  let clampable ← c.countClampable h
  let nonClampable ← c.countNonClampable h
  return [("none", none), ("point", point), ("line", line), ("ray", ray), ("plane", plane),
    ("segment", segment), ("triangle", triangle), ("disk", disk), ("ball", ball),
    ("degenerated", degenerated), ("clampable", clampable), ("non-clampable", nonClampable)]

/-! ## Bounding boxes and spatial queries -/

/-- The loop of `collection::clamp`, `collection.cc:987-1010`, from index `i` on. -/
def clampFrom (h : Heap α) : Nat → List (Option Nat) → Res (List (Box α))
  | _, [] => .ok []
  | i, x :: xs => do
    let e ← deref h x
    match e.clamp with
    | none => .throw "non-clampable object detected."
    | some (lo, hi) => do
      let bs ← clampFrom h (i + 1) xs
      return Box.mk' lo hi i 0 :: bs

/-- `collection::clamp`, `collection.cc:987-1010`. -/
def clamp (h : Heap α) (c : Coll α) : Res (List (Box α)) := clampFrom h 0 c.entities

/-- `collection::buildAABBtree`, `collection.cc:1014-1020`. -/
def buildTree (h : Heap α) (c : Coll α) : Res (Coll α) := do
  let bs ← c.clamp h
  return { c with tree := Tree.build bs }

/-- The loop of `collection::intersection(collection, collection)`, `collection.cc:1041-1045`. -/
def pickPairs (es fs : List (Option Nat)) : List (Box α × Box α) → Res (List (Option Nat))
  | [] => .ok []
  | p :: ps => do
    let a ← at' es p.1.id
    let b ← at' fs p.2.id
    let rest ← pickPairs es fs ps
    return a :: b :: rest

/-- The loop of `collection::intersection(AABBtree, collection)`, `collection.cc:1062-1065`. -/
def pickFirst (es : List (Option Nat)) : List (Box α × Box α) → Res (List (Option Nat))
  | [] => .ok []
  | p :: ps => do
    let a ← at' es p.1.id
    let rest ← pickFirst es ps
    return a :: rest

/-- `collection::intersection(collection & entities, collection & candidates)`,
`collection.cc:1032-1048`: the pointers stored in `candidates`.  The returned flag says whether there
are any. -/
def intersectColl (c d : Coll α) : Res (List (Option Nat)) := do
  let ps ← Tree.inter c.tree d.tree false
  pickPairs c.entities d.entities ps

/-- `collection::intersection(AABBtree, candidates)`, `collection.cc:1052-1067`. -/
def intersectTree (c : Coll α) (t : Tree α) : Res (List (Option Nat)) := do
  let ps ← Tree.inter c.tree t false
  pickFirst c.entities ps

/-- `collection::intersection(vector of boxes, candidates)`, `collection.cc:1071-1081`. -/
def intersectBoxes (c : Coll α) (bs : List (Box α)) : Res (List (Option Nat)) :=
  c.intersectTree (Tree.build bs)

/-- `collection::intersection(box, candidates)`, `collection.cc:1085-1095`. -/
def intersectBox (c : Coll α) (b : Box α) : Res (List (Option Nat)) := c.intersectBoxes [b]

/-- The inner loop of `collection::intersection(entities, tolerance)`, `collection.cc:1109-1112`. -/
def meetLoop (h : Heap α) (tol : α) (x : Option Nat) : List (Option Nat) → Res (List (Entity α))
  | [] => .ok []
  | y :: ys => do
    let e ← deref h x
    let f ← deref h y
    let r ← Inter.entity e f tol
    let rs ← meetLoop h tol x ys
    return r :: rs

/-- `collection::intersection(entities, tolerance)`, `collection.cc:1099-1115`: the new entities
pushed to the output collection, for all pairs `i ≤ j`. -/
def meetAll (h : Heap α) (tol : α) : List (Option Nat) → Res (List (Entity α))
  | [] => .ok []
  | x :: xs => do
    let r ← meetLoop h tol x (x :: xs)
    let rs ← meetAll h tol xs
    return r ++ rs

end Coll
end Enve
