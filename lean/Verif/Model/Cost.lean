import Verif.Model.AabbTree

/-! # The work done by `acme::AABBtree` (`toolbox/src/AABBtree.cc`)

The functions of `Model/AabbTree.lean` with a counter: the number of calls of `aabb::intersects` in a query, the number of boxes
handled while the tree is built.  `Lemmas/Cost.lean` shows that the results are the same. -/

namespace Enve
open Scalar

variable {α : Type} [Scalar α]

namespace Tree

mutual
/-- `AABBtree::intersection`, `AABBtree.cc:213-264`, and the number of calls of `aabb::intersects` (line 221). -/
def interC (this tree : Tree α) (swap : Bool) : Res (List (Box α × Box α) × Nat) :=
  match this, tree with
  | mk (some b) cs, mk (some b') cs' =>
    if !(b'.intersects b) then .ok ([], 1) else
    match cs, cs' with
    | [], [] => .ok ([if swap then (b', b) else (b, b')], 1)
    | c :: cs, [] => do let r ← interListC (mk (some b') []) (c :: cs) (!swap); return (r.1, r.2 + 1)
    | [], c :: cs => do let r ← interListC (mk (some b) []) (c :: cs) swap; return (r.1, r.2 + 1)
    | c :: cs, c' :: cs' => do let r ← interAllC (c :: cs) (c' :: cs') swap; return (r.1, r.2 + 1)
  | _, _ => .ub "null m_ptrbox dereferenced"
termination_by sizeOf this + sizeOf tree

/-- The loops of cases 1 and 2, `AABBtree.cc:236-239, 246-249`. -/
def interListC (t : Tree α) (cs : List (Tree α)) (swap : Bool) : Res (List (Box α × Box α) × Nat) :=
  match cs with
  | [] => .ok ([], 0)
  | c :: cs => do
    let r ← interC t c swap
    let rs ← interListC t cs swap
    return (r.1 ++ rs.1, r.2 + rs.2)
termination_by sizeOf t + sizeOf cs

/-- The nested loops of case 3, `AABBtree.cc:256-261`. -/
def interAllC (cs ds : List (Tree α)) (swap : Bool) : Res (List (Box α × Box α) × Nat) :=
  match cs with
  | [] => .ok ([], 0)
  | c :: cs => do
    let r ← interListC c ds swap
    let rs ← interAllC cs ds swap
    return (r.1 ++ rs.1, r.2 + rs.2)
termination_by sizeOf cs + sizeOf ds
end

/-- The number of boxes that the loops of `AABBtree::build` (`AABBtree.cc:115-153`) run over, with those of the calls for
the two parts. -/
def buildWork : List (Box α) → Nat
  | [] => 0
  | [_] => 0
  | b0 :: b1 :: bs =>
    let boxes := b0 :: b1 :: bs
    let split := rebalance (partition (Box.ofBoxes boxes 0 0) boxes)
    boxes.length + buildWork split.1 + buildWork split.2
termination_by l => l.length
decreasing_by
  all_goals
    have h1 := partition_length (Box.ofBoxes (b0 :: b1 :: bs) 0 0) (b0 :: b1 :: bs)
    have h2 := rebalance_length (partition (Box.ofBoxes (b0 :: b1 :: bs) 0 0) (b0 :: b1 :: bs))
    have h3 := rebalance_pos (partition (Box.ofBoxes (b0 :: b1 :: bs) 0 0) (b0 :: b1 :: bs))
      (by rw [h1]; simp)
    simp only [List.length_cons] at h1 h2 h3 ⊢
    omega

end Tree
end Enve
