import Verif.Model.Aabb

/-! # `acme::AABBtree` (`toolbox/src/AABBtree.cc`) -/

namespace Enve
open Scalar

/-- `acme::AABBtree`: `m_ptrbox` (a possibly null shared pointer to a constant box) and
`m_children`. -/
inductive Tree (α : Type) where
  | mk (box : Option (Box α)) (children : List (Tree α))

variable {α : Type} [Scalar α]

namespace Tree

/-- `m_ptrbox`. -/
def box : Tree α → Option (Box α)
  | mk b _ => b
/-- `m_children`. -/
def children : Tree α → List (Tree α)
  | mk _ cs => cs

/-- `AABBtree::AABBtree(void)` and `AABBtree::clear`, `AABBtree.cc:58-70`. -/
def empty : Tree α := mk none []

/-- `AABBtree::isEmpty`, `AABBtree.cc:74-79`. -/
def isEmpty : Tree α → Bool
  | mk none [] => true
  | _ => false

/-- The partition of the boxes in `AABBtree::build`, `AABBtree.cc:113-153`; the result is
`(neg_boxes, pos_boxes)`.  In the third branch the code reads `min(1)`/`max(1)` (line 146), i.e.
the y coordinate, although it compares with the middle of the z range; the model does the same. -/
def partition (m : Box α) (boxes : List (Box α)) : List (Box α) × List (Box α) :=
  let dx := m.max.x -. m.min.x
  let dy := m.max.y -. m.min.y
  let dz := m.max.z -. m.min.z
  let isPos : Box α → Bool :=
    if dy <. dx && dz <. dx then
      fun b => (m.max.x +. m.min.x) /. two <. (b.min.x +. b.max.x) /. two
    else if dx <. dy && dz <. dy then
      fun b => (m.max.y +. m.min.y) /. two <. (b.min.y +. b.max.y) /. two
    else
      fun b => (m.max.z +. m.min.z) /. two <. (b.min.y +. b.max.y) /. two
  (boxes.filter fun b => !isPos b, boxes.filter isPos)

/-- The rebalancing in `AABBtree::build`, `AABBtree.cc:155-168`, on `(neg_boxes, pos_boxes)`: if one
side is empty the second half of the other one is moved to it. -/
def rebalance : List (Box α) × List (Box α) → List (Box α) × List (Box α)
  | ([], pos) => (pos.drop (pos.length / 2), pos.take (pos.length / 2))
  | (neg, []) => (neg.take (neg.length / 2), neg.drop (neg.length / 2))
  | (neg, pos) => (neg, pos)

theorem partition_length (m : Box α) (bs : List (Box α)) :
    (partition m bs).1.length + (partition m bs).2.length = bs.length := by
  unfold partition
  have h (p : Box α → Bool) : (bs.filter fun b => !p b).length + (bs.filter p).length = bs.length := by
    induction bs with
    | nil => rfl
    | cons b bs ih => by_cases hb : p b <;> simp [hb] <;> omega
  exact h _

omit [Scalar α] in
theorem rebalance_length (p : List (Box α) × List (Box α)) :
    (rebalance p).1.length + (rebalance p).2.length = p.1.length + p.2.length := by
  rcases p with ⟨_ | ⟨a, as⟩, _ | ⟨b, bs⟩⟩ <;> simp [rebalance] <;> omega

omit [Scalar α] in
theorem rebalance_pos (p : List (Box α) × List (Box α)) (h : 2 ≤ p.1.length + p.2.length) :
    0 < (rebalance p).1.length ∧ 0 < (rebalance p).2.length := by
  rcases p with ⟨_ | ⟨a, as⟩, _ | ⟨b, bs⟩⟩ <;> simp [rebalance] at * <;> omega

/-- `AABBtree::build`, `AABBtree.cc:83-182`.  A box list of length one gives a leaf sharing that
box; a longer one gives a node with the merged box and the non-empty subtrees, `neg` first. -/
def build : List (Box α) → Tree α
  | [] => empty
  | [b] => mk (some b) []
  | b0 :: b1 :: bs =>
    let boxes := b0 :: b1 :: bs
    let m := Box.ofBoxes boxes 0 0
    let split := rebalance (partition m boxes)
    let neg := build split.1
    let pos := build split.2
    mk (some m) ((if neg.isEmpty then [] else [neg]) ++ (if pos.isEmpty then [] else [pos]))
termination_by l => l.length
decreasing_by
  all_goals
    have h1 := partition_length (Box.ofBoxes (b0 :: b1 :: bs) 0 0) (b0 :: b1 :: bs)
    have h2 := rebalance_length (partition (Box.ofBoxes (b0 :: b1 :: bs) 0 0) (b0 :: b1 :: bs))
    have h3 := rebalance_pos (partition (Box.ofBoxes (b0 :: b1 :: bs) 0 0) (b0 :: b1 :: bs))
      (by rw [h1]; simp)
    simp only [List.length_cons] at h1 h2 h3 ⊢
    omega

mutual
/-- `AABBtree::intersection`, `AABBtree.cc:213-264`: the pairs appended to `intersection_list`.
Dereferencing a null `m_ptrbox` is undefined behaviour. -/
def inter (this tree : Tree α) (swap : Bool) : Res (List (Box α × Box α)) :=
  match this, tree with
  | mk (some b) cs, mk (some b') cs' =>
    if !(b'.intersects b) then .ok [] else
    match cs, cs' with
    | [], [] => .ok [if swap then (b', b) else (b, b')]
    | c :: cs, [] => interList (mk (some b') []) (c :: cs) (!swap)
    | [], c :: cs => interList (mk (some b) []) (c :: cs) swap
    | c :: cs, c' :: cs' => interAll (c :: cs) (c' :: cs') swap
  | _, _ => .ub "null m_ptrbox dereferenced"
termination_by sizeOf this + sizeOf tree

/-- The loops of cases 1 and 2, `AABBtree.cc:236-239, 246-249`. -/
def interList (t : Tree α) (cs : List (Tree α)) (swap : Bool) : Res (List (Box α × Box α)) :=
  match cs with
  | [] => .ok []
  | c :: cs => do
    let r ← inter t c swap
    let rs ← interList t cs swap
    return r ++ rs
termination_by sizeOf t + sizeOf cs

/-- The nested loops of case 3, `AABBtree.cc:256-261`. -/
def interAll (cs ds : List (Tree α)) (swap : Bool) : Res (List (Box α × Box α)) :=
  match cs with
  | [] => .ok []
  | c :: cs => do
    let r ← interList c ds swap
    let rs ← interAll cs ds swap
    return r ++ rs
termination_by sizeOf cs + sizeOf ds
end

end Tree
end Enve
