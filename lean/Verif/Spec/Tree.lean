import Verif.Lemmas.Order

/-! # What a bounding box tree should be -/

namespace Enve
namespace Tree
variable {α : Type} [Scalar α]

mutual
/-- The boxes stored in the leaves, from left to right. -/
def leaves : Tree α → List (Box α)
  | mk b [] => b.toList
  | mk _ (c :: cs) => leaves c ++ leavesL cs
/-- The boxes stored in the leaves of a list of trees. -/
def leavesL : List (Tree α) → List (Box α)
  | [] => []
  | c :: cs => leaves c ++ leavesL cs
end

/-- A well formed bounding volume hierarchy: every node has a well formed box, and the box of an
inner node encloses the box of each of its children. -/
inductive IsHierarchy (P : α → Prop) : Tree α → Prop where
  | leaf (b : Box α) : b.WF P → IsHierarchy P (mk (some b) [])
  | node (b : Box α) (cs : List (Tree α)) : cs ≠ [] → b.WF P → (∀ c ∈ cs, IsHierarchy P c) →
      (∀ c ∈ cs, ∀ d, c.box = some d → b.Encloses d) → IsHierarchy P (mk (some b) cs)

/-- `s` occurs in `t` (as the root or further down). -/
inductive Occurs : Tree α → Tree α → Prop where
  | root (t : Tree α) : Occurs t t
  | under {s c : Tree α} (b : Option (Box α)) (cs : List (Tree α)) : c ∈ cs → Occurs s c →
      Occurs s (mk b cs)

mutual
/-- The number of nodes (leaves and inner nodes). -/
def nodes : Tree α → Nat
  | mk _ cs => 1 + nodesL cs
/-- The number of nodes of a list of trees. -/
def nodesL : List (Tree α) → Nat
  | [] => 0
  | c :: cs => nodes c + nodesL cs
end

end Tree
end Enve
