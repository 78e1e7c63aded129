import Verif.Model.AabbTree

/-! # The height of a tree, and the inner nodes that a box meets -/

namespace Enve
namespace Tree
variable {α : Type}

mutual
/-- The number of nodes on the longest way from the root to a leaf. -/
def height : Tree α → Nat
  | mk _ cs => 1 + heightL cs
/-- The largest height of a list of trees. -/
def heightL : List (Tree α) → Nat
  | [] => 0
  | c :: cs => max (height c) (heightL cs)
end

mutual
/-- The number of inner nodes whose box has a property. -/
def innerWith (p : Box α → Prop) [DecidablePred p] : Tree α → Nat
  | mk _ [] => 0
  | mk none (_ :: _) => 0
  | mk (some b) (c :: cs) => (if p b then 1 else 0) + innerWithL p (c :: cs)
/-- The same for a list of trees. -/
def innerWithL (p : Box α → Prop) [DecidablePred p] : List (Tree α) → Nat
  | [] => 0
  | c :: cs => innerWith p c + innerWithL p cs
end

end Tree
end Enve
