import Verif.Model.AabbTree

/-! # Distance queries of `acme::AABBtree` (`toolbox/src/AABBtree.cc:268-330`) -/

namespace Enve
open Scalar

namespace Tree
variable {α : Type} [Scalar α]

mutual
/-- `AABBtree::minimumExteriorDistance`, `AABBtree.cc:268-288`.  Dereferencing a null `m_ptrbox` is
undefined behaviour. -/
def minExterior (q : V3 α) : Tree α → α → Res α
  | mk none _, _ => .ub "null m_ptrbox dereferenced"
  | mk (some b) [], d => .ok (Scalar.min (b.exteriorDistance q) d)
  | mk (some b) (c :: cs), d =>
    if d <. b.centerDistance q then .ok d else do
      let d ← minExterior q c d
      minExteriorL q cs d

/-- The loop over the children, `AABBtree.cc:283-286`. -/
def minExteriorL (q : V3 α) : List (Tree α) → α → Res α
  | [], d => .ok d
  | c :: cs, d => do
    let d ← minExterior q c d
    minExteriorL q cs d
end

mutual
/-- `AABBtree::selectLessThanDistance`, `AABBtree.cc:292-317`: the boxes appended to
`candidate_list`. -/
def selectLess (q : V3 α) (d : α) : Tree α → Res (List (Box α))
  | mk none _ => .ub "null m_ptrbox dereferenced"
  | mk (some b) [] => .ok (if b.centerDistance q <=. d then [b] else [])
  | mk (some b) (c :: cs) =>
    if b.centerDistance q <=. d then do
      let r ← selectLess q d c
      let rs ← selectLessL q d cs
      return r ++ rs
    else .ok []

/-- The loop over the children, `AABBtree.cc:310-314`. -/
def selectLessL (q : V3 α) (d : α) : List (Tree α) → Res (List (Box α))
  | [] => .ok []
  | c :: cs => do
    let r ← selectLess q d c
    let rs ← selectLessL q d cs
    return r ++ rs
end

/-- `AABBtree::selectMinimumDistance`, `AABBtree.cc:321-330`.  The constant `INFTY` (`acme.hh:112`) is a
parameter. -/
def selectMin (infty : α) (q : V3 α) (t : Tree α) : Res (List (Box α)) := do
  let d ← minExterior q t infty
  selectLess q d t

end Tree
end Enve
