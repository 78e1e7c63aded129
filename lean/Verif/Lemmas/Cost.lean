import Verif.Model.Cost
import Verif.Lemmas.Tree

/-! # Counting does not change the result, and the counts are bounded -/

namespace Enve
namespace Tree
variable {α : Type} [Scalar α]

mutual
theorem interC_fst (a b : Tree α) (s : Bool) : (interC a b s >>= fun r => pure r.1) = inter a b s := by
  match a, b with
  | mk (some x) cs, mk (some y) ds =>
    rw [interC.eq_def, inter.eq_def]
    dsimp only
    split
    · rfl
    · match cs, ds with
      | [], [] => rfl
      | c :: cs, [] =>
        dsimp only
        rw [← interListC_fst (mk (some y) []) (c :: cs) (!s)]
        cases interListC (mk (some y) []) (c :: cs) (!s) <;> rfl
      | [], d :: ds =>
        dsimp only
        rw [← interListC_fst (mk (some x) []) (d :: ds) s]
        cases interListC (mk (some x) []) (d :: ds) s <;> rfl
      | c :: cs, d :: ds =>
        dsimp only
        rw [← interAllC_fst (c :: cs) (d :: ds) s]
        cases interAllC (c :: cs) (d :: ds) s <;> rfl
  | mk none _, _ => rw [interC.eq_def, inter.eq_def]; rfl
  | mk (some _) _, mk none _ => rw [interC.eq_def, inter.eq_def]; rfl
termination_by sizeOf a + sizeOf b

theorem interListC_fst (t : Tree α) (cs : List (Tree α)) (s : Bool) :
    (interListC t cs s >>= fun r => pure r.1) = interList t cs s := by
  match cs with
  | [] => rw [interListC, interList]; rfl
  | c :: cs =>
    rw [interListC, interList, ← interC_fst t c s, ← interListC_fst t cs s]
    cases interC t c s <;> cases interListC t cs s <;> rfl
termination_by sizeOf t + sizeOf cs

theorem interAllC_fst (cs ds : List (Tree α)) (s : Bool) :
    (interAllC cs ds s >>= fun r => pure r.1) = interAll cs ds s := by
  match cs with
  | [] => rw [interAllC, interAll]; rfl
  | c :: cs =>
    rw [interAllC, interAll, ← interListC_fst c ds s, ← interAllC_fst cs ds s]
    cases interListC c ds s <;> cases interAllC cs ds s <;> rfl
termination_by sizeOf cs + sizeOf ds
end

mutual
theorem interC_le (a b : Tree α) (s : Bool) {r} (h : interC a b s = .ok r) : r.2 ≤ a.nodes * b.nodes := by
  match a, b with
  | mk (some x) [], mk (some y) [] =>
    rw [interC.eq_def] at h
    dsimp only at h
    split at h
    · cases h; simp only [nodes, nodesL]; nlinarith [Nat.zero_le (nodesL ([] : List (Tree α))), Nat.zero_le (nodesL ([] : List (Tree α)))]
    · cases h; simp [nodes, nodesL]
  | mk (some x) (c :: cs), mk (some y) [] =>
    rw [interC.eq_def] at h
    dsimp only at h
    split at h
    · cases h; simp only [nodes, nodesL]; nlinarith [Nat.zero_le (nodesL ((c :: cs) : List (Tree α))), Nat.zero_le (nodesL ([] : List (Tree α)))]
    · rw [Res.bind_eq_ok] at h
      obtain ⟨v, hv, h⟩ := h
      cases h
      have := interListC_le (mk (some y) []) (c :: cs) (!s) hv
      simp only [nodes, nodesL] at this ⊢
      omega
  | mk (some x) [], mk (some y) (d :: ds) =>
    rw [interC.eq_def] at h
    dsimp only at h
    split at h
    · cases h; simp only [nodes, nodesL]; nlinarith [Nat.zero_le (nodesL ([] : List (Tree α))), Nat.zero_le (nodesL ((d :: ds) : List (Tree α)))]
    · rw [Res.bind_eq_ok] at h
      obtain ⟨v, hv, h⟩ := h
      cases h
      have := interListC_le (mk (some x) []) (d :: ds) s hv
      simp only [nodes, nodesL] at this ⊢
      omega
  | mk (some x) (c :: cs), mk (some y) (d :: ds) =>
    rw [interC.eq_def] at h
    dsimp only at h
    split at h
    · cases h; simp only [nodes, nodesL]; nlinarith [Nat.zero_le (nodesL ((c :: cs) : List (Tree α))), Nat.zero_le (nodesL ((d :: ds) : List (Tree α)))]
    · rw [Res.bind_eq_ok] at h
      obtain ⟨v, hv, h⟩ := h
      cases h
      have := interAllC_le (c :: cs) (d :: ds) s hv
      simp only [nodes]
      nlinarith [Nat.zero_le (nodesL ((c :: cs))), Nat.zero_le (nodesL ((d :: ds)))]
  | mk none _, _ => rw [interC.eq_def] at h; cases h
  | mk (some _) _, mk none _ => rw [interC.eq_def] at h; cases h
termination_by sizeOf a + sizeOf b

theorem interListC_le (t : Tree α) (cs : List (Tree α)) (s : Bool) {r} (h : interListC t cs s = .ok r) :
    r.2 ≤ t.nodes * nodesL cs := by
  match cs with
  | [] => rw [interListC] at h; cases h; simp
  | c :: cs =>
    rw [interListC, Res.bind_eq_ok] at h
    obtain ⟨v, hv, h⟩ := h
    rw [Res.bind_eq_ok] at h
    obtain ⟨w, hw, h⟩ := h
    cases h
    have h1 := interC_le t c s hv
    have h2 := interListC_le t cs s hw
    simp only [nodesL, Nat.mul_add]
    omega
termination_by sizeOf t + sizeOf cs

theorem interAllC_le (cs ds : List (Tree α)) (s : Bool) {r} (h : interAllC cs ds s = .ok r) :
    r.2 ≤ nodesL cs * nodesL ds := by
  match cs with
  | [] => rw [interAllC] at h; cases h; simp
  | c :: cs =>
    rw [interAllC, Res.bind_eq_ok] at h
    obtain ⟨v, hv, h⟩ := h
    rw [Res.bind_eq_ok] at h
    obtain ⟨w, hw, h⟩ := h
    cases h
    have h1 := interListC_le c ds s hv
    have h2 := interAllC_le cs ds s hw
    simp only [nodesL, Nat.add_mul]
    omega
termination_by sizeOf cs + sizeOf ds
end

/-- Unfolding of `build` and `buildWork` on two or more boxes. -/
theorem buildWork_node (b0 b1 : Box α) (bs : List (Box α)) :
    ∃ neg pos, neg ≠ [] ∧ pos ≠ [] ∧ neg.length + pos.length = (b0 :: b1 :: bs).length ∧
      build (b0 :: b1 :: bs) = mk (some (Box.ofBoxes (b0 :: b1 :: bs) 0 0)) [build neg, build pos] ∧
      buildWork (b0 :: b1 :: bs) = (b0 :: b1 :: bs).length + buildWork neg + buildWork pos ∧
      (neg, pos) = rebalance (partition (Box.ofBoxes (b0 :: b1 :: bs) 0 0) (b0 :: b1 :: bs)) := by
  obtain ⟨h1, h2, h3, h4, h5⟩ := split_spec b0 b1 bs
  refine ⟨_, _, h1, h2, ?_, ?_, ?_, rfl⟩
  · rw [← List.length_append]; exact h5.length_eq
  · rw [build_cons_cons]; simp [build_isEmpty, h1, h2]
  · rw [buildWork]

end Tree
end Enve
