import Verif.Props.SetupProps
import Verif.Props.MeshProps

/-! # Memory safety of mesh queries in any arithmetic: C15, C06 -/

namespace Enve
open Scalar Spec
variable {α : Type} [Scalar α]

namespace Tree

/-- Every node has a box. -/
inductive Full : Tree α → Prop where
  | mk (b : Box α) (cs : List (Tree α)) : (∀ c ∈ cs, Full c) → Full (mk (some b) cs)

omit [Scalar α] in
theorem Full.children_full {b : Option (Box α)} {cs : List (Tree α)} (h : Full (.mk b cs)) :
    ∀ c ∈ cs, Full c := by
  cases h with | mk _ _ h => exact h

theorem full_build (bs : List (Box α)) (hne : bs ≠ []) : (build bs).Full := by
  induction hl : bs.length using Nat.strongRecOn generalizing bs with
  | _ n ih =>
    subst hl
    match bs, hne with
    | [b], _ => rw [build]; exact .mk _ _ (by simp)
    | b0 :: b1 :: bs, _ =>
      obtain ⟨neg, pos, h1, h2, h3, h4, h5, he⟩ := build_node b0 b1 bs
      rw [he]
      refine .mk _ _ fun c hc => ?_
      simp only [List.mem_cons, List.not_mem_nil, or_false] at hc
      rcases hc with rfl | rfl
      · exact ih _ h3 neg h1 rfl
      · exact ih _ h4 pos h2 rfl

omit [Scalar α] in
theorem pair_not (swap : Bool) (b b' : Box α) : pair (!swap) b' b = pair swap b b' := by
  cases swap <;> rfl

mutual
/-- A traversal of two trees without null boxes is defined and reports pairs of boxes in the leaves,
whatever the comparisons say. -/
theorem inter_full (t u : Tree α) (swap : Bool) (ht : t.Full) (hu : u.Full) :
    ∃ out, inter t u swap = .ok out ∧
      ∀ p ∈ out, ∃ b ∈ t.leaves, ∃ b' ∈ u.leaves, p = pair swap b b' := by
  match t, u with
  | .mk none cs, _ => cases ht
  | .mk (some _) _, .mk none cs => cases hu
  | .mk (some b) cs, .mk (some b') cs' =>
    by_cases hi : b'.intersects b = true
    · match cs, cs' with
      | [], [] => exact ⟨_, inter_leaf_leaf hi, by simp [leaves]⟩
      | c :: cs, [] =>
        obtain ⟨out, h1, h2⟩ := interList_full (.mk (some b') []) (c :: cs) (!swap) hu
          ht.children_full
        refine ⟨out, (inter_node_leaf hi).trans h1, fun p hp => ?_⟩
        obtain ⟨x, hx, y, hy, rfl⟩ := h2 p hp
        exact ⟨y, by rw [leaves_cons]; exact hy, x, hx, pair_not _ _ _⟩
      | [], c :: cs =>
        obtain ⟨out, h1, h2⟩ := interList_full (.mk (some b) []) (c :: cs) swap ht hu.children_full
        refine ⟨out, (inter_leaf_node hi).trans h1, fun p hp => ?_⟩
        rw [leaves_cons _ c cs]
        exact h2 p hp
      | c :: cs, c' :: cs' =>
        obtain ⟨out, h1, h2⟩ := interAll_full (c :: cs) (c' :: cs') swap ht.children_full
          hu.children_full
        refine ⟨out, (inter_node_node hi).trans h1, fun p hp => ?_⟩
        rw [leaves_cons, leaves_cons]
        exact h2 p hp
    · exact ⟨[], inter_disjoint (by simpa using hi), by simp⟩
termination_by sizeOf t + sizeOf u

theorem interList_full (t : Tree α) (cs : List (Tree α)) (swap : Bool) (ht : t.Full)
    (hcs : ∀ c ∈ cs, c.Full) :
    ∃ out, interList t cs swap = .ok out ∧
      ∀ p ∈ out, ∃ b ∈ t.leaves, ∃ b' ∈ leavesL cs, p = pair swap b b' := by
  match cs with
  | [] => exact ⟨[], by simp [interList], by simp⟩
  | c :: cs =>
    obtain ⟨o1, h1, p1⟩ := inter_full t c swap ht (hcs c (by simp))
    obtain ⟨o2, h2, p2⟩ := interList_full t cs swap ht (fun c hc => hcs c (by simp [hc]))
    refine ⟨o1 ++ o2, by simp [interList, h1, h2], fun p hp => ?_⟩
    rcases List.mem_append.1 hp with hp | hp
    · obtain ⟨b, hb, b', hb', rfl⟩ := p1 p hp
      exact ⟨b, hb, b', by rw [leavesL]; exact List.mem_append_left _ hb', rfl⟩
    · obtain ⟨b, hb, b', hb', rfl⟩ := p2 p hp
      exact ⟨b, hb, b', by rw [leavesL]; exact List.mem_append_right _ hb', rfl⟩
termination_by sizeOf t + sizeOf cs

theorem interAll_full (cs ds : List (Tree α)) (swap : Bool) (hcs : ∀ c ∈ cs, c.Full)
    (hds : ∀ c ∈ ds, c.Full) :
    ∃ out, interAll cs ds swap = .ok out ∧
      ∀ p ∈ out, ∃ b ∈ leavesL cs, ∃ b' ∈ leavesL ds, p = pair swap b b' := by
  match cs with
  | [] => exact ⟨[], by simp [interAll], by simp⟩
  | c :: cs =>
    obtain ⟨o1, h1, p1⟩ := interList_full c ds swap (hcs c (by simp)) hds
    obtain ⟨o2, h2, p2⟩ := interAll_full cs ds swap (fun c hc => hcs c (by simp [hc])) hds
    refine ⟨o1 ++ o2, by simp [interAll, h1, h2], fun p hp => ?_⟩
    rcases List.mem_append.1 hp with hp | hp
    · obtain ⟨b, hb, b', hb', rfl⟩ := p1 p hp
      exact ⟨b, by rw [leavesL]; exact List.mem_append_left _ hb, b', hb', rfl⟩
    · obtain ⟨b, hb, b', hb', rfl⟩ := p2 p hp
      exact ⟨b, by rw [leavesL]; exact List.mem_append_right _ hb, b', hb', rfl⟩
termination_by sizeOf cs + sizeOf ds
end

end Tree

theorem Mesh.intersection_total (m : Mesh α) (hm : m.Consistent) (hne : m.triangles ≠ [])
    (q : Box α) : ∃ out, m.intersection q = .ok out ∧ ∀ t ∈ out, t ∈ m.triangles := by
  have htree : m.tree = Tree.build (m.triangles.map (·.bbox)) := by
    conv_lhs => rw [hm.built]
    rfl
  have hq : (Tree.build [q]).Full := Tree.full_build [q] (by simp)
  have hf : m.tree.Full := by rw [htree]; exact Tree.full_build _ (by simpa using hne)
  obtain ⟨pairs, h1, h2⟩ := Tree.inter_full m.tree (Tree.build [q]) false hf hq
  have hleaves : ∀ b ∈ m.tree.leaves, ∃ t ∈ m.triangles, t.bbox = b := by
    intro b hb
    rw [htree] at hb
    simpa using (Tree.leaves_build _).subset hb
  obtain ⟨t0, ht0⟩ := List.exists_mem_of_ne_nil _ hne
  let f : Box α → TriangleGround α := fun b => (m.triangles[b.id.toNat]?).getD t0
  have hlook : ∀ p ∈ pairs, m.ptrTriangleground p.1.id = .ok (f p.1) ∧ f p.1 ∈ m.triangles := by
    intro p hp
    obtain ⟨b, hb, b', -, rfl⟩ := h2 p hp
    obtain ⟨t, ht, rfl⟩ := hleaves b hb
    obtain ⟨i, hi, rfl⟩ := List.getElem_of_mem ht
    have hi' : m.triangles[i]? = some m.triangles[i] := List.getElem?_eq_getElem hi
    have hid := hm.ids i _ hi'
    simp only [Tree.pair, Bool.false_eq_true, if_false]
    rw [(hm.constructed _ ht).bbox_id, hid]
    refine ⟨?_, ?_⟩
    · simp only [ptrTriangleground, Int.natCast_nonneg, if_true, Int.toNat_natCast, hi', f,
        (hm.constructed _ ht).bbox_id, hid, Option.getD_some]
    · simp only [f, (hm.constructed _ ht).bbox_id, hid, Int.toNat_natCast, hi', Option.getD_some, ht]
  refine ⟨pairs.map fun p => f p.1, ?_, ?_⟩
  · simp [intersection, h1, lookupAll_ok m f pairs fun p hp => (hlook p hp).1]
  · intro t ht
    obtain ⟨p, hp, rfl⟩ := List.mem_map.1 ht
    exact (hlook p hp).2

/-- **C15**, in any arithmetic: whatever the coordinates in the file (NaN and infinities included) and
whatever the query box, a query on a mesh that was loaded from a file is defined and returns triangles
of that mesh. -/
theorem C15_loaded_mesh_any_partial (np : NumParse α) (m : Mesh α) (hm : m.Loaded np) (q : Box α)
    (old : List (TriangleGround α)) :
    ∃ flag out, m.query q old = .ok (flag, out) ∧ (flag = true ↔ out ≠ []) ∧
      ∀ t ∈ out, t ∈ m.triangles := by
  obtain ⟨out, h1, h2⟩ := Mesh.intersection_total m hm.consistent.1 hm.consistent.2 q
  refine ⟨decide (0 < out.length), out, by simp [Mesh.query, h1], ?_, h2⟩
  rw [decide_eq_true_eq, List.length_pos_iff]

/-- **C06**: with at most 200 ribs every setup on a mesh that was loaded from a file is defined, in any
arithmetic, for every pose and method name. -/
theorem C06_mesh_setup_partial (np : NumParse α) (s : Shell α) (h : s.Reachable .raw)
    (hn : s.size ≤ 200) (m : Mesh α) (hm : m.Loaded np) (pose : Affine α) (method : String) :
    (s.setupMesh .raw m pose method).isUb = false := by
  refine (C06_reserved_storage_partial s h hn).2.1 m pose method ?_
  obtain ⟨out, h1, -⟩ := Mesh.intersection_total m hm.consistent.1 hm.consistent.2
    (s.transform pose).updateBBox.bbox
  rw [h1]; rfl

end Enve
