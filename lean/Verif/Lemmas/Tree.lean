import Verif.Spec.Tree

/-! # The bounding box tree: construction and traversal -/

namespace Enve
namespace Tree
open Scalar
variable {α : Type} [Scalar α] {P : α → Prop}

omit [Scalar α] in
theorem leaves_cons (b : Option (Box α)) (c : Tree α) (cs : List (Tree α)) :
    leaves (mk b (c :: cs)) = leavesL (c :: cs) := by simp [leaves, leavesL]

omit [Scalar α] in
theorem mem_leavesL {d : Box α} {cs : List (Tree α)} :
    d ∈ leavesL cs ↔ ∃ c ∈ cs, d ∈ leaves c := by
  induction cs with
  | nil => simp [leavesL]
  | cons c cs ih => simp [leavesL, ih]

theorem IsHierarchy.box_WF {t : Tree α} (h : t.IsHierarchy P) : ∃ b, t.box = some b ∧ b.WF P := by
  cases h with
  | leaf b hb => exact ⟨b, rfl, hb⟩
  | node b cs _ hb _ _ => exact ⟨b, rfl, hb⟩

/-- In a hierarchy the root box encloses all leaves. -/
theorem IsHierarchy.encloses (ho : OrderOn P) {t : Tree α} (h : t.IsHierarchy P) :
    ∀ b, t.box = some b → ∀ d ∈ t.leaves, d.WF P ∧ b.Encloses d := by
  induction h with
  | leaf b hb =>
    intro b' hb' d hd
    simp [box] at hb'; simp [leaves] at hd; subst hb' hd
    exact ⟨hb, .refl ho hb⟩
  | node b cs hne hb hcs henc ih =>
    intro b' hb' d hd
    simp [box] at hb'; subst hb'
    cases cs with
    | nil => exact absurd rfl hne
    | cons c cs =>
      rw [leaves_cons, mem_leavesL] at hd
      obtain ⟨c', hc', hd⟩ := hd
      obtain ⟨e, he, heW⟩ := (hcs c' hc').box_WF
      obtain ⟨h1, h2⟩ := ih c' hc' e he d hd
      exact ⟨h1, .trans ho hb heW h1 (henc c' hc' e he) h2⟩

/-! ## Construction -/

omit [Scalar α] in
theorem rebalance_perm (p : List (Box α) × List (Box α)) :
    ((rebalance p).1 ++ (rebalance p).2).Perm (p.1 ++ p.2) := by
  rcases p with ⟨_ | ⟨a, as⟩, _ | ⟨b, bs⟩⟩
  · simp [rebalance]
  · simp only [rebalance, List.nil_append]
    exact List.perm_append_comm.trans (by rw [List.take_append_drop])
  · simp only [rebalance, List.append_nil]
    rw [List.take_append_drop]
  · simp [rebalance]

theorem partition_perm (m : Box α) (bs : List (Box α)) :
    ((partition m bs).1 ++ (partition m bs).2).Perm bs := by
  unfold partition
  have h (p : Box α → Bool) : ((bs.filter fun b => !p b) ++ bs.filter p).Perm bs := by
    exact List.perm_append_comm.trans (List.filter_append_perm p bs)
  exact h _

theorem build_cons_cons (b0 b1 : Box α) (bs : List (Box α)) :
    build (b0 :: b1 :: bs) =
      (let m := Box.ofBoxes (b0 :: b1 :: bs) 0 0
       let split := rebalance (partition m (b0 :: b1 :: bs))
       mk (some m) ((if (build split.1).isEmpty then [] else [build split.1]) ++
        (if (build split.2).isEmpty then [] else [build split.2]))) := by
  rw [build]

theorem build_isEmpty (bs : List (Box α)) : (build bs).isEmpty = bs.isEmpty := by
  match bs with
  | [] => simp [build, empty, isEmpty]
  | [b] => simp [build, isEmpty]
  | b0 :: b1 :: bs => simp [build_cons_cons, isEmpty]

/-- The two parts of a longer list are non-empty, shorter, and together a rearrangement of it. -/
theorem split_spec (b0 b1 : Box α) (bs : List (Box α)) :
    let l := b0 :: b1 :: bs
    let split := rebalance (partition (Box.ofBoxes l 0 0) l)
    split.1 ≠ [] ∧ split.2 ≠ [] ∧ split.1.length < l.length ∧ split.2.length < l.length ∧
      (split.1 ++ split.2).Perm l := by
  intro l split
  have h1 := partition_length (Box.ofBoxes l 0 0) l
  have h2 := rebalance_length (partition (Box.ofBoxes l 0 0) l)
  have h3 := rebalance_pos (partition (Box.ofBoxes l 0 0) l) (by rw [h1]; simp [l])
  have hp := (rebalance_perm (partition (Box.ofBoxes l 0 0) l)).trans (partition_perm _ _)
  refine ⟨List.length_pos_iff.mp h3.1, List.length_pos_iff.mp h3.2, ?_, ?_, hp⟩ <;>
    simp only [split] <;> omega

/-- Unfolding of `build` on two or more boxes. -/
theorem build_node (b0 b1 : Box α) (bs : List (Box α)) :
    ∃ neg pos, neg ≠ [] ∧ pos ≠ [] ∧ neg.length < (b0 :: b1 :: bs).length ∧
      pos.length < (b0 :: b1 :: bs).length ∧ (neg ++ pos).Perm (b0 :: b1 :: bs) ∧
      build (b0 :: b1 :: bs) =
        mk (some (Box.ofBoxes (b0 :: b1 :: bs) 0 0)) [build neg, build pos] := by
  obtain ⟨h1, h2, h3, h4, h5⟩ := split_spec b0 b1 bs
  refine ⟨_, _, h1, h2, h3, h4, h5, ?_⟩
  rw [build_cons_cons]
  simp [build_isEmpty, h1, h2]

/-- No box is lost or duplicated by `build`. -/
theorem leaves_build (bs : List (Box α)) : (build bs).leaves.Perm bs := by
  induction h : bs.length using Nat.strongRecOn generalizing bs with
  | _ n ih =>
    subst h
    match bs with
    | [] => simp [build, empty, leaves]
    | [b] => simp [build, leaves]
    | b0 :: b1 :: bs =>
      obtain ⟨neg, pos, -, -, h3, h4, h5, e⟩ := build_node b0 b1 bs
      rw [e]
      simp only [leaves, leavesL, List.append_nil]
      exact ((ih _ h3 neg rfl).append (ih _ h4 pos rfl)).trans h5

/-- `build` yields a hierarchy. -/
theorem build_isHierarchy (ho : OrderOn P) (bs : List (Box α)) (hne : bs ≠ [])
    (h : ∀ b ∈ bs, b.WF P) : (build bs).IsHierarchy P := by
  induction hl : bs.length using Nat.strongRecOn generalizing bs with
  | _ n ih =>
    subst hl
    match bs with
    | [] => exact absurd rfl hne
    | [b] => rw [build]; exact .leaf b (h b (by simp))
    | b0 :: b1 :: bs =>
      obtain ⟨neg, pos, h1, h2, h3, h4, h5, e⟩ := build_node b0 b1 bs
      obtain ⟨w, henc⟩ := Box.ofBoxes_spec ho (b0 :: b1 :: bs) (by simp) h 0 0
      have hn : ∀ b ∈ neg, b ∈ b0 :: b1 :: bs := fun b hb => h5.subset (by simp [hb])
      have hp : ∀ b ∈ pos, b ∈ b0 :: b1 :: bs := fun b hb => h5.subset (by simp [hb])
      have key : ∀ l : List (Box α), l ≠ [] → (∀ b ∈ l, b ∈ b0 :: b1 :: bs) →
          ∀ d, (build l).box = some d → (Box.ofBoxes (b0 :: b1 :: bs) 0 0).Encloses d := by
        intro l hl hsub d hd
        have hmerge : ∀ l' : List (Box α), l' ≠ [] → (∀ b ∈ l', b ∈ b0 :: b1 :: bs) →
            (Box.ofBoxes (b0 :: b1 :: bs) 0 0).Encloses (Box.ofBoxes l' 0 0) := by
          intro l' hl' hs
          exact Box.ofBoxes_mono ho _ _ hl' (by simp) h hs
        match l with
        | [] => exact absurd rfl hl
        | [b] => simp [build, box] at hd; subst hd; exact henc _ (hsub _ (by simp))
        | c0 :: c1 :: cs =>
          obtain ⟨_, _, -, -, -, -, -, e'⟩ := build_node c0 c1 cs
          rw [e'] at hd; simp [box] at hd; subst hd
          exact hmerge _ hl hsub
      rw [e]
      refine .node _ _ (by simp) w ?_ ?_
      · intro c hc
        simp at hc
        rcases hc with rfl | rfl
        · exact ih _ h3 neg h1 (fun b hb => h b (hn b hb)) rfl
        · exact ih _ h4 pos h2 (fun b hb => h b (hp b hb)) rfl
      · intro c hc
        simp at hc
        rcases hc with rfl | rfl
        · exact key neg h1 hn
        · exact key pos h2 hp

/-! ## Traversal -/

/-- The pair reported for two leaves. -/
def pair (swap : Bool) (b b' : Box α) : Box α × Box α := if swap then (b', b) else (b, b')

/-- All pairs of overlapping leaves of two trees, by brute force. -/
def brute (swap : Bool) (l l' : List (Box α)) : List (Box α × Box α) :=
  l.flatMap fun b => (l'.filter fun b' => b.intersects b').map (pair swap b)

theorem brute_append_left (swap : Bool) (k l l' : List (Box α)) :
    brute swap (k ++ l) l' = brute swap k l' ++ brute swap l l' := by simp [brute]

theorem brute_append_right (swap : Bool) (l k k' : List (Box α)) :
    (brute swap l (k ++ k')).Perm (brute swap l k ++ brute swap l k') := by
  induction l with
  | nil => simp [brute]
  | cons b l ih =>
    simp only [brute, List.flatMap_cons, List.filter_append, List.map_append] at ih ⊢
    refine ((List.Perm.refl _).append ih).trans ?_
    simp only [List.append_assoc]
    refine (List.Perm.refl _).append ?_
    rw [← List.append_assoc, ← List.append_assoc]
    exact List.perm_append_comm.append_right _

theorem brute_nil_right (swap : Bool) (l : List (Box α)) : brute swap l [] = [] := by
  simp [brute]

theorem brute_comm (swap : Bool) (l l' : List (Box α)) :
    (brute swap l l').Perm (brute (!swap) l' l) := by
  induction l with
  | nil => simp [brute]
  | cons b l ih =>
    have e : brute swap (b :: l) l' = brute swap [b] l' ++ brute swap l l' := by simp [brute]
    rw [e]
    have h2 := brute_append_right (!swap) l' [b] l
    refine List.Perm.trans ?_ h2.symm
    refine List.Perm.append ?_ ih
    have : brute swap [b] l' = brute (!swap) l' [b] := by
      clear ih e h2
      induction l' with
      | nil => simp [brute]
      | cons c l' ih =>
        simp only [brute, List.flatMap_cons, List.flatMap_nil, List.append_nil] at ih ⊢
        rw [← ih, List.filter_cons]
        cases h : b.intersects c <;> cases swap <;> simp [pair, h, Box.intersects_comm c b]
    rw [this]

theorem brute_perm (swap : Bool) {l k : List (Box α)} (h : l.Perm k) (l' : List (Box α)) :
    (brute swap l l').Perm (brute swap k l') := by
  unfold brute; exact h.flatMap_right _

theorem brute_eq_nil {swap : Bool} {l l' : List (Box α)}
    (h : ∀ b ∈ l, ∀ b' ∈ l', b.intersects b' = false) : brute swap l l' = [] := by
  unfold brute
  rw [List.flatMap_eq_nil_iff]
  intro b hb
  rw [List.map_eq_nil_iff, List.filter_eq_nil_iff]
  intro b' hb'
  simp [h b hb b' hb']

theorem inter_disjoint {b b' : Box α} {cs cs' : List (Tree α)} {swap : Bool}
    (hi : b'.intersects b = false) : inter (mk (some b) cs) (mk (some b') cs') swap = .ok [] := by
  rw [inter.eq_def]; simp [hi]
theorem inter_leaf_leaf {b b' : Box α} {swap : Bool} (hi : b'.intersects b = true) :
    inter (mk (some b) []) (mk (some b') []) swap = .ok [pair swap b b'] := by
  rw [inter.eq_def]; simp [hi, pair]
theorem inter_node_leaf {b b' : Box α} {c : Tree α} {cs : List (Tree α)} {swap : Bool}
    (hi : b'.intersects b = true) : inter (mk (some b) (c :: cs)) (mk (some b') []) swap =
      interList (mk (some b') []) (c :: cs) (!swap) := by
  rw [inter.eq_def]; simp [hi]
theorem inter_leaf_node {b b' : Box α} {c : Tree α} {cs : List (Tree α)} {swap : Bool}
    (hi : b'.intersects b = true) : inter (mk (some b) []) (mk (some b') (c :: cs)) swap =
      interList (mk (some b) []) (c :: cs) swap := by
  rw [inter.eq_def]; simp [hi]
theorem inter_node_node {b b' : Box α} {c c' : Tree α} {cs cs' : List (Tree α)} {swap : Bool}
    (hi : b'.intersects b = true) :
    inter (mk (some b) (c :: cs)) (mk (some b') (c' :: cs')) swap =
      interAll (c :: cs) (c' :: cs') swap := by
  rw [inter.eq_def]; simp [hi]

mutual
/-- The traversal reports exactly the overlapping pairs of leaves. -/
theorem inter_spec (ho : OrderOn P) (t u : Tree α) (swap : Bool) (ht : t.IsHierarchy P)
    (hu : u.IsHierarchy P) :
    ∃ out, inter t u swap = .ok out ∧ out.Perm (brute swap t.leaves u.leaves) := by
  match t, u with
  | mk none cs, _ => obtain ⟨b, hb, -⟩ := ht.box_WF; simp [box] at hb
  | mk (some _) _, mk none cs => obtain ⟨b, hb, -⟩ := hu.box_WF; simp [box] at hb
  | mk (some b) cs, mk (some b') cs' =>
    by_cases hi : b'.intersects b = true
    · match cs, cs' with
      | [], [] =>
        refine ⟨_, inter_leaf_leaf hi, ?_⟩
        rw [Box.intersects_comm] at hi
        cases swap <;> simp [leaves, brute, hi, pair]
      | c :: cs, [] =>
        obtain ⟨out, h1, h2⟩ := interList_spec ho (mk (some b') []) (c :: cs) (!swap) hu
          (by cases ht with | node _ _ _ _ h _ => exact h)
        refine ⟨out, (inter_node_leaf hi).trans h1, ?_⟩
        rw [leaves_cons]
        exact h2.trans (by simpa using brute_comm (!swap) (mk (some b') []).leaves _)
      | [], c :: cs =>
        obtain ⟨out, h1, h2⟩ := interList_spec ho (mk (some b) []) (c :: cs) swap ht
          (by cases hu with | node _ _ _ _ h _ => exact h)
        refine ⟨out, (inter_leaf_node hi).trans h1, ?_⟩
        rw [leaves_cons _ c cs]
        exact h2
      | c :: cs, c' :: cs' =>
        obtain ⟨out, h1, h2⟩ := interAll_spec ho (c :: cs) (c' :: cs') swap
          (by cases ht with | node _ _ _ _ h _ => exact h)
          (by cases hu with | node _ _ _ _ h _ => exact h)
        refine ⟨out, (inter_node_node hi).trans h1, ?_⟩
        rw [leaves_cons, leaves_cons]
        exact h2
    · simp only [Bool.not_eq_true] at hi
      refine ⟨[], inter_disjoint hi, ?_⟩
      rw [brute_eq_nil]
      intro d hd d' hd'
      by_contra hc
      simp only [Bool.not_eq_false] at hc
      obtain ⟨x, hx, w⟩ := ht.box_WF
      obtain ⟨x', hx', w'⟩ := hu.box_WF
      simp [box] at hx hx'; subst hx hx'
      obtain ⟨wd, hd⟩ := ht.encloses ho b rfl d hd
      obtain ⟨wd', hd'⟩ := hu.encloses ho b' rfl d' hd'
      have := Box.Encloses.intersects ho w wd w' wd' hd hd' hc
      rw [Box.intersects_comm, hi] at this
      exact absurd this (by simp)
termination_by sizeOf t + sizeOf u

theorem interList_spec (ho : OrderOn P) (t : Tree α) (cs : List (Tree α)) (swap : Bool)
    (ht : t.IsHierarchy P) (hcs : ∀ c ∈ cs, c.IsHierarchy P) :
    ∃ out, interList t cs swap = .ok out ∧ out.Perm (brute swap t.leaves (leavesL cs)) := by
  match cs with
  | [] => exact ⟨[], by simp [interList], by simp [leavesL, brute_nil_right]⟩
  | c :: cs =>
    obtain ⟨o1, h1, p1⟩ := inter_spec ho t c swap ht (hcs c (by simp))
    obtain ⟨o2, h2, p2⟩ := interList_spec ho t cs swap ht (fun c hc => hcs c (by simp [hc]))
    refine ⟨o1 ++ o2, by simp [interList, h1, h2], ?_⟩
    rw [leavesL]
    exact (p1.append p2).trans (brute_append_right _ _ _ _).symm
termination_by sizeOf t + sizeOf cs

theorem interAll_spec (ho : OrderOn P) (cs ds : List (Tree α)) (swap : Bool)
    (hcs : ∀ c ∈ cs, c.IsHierarchy P) (hds : ∀ c ∈ ds, c.IsHierarchy P) :
    ∃ out, interAll cs ds swap = .ok out ∧ out.Perm (brute swap (leavesL cs) (leavesL ds)) := by
  match cs with
  | [] => exact ⟨[], by simp [interAll], by simp [leavesL, brute]⟩
  | c :: cs =>
    obtain ⟨o1, h1, p1⟩ := interList_spec ho c ds swap (hcs c (by simp)) hds
    obtain ⟨o2, h2, p2⟩ := interAll_spec ho cs ds swap (fun c hc => hcs c (by simp [hc])) hds
    refine ⟨o1 ++ o2, by simp [interAll, h1, h2], ?_⟩
    rw [leavesL, brute_append_left]
    exact p1.append p2
termination_by sizeOf cs + sizeOf ds
end

end Tree
end Enve
