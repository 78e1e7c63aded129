import Verif.Lemmas.Tree
import Verif.Model.Intersection
import Verif.Spec.Box

/-! # Boxes and the box tree: C12, C14 -/

namespace Enve
open Scalar
variable {α : Type} [Scalar α] {P : α → Prop}

/-! ## C12: building the tree -/

omit [Scalar α] in
theorem Tree.occurs_two {c d s : Tree α} {b : Option (Box α)} (h : Tree.Occurs s (.mk b [c, d])) :
    s = .mk b [c, d] ∨ Tree.Occurs s c ∨ Tree.Occurs s d := by
  cases h with
  | root => exact .inl rfl
  | under _ _ hc h => simp at hc; rcases hc with rfl | rfl <;> simp [h]

/-- C12, first half, for any arithmetic whatsoever (rounding, NaN, infinities included): `build`
is defined for every list of boxes, every input box (counted with multiplicity) sits in exactly one
leaf, and the tree has two children at every inner node, hence `2n-1` nodes. -/
theorem C12_build_keeps_boxes (bs : List (Box α)) :
    (Tree.build bs).leaves.Perm bs ∧
    (∀ s, Tree.Occurs s (Tree.build bs) → s.children.length = 0 ∨ s.children.length = 2) ∧
    (bs ≠ [] → (Tree.build bs).nodes = 2 * bs.length - 1) := by
  refine ⟨Tree.leaves_build bs, ?_⟩
  induction hl : bs.length using Nat.strongRecOn generalizing bs with
  | _ n ih =>
    subst hl
    match bs with
    | [] =>
      refine ⟨fun s hs => ?_, fun h => absurd rfl h⟩
      rw [Tree.build, Tree.empty] at hs
      cases hs with
      | root => simp [Tree.children]
      | under _ _ hc _ => simp at hc
    | [b] =>
      rw [Tree.build]
      refine ⟨fun s hs => ?_, fun _ => by simp [Tree.nodes, Tree.nodesL]⟩
      cases hs with
      | root => simp [Tree.children]
      | under _ _ hc _ => simp at hc
    | b0 :: b1 :: bs =>
      obtain ⟨neg, pos, h1, h2, h3, h4, h5, he⟩ := Tree.build_node b0 b1 bs
      rw [he]
      obtain ⟨a1, a2⟩ := ih _ h3 _ rfl
      obtain ⟨c1, c2⟩ := ih _ h4 _ rfl
      have hlen := h5.length_eq
      refine ⟨fun s hs => ?_, fun _ => ?_⟩
      · rcases Tree.occurs_two hs with rfl | hs | hs
        · simp [Tree.children]
        · exact a1 s hs
        · exact c1 s hs
      · have p1 := List.length_pos_iff.2 h1
        have p2 := List.length_pos_iff.2 h2
        simp only [Tree.nodes, Tree.nodesL, a2 h1, c2 h2]
        simp only [List.length_append] at hlen
        omega

theorem Tree.IsHierarchy.occurs {t s : Tree α} (h : t.IsHierarchy P) (hs : Tree.Occurs s t) :
    s.IsHierarchy P := by
  induction hs with
  | root => exact h
  | under b cs hc _ ih =>
    cases h with
    | leaf => simp at hc
    | node b cs _ _ hcs _ => exact ih (hcs _ hc)

/-- C12, second half: on numbers that are linearly ordered (no NaN), if the input boxes have their
corners in order, then the box of *every* node occurring in the tree encloses every input box stored
below that node. -/
theorem C12_nodes_enclose (ho : OrderOn P) (bs : List (Box α)) (h : ∀ b ∈ bs, b.WF P) :
    ∀ s, Tree.Occurs s (Tree.build bs) → ∀ b, s.box = some b →
      ∀ d ∈ s.leaves, b.Encloses d := by
  intro s hs b hb d hd
  by_cases hne : bs = []
  · subst hne
    rw [Tree.build, Tree.empty] at hs
    cases hs with
    | root => simp [Tree.box] at hb
    | under _ _ hc _ => simp at hc
  · exact ((Tree.build_isHierarchy ho bs hne h).occurs hs |>.encloses ho b hb d hd).2

/-- C12 in real 3-space: a point of an input box lies in the box of every node above it. -/
theorem C12_nodes_enclose_points (bs : List (Box ℝ)) (h : ∀ b ∈ bs, b.WF fun _ => True) :
    ∀ s, Tree.Occurs s (Tree.build bs) → ∀ b, s.box = some b →
      ∀ d ∈ s.leaves, ∀ p, Spec.InBox d.min d.max p → Spec.InBox b.min b.max p := by
  intro s hs b hb d hd p hp
  have he := C12_nodes_enclose OrderOn.real bs h s hs b hb d hd
  simp only [Box.Encloses, V3.Le, real_le, decide_eq_true_eq] at he
  obtain ⟨⟨a1, a2, a3⟩, c1, c2, c3⟩ := he
  obtain ⟨⟨p1, p2⟩, ⟨p3, p4⟩, p5, p6⟩ := hp
  exact ⟨⟨a1.trans p1, p2.trans c1⟩, ⟨a2.trans p3, p4.trans c2⟩, a3.trans p5, p6.trans c3⟩

/-! ## C14: overlap, common part, smallest enclosing box -/

/-- Boxes with ordered corners over the reals. -/
theorem Box.real_WF (b : Box ℝ) : (b.WF fun _ => True) ↔
    b.min.x ≤ b.max.x ∧ b.min.y ≤ b.max.y ∧ b.min.z ≤ b.max.z := by
  constructor
  · intro h; simpa [V3.Le] using h.le
  · intro h; exact ⟨⟨trivial, trivial, trivial⟩, ⟨trivial, trivial, trivial⟩, by simpa [V3.Le] using h⟩

/-- C14: `intersects` decides whether two boxes with ordered corners have a point in common. -/
theorem C14_intersects_iff_common_point (b c : Box ℝ)
    (hb : b.min.x ≤ b.max.x ∧ b.min.y ≤ b.max.y ∧ b.min.z ≤ b.max.z)
    (hc : c.min.x ≤ c.max.x ∧ c.min.y ≤ c.max.y ∧ c.min.z ≤ c.max.z) :
    b.intersects c = true ↔ ∃ p, Spec.InBox b.min b.max p ∧ Spec.InBox c.min c.max p := by
  simp only [Box.intersects_iff, V3.Le, real_le, decide_eq_true_eq]
  constructor
  · rintro ⟨⟨h1, h2, h3⟩, h4, h5, h6⟩
    refine ⟨⟨Max.max b.min.x c.min.x, Max.max b.min.y c.min.y, Max.max b.min.z c.min.z⟩, ?_, ?_⟩ <;>
      simp [Spec.InBox, *]
  · rintro ⟨p, ⟨⟨h1, h2⟩, ⟨h3, h4⟩, h5, h6⟩, ⟨k1, k2⟩, ⟨k3, k4⟩, k5, k6⟩
    exact ⟨⟨h1.trans k2, h3.trans k4, h5.trans k6⟩, k1.trans h2, k3.trans h4, k5.trans h6⟩

/-- C14: a box constructed from two points, in whatever order, is well formed and holds exactly the points between them
in every coordinate. -/
theorem C14_constructor (p q : V3 ℝ) (id pos : Int) :
    (Box.mk' p q id pos).id = id ∧ (Box.mk' p q id pos).pos = pos ∧
    ((Box.mk' p q id pos).min.x ≤ (Box.mk' p q id pos).max.x ∧ (Box.mk' p q id pos).min.y ≤ (Box.mk' p q id pos).max.y ∧
      (Box.mk' p q id pos).min.z ≤ (Box.mk' p q id pos).max.z) ∧
    ∀ u : V3 ℝ, Spec.InBox (Box.mk' p q id pos).min (Box.mk' p q id pos).max u ↔
      u.x ∈ Set.uIcc p.x q.x ∧ u.y ∈ Set.uIcc p.y q.y ∧ u.z ∈ Set.uIcc p.z q.z := by
  have key : ∀ a b : ℝ, (Box.order1 a b).1 = Min.min a b ∧ (Box.order1 a b).2 = Max.max a b := by
    intro a b
    unfold Box.order1
    by_cases h : b < a
    · simp [h, h.le]
    · simp [h, not_lt.1 h]
  refine ⟨rfl, rfl, ?_, fun u => ?_⟩
  · simp only [Box.mk', Box.updateMaxMin, key]
    exact ⟨min_le_max, min_le_max, min_le_max⟩
  · simp only [Box.mk', Box.updateMaxMin, key, Spec.InBox, Set.uIcc, Set.mem_Icc]

/-- C14: the overlap test is symmetric, in any arithmetic. -/
theorem C14_intersects_symmetric (b c : Box α) : b.intersects c = c.intersects b :=
  Box.intersects_comm b c

/-- C14: a box with ordered corners (no NaN) overlaps itself. -/
theorem C14_intersects_reflexive (b : Box α) (h : b.WF P) : b.intersects b = true :=
  (Box.intersects_iff b b).2 ⟨h.le, h.le⟩

/-- C14: `Intersection(aabb,aabb,aabb)` succeeds exactly when the boxes overlap, and then the box
written is exactly the set of common points (id and rank of the output box are kept). -/
theorem C14_common_part (b c out : Box ℝ) :
    (Inter.aabbAabb b c out = none ↔ b.intersects c = false) ∧
    ∀ r, Inter.aabbAabb b c out = some r → r.id = out.id ∧ r.pos = out.pos ∧
      ∀ p, Spec.InBox r.min r.max p ↔ Spec.InBox b.min b.max p ∧ Spec.InBox c.min c.max p := by
  unfold Inter.aabbAabb
  cases hi : b.intersects c
  · simp
  · refine ⟨by simp, fun r hr => ?_⟩
    simp only [Bool.not_true, Bool.false_eq_true, if_false, Option.some.injEq] at hr
    subst hr
    refine ⟨rfl, rfl, fun p => ?_⟩
    have key : ∀ x lo1 hi1 lo2 hi2 : ℝ,
        ((if lo1 ≤ lo2 then lo2 else lo1) ≤ x ∧ x ≤ (if hi1 ≤ hi2 then hi1 else hi2)) ↔
          (lo1 ≤ x ∧ x ≤ hi1) ∧ (lo2 ≤ x ∧ x ≤ hi2) := by
      intro x lo1 hi1 lo2 hi2
      split_ifs <;> constructor <;> intro h <;> refine ⟨?_, ?_⟩ <;>
        first | exact ⟨by linarith [h.1, h.2], by linarith [h.1, h.2]⟩ | linarith [h.1.1, h.1.2, h.2.1, h.2.2] 
    simp only [Spec.InBox, real_le, decide_eq_true_eq, key]
    tauto

/-- C14: `merged` / the constructor from a list of boxes yields the smallest enclosing box: it
contains every given box, and every box containing all of them contains it. -/
theorem C14_merged_smallest (ho : OrderOn P) (bs : List (Box α)) (hne : bs ≠ [])
    (h : ∀ c ∈ bs, c.WF P) (id pos : Int) :
    (∀ c ∈ bs, (Box.ofBoxes bs id pos).Encloses c) ∧
    (∀ d : Box α, (∀ c ∈ bs, d.Encloses c) → d.Encloses (Box.ofBoxes bs id pos)) ∧
    (Box.ofBoxes bs id pos).id = id ∧ (Box.ofBoxes bs id pos).pos = pos := by
  refine ⟨(Box.ofBoxes_spec ho bs hne h id pos).2, fun d hd => Box.ofBoxes_least ho bs hne h id pos hd,
    ?_⟩
  have key : ∀ (bs : List (Box α)) (b : Box α), (bs.foldl Box.mergeStep b).id = b.id ∧
      (bs.foldl Box.mergeStep b).pos = b.pos := by
    intro bs
    induction bs with
    | nil => intro b; exact ⟨rfl, rfl⟩
    | cons c cs ih => intro b; exact ih (Box.mergeStep b c)
  cases bs with
  | nil => exact absurd rfl hne
  | cons b bs => exact key bs _

/-! ## The hypotheses are met -/

namespace Demo
/-- Three boxes, two of them equal, one degenerate. -/
noncomputable def boxes : List (Box ℝ) :=
  [⟨⟨0, 0, 0⟩, ⟨1, 1, 1⟩, 0, 0⟩, ⟨⟨0, 0, 0⟩, ⟨1, 1, 1⟩, 1, 0⟩, ⟨⟨5, 5, 5⟩, ⟨5, 5, 5⟩, 2, 0⟩]

example : (∀ b ∈ boxes, b.WF fun _ => True) ∧ boxes ≠ [] := by
  simp [boxes, Box.real_WF]

example : (Tree.build boxes).nodes = 5 := (C12_build_keeps_boxes boxes).2.2 (by simp [boxes])

/-- Two boxes that only share a corner overlap. -/
example : (⟨⟨0, 0, 0⟩, ⟨1, 1, 1⟩, 0, 0⟩ : Box ℝ).intersects ⟨⟨1, 1, 1⟩, ⟨2, 2, 2⟩, 0, 0⟩ = true :=
  (C14_intersects_iff_common_point _ _ (by norm_num) (by norm_num)).2
    ⟨⟨1, 1, 1⟩, by norm_num [Spec.InBox], by norm_num [Spec.InBox]⟩
end Demo

end Enve
