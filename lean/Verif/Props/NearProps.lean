import Verif.Model.TreeDistance
import Verif.Lemmas.Tree
import Verif.Lemmas.RealVec
import Verif.Spec.Box
import Verif.Base.Special
import Mathlib.Order.Bounds.Basic

/-! # C81: distance queries on boxes and bounding box trees -/

namespace Enve
open Scalar Spec

/-- The box has positive extents. -/
def Spec.Solid (b : Box ℝ) : Prop := b.min.x < b.max.x ∧ b.min.y < b.max.y ∧ b.min.z < b.max.z

/-- The distances of `q` to the points of the box. -/
def Spec.distances (b : Box ℝ) (q : V3 ℝ) : Set ℝ := {d | ∃ p, InBox b.min b.max p ∧ d = dist3 q p}

/-- Distance from `x` to the interval `[lo, hi]`. -/
noncomputable def Spec.gap (lo hi x : ℝ) : ℝ := Max.max 0 (Max.max (lo - x) (x - hi))

theorem Spec.gap_clamp {lo hi : ℝ} (h : lo ≤ hi) (x : ℝ) :
    |x - Max.max lo (Min.min x hi)| = gap lo hi x := by
  unfold gap
  rcases le_total x lo with h1 | h1
  · rw [min_eq_left (h1.trans h), max_eq_left h1, abs_of_nonpos (by linarith),
      max_eq_left (a := lo - x) (by linarith), max_eq_right (by linarith)]; ring
  · rcases le_total x hi with h2 | h2
    · rw [min_eq_left h2, max_eq_right h1, sub_self, abs_zero, max_eq_left]
      exact max_le (by linarith) (by linarith)
    · rw [min_eq_right h2, max_eq_right h, abs_of_nonneg (by linarith),
        max_eq_right (a := lo - x) (by linarith), max_eq_right (by linarith)]

theorem Spec.gap_le {lo hi x y : ℝ} (h1 : lo ≤ y) (h2 : y ≤ hi) : gap lo hi x ≤ |x - y| := by
  unfold gap
  have h3 := neg_abs_le (x - y)
  have h4 := le_abs_self (x - y)
  exact max_le (abs_nonneg _) (max_le (by linarith) (by linarith))

theorem Spec.gap_nonneg (lo hi x : ℝ) : 0 ≤ gap lo hi x := le_max_left _ _

/-- One coordinate of `centerDistance`. -/
theorem Spec.center_coord {lo hi : ℝ} (h : lo < hi) (x : ℝ) :
    Max.max 0 (|x - (hi + lo) / 2| * |1 / (hi - (hi + lo) / 2)| - 1) / |1 / (hi - (hi + lo) / 2)| =
      gap lo hi x := by
  have hm : hi - (hi + lo) / 2 = (hi - lo) / 2 := by ring
  have hp : 0 < (hi - lo) / 2 := by linarith
  rw [hm, abs_of_pos (a := 1 / ((hi - lo) / 2)) (by positivity), one_div, div_inv_eq_mul,
    max_mul_of_nonneg _ _ hp.le, zero_mul, sub_mul, mul_assoc, inv_mul_cancel₀ hp.ne', mul_one, one_mul]
  unfold gap
  congr 1
  rw [show x - (hi + lo) / 2 = x - (lo + hi) / 2 by ring]
  rcases abs_cases (x - (lo + hi) / 2) with ⟨h1, h2⟩ | ⟨h1, h2⟩
  · rw [h1, max_eq_right (by linarith)]; ring
  · rw [h1, max_eq_left (by linarith)]; ring

theorem Box.centerDistance_eq {b : Box ℝ} (hb : Solid b) (q : V3 ℝ) :
    b.centerDistance q = Real.sqrt (gap b.min.x b.max.x q.x ^ 2 + gap b.min.y b.max.y q.y ^ 2 +
      gap b.min.z b.max.z q.z ^ 2) := by
  unfold Box.centerDistance
  v3
  simp only [real_two, real_abs, real_max, real_sqrt]
  rw [center_coord hb.1, center_coord hb.2.1, center_coord hb.2.2]
  congr 1; ring

theorem Spec.far_coord {lo hi x y : ℝ} (h1 : lo ≤ y) (h2 : y ≤ hi) :
    |x - y| ≤ Max.max |x - lo| |x - hi| := by
  rcases abs_cases (x - y) with ⟨e, -⟩ | ⟨e, -⟩
  · rw [e]; exact le_max_of_le_left (by have := le_abs_self (x - lo); linarith)
  · rw [e]; exact le_max_of_le_right (by have := neg_abs_le (x - hi); linarith)

theorem Spec.far_attained {lo hi : ℝ} (h : lo ≤ hi) (x : ℝ) :
    ∃ y, lo ≤ y ∧ y ≤ hi ∧ |x - y| = Max.max |x - lo| |x - hi| := by
  rcases le_total |x - lo| |x - hi| with h1 | h1
  · exact ⟨hi, h, le_rfl, (max_eq_right h1).symm⟩
  · exact ⟨lo, le_rfl, h, (max_eq_left h1).symm⟩

/-- **C81**, one box: `centerDistance` is the distance to the nearest point of the box (for boxes of positive
extents) and `exteriorDistance` the distance to the farthest. -/
theorem C81_box {b : Box ℝ} (hb : Solid b) (q : V3 ℝ) :
    IsLeast (distances b q) (b.centerDistance q) ∧ IsGreatest (distances b q) (b.exteriorDistance q) := by
  have le {a b c a' b' c' : ℝ} (h1 : |a| ≤ |a'|) (h2 : |b| ≤ |b'|) (h3 : |c| ≤ |c'|) :
      Real.sqrt (a ^ 2 + b ^ 2 + c ^ 2) ≤ Real.sqrt (a' ^ 2 + b' ^ 2 + c' ^ 2) := by
    apply Real.sqrt_le_sqrt
    have := sq_le_sq.2 h1
    have := sq_le_sq.2 h2
    have := sq_le_sq.2 h3
    linarith
  rw [Box.centerDistance_eq hb]
  have he : b.exteriorDistance q = Real.sqrt (Max.max |q.x - b.min.x| |q.x - b.max.x| ^ 2 +
      Max.max |q.y - b.min.y| |q.y - b.max.y| ^ 2 + Max.max |q.z - b.min.z| |q.z - b.max.z| ^ 2) := by
    unfold Box.exteriorDistance
    simp only [real_sub, real_abs, real_max, real_add, real_mul, real_sqrt]
    congr 1; ring
  rw [he]
  obtain ⟨h1, h2, h3⟩ := hb
  refine ⟨⟨⟨⟨Max.max b.min.x (Min.min q.x b.max.x), Max.max b.min.y (Min.min q.y b.max.y),
    Max.max b.min.z (Min.min q.z b.max.z)⟩, ?_, ?_⟩, ?_⟩, ?_, ?_⟩
  · exact ⟨⟨le_max_left _ _, max_le h1.le (min_le_right _ _)⟩,
      ⟨le_max_left _ _, max_le h2.le (min_le_right _ _)⟩,
      le_max_left _ _, max_le h3.le (min_le_right _ _)⟩
  · rw [← gap_clamp h1.le, ← gap_clamp h2.le, ← gap_clamp h3.le, sq_abs, sq_abs, sq_abs]
    rfl
  · rintro d ⟨p, ⟨⟨k1, k2⟩, ⟨k3, k4⟩, k5, k6⟩, rfl⟩
    unfold dist3
    refine le ?_ ?_ ?_ <;> rw [abs_of_nonneg (gap_nonneg _ _ _)]
    · exact gap_le k1 k2
    · exact gap_le k3 k4
    · exact gap_le k5 k6
  · obtain ⟨x, x1, x2, x3⟩ := far_attained h1.le q.x
    obtain ⟨y, y1, y2, y3⟩ := far_attained h2.le q.y
    obtain ⟨z, z1, z2, z3⟩ := far_attained h3.le q.z
    refine ⟨⟨x, y, z⟩, ⟨⟨x1, x2⟩, ⟨y1, y2⟩, z1, z2⟩, ?_⟩
    rw [← x3, ← y3, ← z3, sq_abs, sq_abs, sq_abs]
    rfl
  · rintro d ⟨p, ⟨⟨k1, k2⟩, ⟨k3, k4⟩, k5, k6⟩, rfl⟩
    unfold dist3
    refine le ?_ ?_ ?_
    · rw [abs_of_nonneg (le_max_of_le_left (abs_nonneg _))]; exact far_coord k1 k2
    · rw [abs_of_nonneg (le_max_of_le_left (abs_nonneg _))]; exact far_coord k3 k4
    · rw [abs_of_nonneg (le_max_of_le_left (abs_nonneg _))]; exact far_coord k5 k6

theorem Box.Encloses.real {b d : Box ℝ} (h : b.Encloses d) :
    (b.min.x ≤ d.min.x ∧ b.min.y ≤ d.min.y ∧ b.min.z ≤ d.min.z) ∧
    d.max.x ≤ b.max.x ∧ d.max.y ≤ b.max.y ∧ d.max.z ≤ b.max.z := by
  simpa [Box.Encloses, V3.Le] using h

theorem Box.Encloses.solid {b d : Box ℝ} (h : b.Encloses d) (hd : Solid d) : Solid b := by
  obtain ⟨⟨h1, h2, h3⟩, h4, h5, h6⟩ := h.real
  obtain ⟨k1, k2, k3⟩ := hd
  exact ⟨by linarith, by linarith, by linarith⟩

theorem Box.Encloses.distances {b d : Box ℝ} (h : b.Encloses d) (q : V3 ℝ) :
    distances d q ⊆ distances b q := by
  obtain ⟨⟨h1, h2, h3⟩, h4, h5, h6⟩ := h.real
  rintro x ⟨p, ⟨⟨k1, k2⟩, ⟨k3, k4⟩, k5, k6⟩, rfl⟩
  exact ⟨p, ⟨⟨by linarith, by linarith⟩, ⟨by linarith, by linarith⟩, by linarith, by linarith⟩, rfl⟩

theorem Box.Encloses.center_le {b d : Box ℝ} (h : b.Encloses d) (hd : Solid d) (q : V3 ℝ) :
    b.centerDistance q ≤ d.centerDistance q :=
  (C81_box (h.solid hd) q).1.2 (h.distances q (C81_box hd q).1.1)

theorem Box.center_le_exterior {b : Box ℝ} (hb : Solid b) (q : V3 ℝ) :
    b.centerDistance q ≤ b.exteriorDistance q := (C81_box hb q).1.2 (C81_box hb q).2.1

namespace Tree

/-- `m` is the least of `d` and of the values of `f` on `l`. -/
def LeastOf (f : Box ℝ → ℝ) (l : List (Box ℝ)) (d m : ℝ) : Prop :=
  m ≤ d ∧ (∀ b ∈ l, m ≤ f b) ∧ (m = d ∨ ∃ b ∈ l, m = f b)

theorem LeastOf.append {f : Box ℝ → ℝ} {l k : List (Box ℝ)} {d m n : ℝ} (h : LeastOf f l d m)
    (h' : LeastOf f k m n) : LeastOf f (l ++ k) d n := by
  obtain ⟨h1, h2, h3⟩ := h
  obtain ⟨k1, k2, k3⟩ := h'
  refine ⟨k1.trans h1, fun b hb => ?_, ?_⟩
  · rcases List.mem_append.1 hb with hb | hb
    · exact k1.trans (h2 b hb)
    · exact k2 b hb
  · rcases k3 with rfl | ⟨b, hb, rfl⟩
    · rcases h3 with rfl | ⟨b, hb, rfl⟩
      · exact .inl rfl
      · exact .inr ⟨b, List.mem_append_left _ hb, rfl⟩
    · exact .inr ⟨b, List.mem_append_right _ hb, rfl⟩

theorem minExterior_spec (q : V3 ℝ) {t : Tree ℝ} (ht : t.IsHierarchy fun _ => True)
    (hs : ∀ b ∈ t.leaves, Solid b) (d : ℝ) :
    ∃ m, minExterior q t d = .ok m ∧ LeastOf (·.exteriorDistance q) t.leaves d m := by
  induction ht generalizing d with
  | leaf b hb =>
    refine ⟨_, by rw [minExterior], ?_⟩
    simp only [real_min, leaves, Option.toList_some]
    refine ⟨min_le_right _ _, by simp, ?_⟩
    rcases le_total (b.exteriorDistance q) d with h | h
    · exact .inr ⟨b, by simp, by simp [h]⟩
    · exact .inl (by simp [h])
  | node b cs hne hb hcs henc ih =>
    have henc' := (IsHierarchy.node b cs hne hb hcs henc).encloses OrderOn.real b rfl
    cases cs with
    | nil => exact absurd rfl hne
    | cons c cs =>
      rw [leaves_cons] at hs henc' ⊢
      rw [minExterior]
      split
      · rename_i hlt
        simp only [real_lt, decide_eq_true_eq] at hlt
        refine ⟨d, rfl, le_rfl, fun e he => ?_, .inl rfl⟩
        exact hlt.le.trans (((henc' e he).2.center_le (hs e he) q).trans (Box.center_le_exterior (hs e he) q))
      · have key : ∀ (l : List (Tree ℝ)), (∀ c' ∈ l, c' ∈ c :: cs) → ∀ d, ∃ m, minExteriorL q l d = .ok m ∧
            LeastOf (·.exteriorDistance q) (leavesL l) d m := by
          intro l
          induction l with
          | nil =>
            intro _ d
            exact ⟨d, by rw [minExteriorL], le_rfl, by simp [leavesL], .inl rfl⟩
          | cons c' l il =>
            intro hl d
            obtain ⟨m, e1, e2⟩ := ih c' (hl c' List.mem_cons_self)
              (fun e he => hs e (mem_leavesL.2 ⟨c', hl c' List.mem_cons_self, he⟩)) d
            obtain ⟨n, f1, f2⟩ := il (fun x hx => hl x (List.mem_cons_of_mem _ hx)) m
            exact ⟨n, by rw [minExteriorL, e1]; exact f1, by rw [leavesL]; exact e2.append f2⟩
        obtain ⟨m, e1, e2⟩ := key (c :: cs) (fun _ h => h) d
        rw [minExteriorL] at e1
        exact ⟨m, e1, e2⟩

theorem selectLess_spec (q : V3 ℝ) (d : ℝ) {t : Tree ℝ} (ht : t.IsHierarchy fun _ => True)
    (hs : ∀ b ∈ t.leaves, Solid b) :
    selectLess q d t = .ok (t.leaves.filter fun b => decide (b.centerDistance q ≤ d)) := by
  induction ht with
  | leaf b hb =>
    rw [selectLess]
    simp only [real_le, leaves, Option.toList_some, List.filter_cons, List.filter_nil]
  | node b cs hne hb hcs henc ih =>
    have henc' := (IsHierarchy.node b cs hne hb hcs henc).encloses OrderOn.real b rfl
    cases cs with
    | nil => exact absurd rfl hne
    | cons c cs =>
      rw [leaves_cons] at hs henc' ⊢
      rw [selectLess]
      split
      · have key : ∀ (l : List (Tree ℝ)), (∀ c' ∈ l, c' ∈ c :: cs) → selectLessL q d l =
            .ok ((leavesL l).filter fun b => decide (b.centerDistance q ≤ d)) := by
          intro l
          induction l with
          | nil => intro _; rw [selectLessL]; rfl
          | cons c' l il =>
            intro hl
            have e1 := ih c' (hl c' List.mem_cons_self)
              (fun e he => hs e (mem_leavesL.2 ⟨c', hl c' List.mem_cons_self, he⟩))
            rw [selectLessL, e1, il fun x hx => hl x (List.mem_cons_of_mem _ hx), leavesL, List.filter_append]
            rfl
        have := key (c :: cs) fun _ h => h
        rw [selectLessL] at this
        exact this
      · rename_i hlt
        simp only [real_le, decide_eq_true_eq, not_le] at hlt
        rw [List.filter_eq_nil_iff.2]
        intro e he
        simp only [decide_eq_true_eq, not_le]
        exact hlt.trans_le ((henc' e he).2.center_le (hs e he) q)

end Tree

open Classical in
/-- **C81**, trees: for a tree built from a non-empty list of boxes of positive extents, the query for the
boxes near a point `q` returns, each of them once, the boxes whose distance from `q` is at most the
smallest of the farthest distances `m`.  (`infty` stands for the initial value, infinity.)  So whichever
non-empty sets the boxes stand for, the box of the set nearest to `q` is among them. -/
theorem C81_select_partial {bs : List (Box ℝ)} (hne : bs ≠ []) (hs : ∀ b ∈ bs, Solid b) (q : V3 ℝ) (infty : ℝ)
    (hi : ∀ b ∈ bs, b.exteriorDistance q ≤ infty) :
    ∃ out m, Tree.selectMin infty q (Tree.build bs) = .ok out ∧
      IsLeast {d | ∃ b ∈ bs, IsGreatest (distances b q) d} m ∧
      out.Perm (bs.filter fun b => decide (∃ d ∈ distances b q, d ≤ m)) ∧ out ≠ [] ∧
      ∀ sets : Box ℝ → Set (V3 ℝ), (∀ b ∈ bs, (sets b).Nonempty ∧ ∀ p ∈ sets b, InBox b.min b.max p) →
        ∀ b ∈ bs, (∃ p ∈ sets b, ∀ b' ∈ bs, ∀ p' ∈ sets b', dist3 q p ≤ dist3 q p') → b ∈ out := by
  have hw : ∀ b ∈ bs, b.WF fun _ => True := fun b hb =>
    ⟨⟨trivial, trivial, trivial⟩, ⟨trivial, trivial, trivial⟩, by
      obtain ⟨h1, h2, h3⟩ := hs b hb
      simp only [V3.Le, real_le, decide_eq_true_eq]
      exact ⟨h1.le, h2.le, h3.le⟩⟩
  have hH := Tree.build_isHierarchy OrderOn.real bs hne hw
  have hp := Tree.leaves_build bs
  have hs' : ∀ b ∈ (Tree.build bs).leaves, Solid b := fun b hb => hs b (hp.mem_iff.1 hb)
  obtain ⟨m, e1, e2, e3, e4⟩ := Tree.minExterior_spec q hH hs' infty
  have hleast : IsLeast {d | ∃ b ∈ bs, IsGreatest (distances b q) d} m := by
    constructor
    · rcases e4 with rfl | ⟨b, hb, rfl⟩
      · obtain ⟨b, hb⟩ := List.exists_mem_of_ne_nil _ hne
        have : m = b.exteriorDistance q := le_antisymm (e3 b (hp.mem_iff.2 hb)) (hi b hb)
        exact ⟨b, hb, this ▸ (C81_box (hs b hb) q).2⟩
      · exact ⟨b, hp.mem_iff.1 hb, (C81_box (hs' b hb) q).2⟩
    · rintro d ⟨b, hb, hd⟩
      rw [hd.unique (C81_box (hs b hb) q).2]
      exact e3 b (hp.mem_iff.2 hb)
  have hperm : ((Tree.build bs).leaves.filter fun b => decide (b.centerDistance q ≤ m)).Perm
      (bs.filter fun b => decide (∃ d ∈ distances b q, d ≤ m)) := by
    refine (hp.filter _).trans (List.Perm.of_eq (List.filter_congr fun b hb => ?_))
    rw [decide_eq_decide]
    have := (C81_box (hs b hb) q).1
    exact ⟨fun h => ⟨_, this.1, h⟩, fun ⟨d, hd, h⟩ => (this.2 hd).trans h⟩
  refine ⟨_, m, by rw [Tree.selectMin, e1]; exact Tree.selectLess_spec q m hH hs', hleast, hperm, ?_, ?_⟩
  · obtain ⟨b, hb, hd⟩ := hleast.1
    have : b ∈ bs.filter fun b => decide (∃ d ∈ distances b q, d ≤ m) :=
      List.mem_filter.2 ⟨hb, by simpa using ⟨m, hd.1, le_rfl⟩⟩
    exact List.ne_nil_of_mem (hperm.mem_iff.2 this)
  · rintro sets hsets b hb ⟨p, hpb, hmin⟩
    refine hperm.mem_iff.2 (List.mem_filter.2 ⟨hb, ?_⟩)
    obtain ⟨b', hb', hd⟩ := hleast.1
    obtain ⟨p', hp'⟩ := (hsets b' hb').1
    simp only [decide_eq_true_eq]
    exact ⟨_, ⟨p, (hsets b hb).2 p hpb, rfl⟩,
      (hmin b' hb' p' hp').trans (hd.2 ⟨p', (hsets b' hb').2 p' hp', rfl⟩)⟩

/-- **C81 is false for flat boxes**, such as the boxes of triangles in coordinate planes.  With the special
values of IEEE 754 the distance from a flat box to a point beside it is infinity divided by infinity, NaN,
and no box is found: here the tree consists of the unit square in the plane `z = 0`, and the point is at
height `h` above its centre. -/
theorem C81_flat_refuted (h : ℝ) (hh : h ≠ 0) :
    ∃ b : Box XR, b = ⟨⟨.fin 0, .fin 0, .fin 0⟩, ⟨.fin 1, .fin 1, .fin 0⟩, 0, 0⟩ ∧
      b.centerDistance ⟨.fin (1 / 2), .fin (1 / 2), .fin h⟩ = .nan ∧
      b.exteriorDistance ⟨.fin (1 / 2), .fin (1 / 2), .fin h⟩ = .fin (Real.sqrt (1 / 2 + h ^ 2)) ∧
      Tree.selectMin .pinf ⟨.fin (1 / 2), .fin (1 / 2), .fin h⟩ (Tree.build [b]) = .ok [] := by
  have hpos := abs_pos.2 hh
  have hc : Box.centerDistance (⟨⟨.fin 0, .fin 0, .fin 0⟩, ⟨.fin 1, .fin 1, .fin 0⟩, 0, 0⟩ : Box XR)
      ⟨.fin (1 / 2), .fin (1 / 2), .fin h⟩ = .nan := by
    have h1 : ∀ x y : ℝ, (XR.fin x /. XR.fin y) = if y = 0 then XR.infSign x else XR.fin (x / y) :=
      fun _ _ => rfl
    simp [Box.centerDistance, V3.sdiv, V3.add, V3.sub, Scalar.max, h1, hpos, XR.infSign]
  have he : Box.exteriorDistance (⟨⟨.fin 0, .fin 0, .fin 0⟩, ⟨.fin 1, .fin 1, .fin 0⟩, 0, 0⟩ : Box XR)
      ⟨.fin (1 / 2), .fin (1 / 2), .fin h⟩ = .fin (Real.sqrt (1 / 2 + h ^ 2)) := by
    have e1 : |(1 / 2 : ℝ)| = 1 / 2 := by norm_num
    have e2 : |(1 / 2 : ℝ) - 1| = 1 / 2 := by norm_num [abs_of_neg]
    simp only [Box.exteriorDistance, Scalar.max, XR.sub_fin, XR.abs_fin, XR.lt_fin, e1, e2, lt_irrefl,
      decide_false, Bool.false_eq_true, if_false, sub_zero, XR.mul_fin, XR.add_fin, abs_mul_abs_self]
    rw [show (1 / 2 * (1 / 2) + 1 / 2 * (1 / 2) + h * h : ℝ) = 1 / 2 + h ^ 2 by ring,
      XR.sqrt_fin _ (by positivity)]
  refine ⟨_, rfl, hc, he, ?_⟩
  rw [Tree.build, Tree.selectMin, Tree.minExterior, he, Res.bind_ok, Tree.selectLess, hc, XR.nan_le]
  rfl

/-- Boxes of positive extents around two points: only the near one is returned for the origin. -/
example : Solid ⟨⟨1, -1, -1⟩, ⟨2, 1, 1⟩, 0, 0⟩ ∧ Solid ⟨⟨7, -1, -1⟩, ⟨8, 1, 1⟩, 1, 0⟩ ∧
    ∃ infty : ℝ, ∀ b ∈ [(⟨⟨1, -1, -1⟩, ⟨2, 1, 1⟩, 0, 0⟩ : Box ℝ), ⟨⟨7, -1, -1⟩, ⟨8, 1, 1⟩, 1, 0⟩],
      b.exteriorDistance ⟨0, 0, 0⟩ ≤ infty := by
  refine ⟨by norm_num [Solid], by norm_num [Solid],
    Max.max (Box.exteriorDistance ⟨⟨1, -1, -1⟩, ⟨2, 1, 1⟩, 0, 0⟩ ⟨0, 0, 0⟩)
      (Box.exteriorDistance ⟨⟨7, -1, -1⟩, ⟨8, 1, 1⟩, 1, 0⟩ ⟨0, 0, 0⟩), ?_⟩
  intro b hb
  simp only [List.mem_cons, List.not_mem_nil, or_false] at hb
  rcases hb with rfl | rfl
  · exact le_max_left _ _
  · exact le_max_right _ _

end Enve
