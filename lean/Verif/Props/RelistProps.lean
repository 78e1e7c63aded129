import Verif.Props.UnitMeshProps
import Verif.Props.MovedProps

/-! # The order in which the vertices of a face are listed: C134 -/

namespace Enve
open Scalar Spec

/-- `t'` is the face `t` with its three vertices listed in another order. -/
structure Spec.Relisted (t t' : TriangleGround ℝ) : Prop where
  vertices : [t'.tri.v0, t'.tri.v1, t'.tri.v2].Perm [t.tri.v0, t.tri.v1, t.tri.v2]
  friction : t'.friction = t.friction

/-- The vertical line through `o` does not pass beside a corner of the triangle at a distance of the order of the tolerance: the point
`w0 v0 + w1 v1 + w2 v2` in which it meets the plane of the triangle is not beyond a corner, or is outside by more than the tolerance. -/
def Spec.OffCorners (o : V3 ℝ) (T : Triangle ℝ) : Prop :=
  ∀ w0 w1 w2 : ℝ, w0 + w1 + w2 = 1 → w0 * T.v0.x + w1 * T.v1.x + w2 * T.v2.x = o.x → w0 * T.v0.y + w1 * T.v1.y + w2 * T.v2.y = o.y →
    (w0 ≤ 1 + Scalar.eps ∧ w1 ≤ 1 + Scalar.eps ∧ w2 ≤ 1 + Scalar.eps) ∨ w0 < -Scalar.eps ∨ w1 < -Scalar.eps ∨ w2 < -Scalar.eps

namespace Relist

theorem perm3 {β : Type} {a b c a' b' c' : β} (h : [a', b', c'].Perm [a, b, c]) :
    (a' = a ∧ b' = b ∧ c' = c) ∨ (a' = a ∧ b' = c ∧ c' = b) ∨ (a' = b ∧ b' = a ∧ c' = c) ∨ (a' = b ∧ b' = c ∧ c' = a) ∨
      (a' = c ∧ b' = a ∧ c' = b) ∨ (a' = c ∧ b' = b ∧ c' = a) := by
  have := List.mem_permutations.2 h
  simp [List.permutations, List.permutationsAux, List.permutationsAux.rec, List.permutationsAux2] at this
  tauto

/-! ## The sampling lines -/

/-- Twice the oriented area of the projection of `o b c`. -/
def part (o b c : V3 ℝ) : ℝ := (b.x - o.x) * (c.y - o.y) - (b.y - o.y) * (c.x - o.x)

/-- The answer of a sampling line, away from the corners: symmetric in the vertices. -/
noncomputable def answer (o a b c : V3 ℝ) : Option (V3 ℝ) :=
  if |part a b c| < Scalar.eps then none else
  if part o b c / part a b c < -Scalar.eps ∨ part o c a / part a b c < -Scalar.eps ∨ part o a b / part a b c < -Scalar.eps then none
  else some ⟨o.x, o.y, (part o b c / part a b c) * a.z + (part o c a / part a b c) * b.z + (part o a b / part a b c) * c.z⟩

theorem part_rot (a b c : V3 ℝ) : part b c a = part a b c := by unfold part; ring
theorem part_swap (a b c : V3 ℝ) : part a c b = -part a b c := by unfold part; ring

theorem answer_rot (o a b c : V3 ℝ) : answer o b c a = answer o a b c := by
  unfold answer
  rw [part_rot]
  congr 1
  generalize part o b c / part a b c = x
  generalize part o c a / part a b c = y
  generalize part o a b / part a b c = z
  rw [if_congr (show (y < -Scalar.eps ∨ z < -Scalar.eps ∨ x < -Scalar.eps) ↔ (x < -Scalar.eps ∨ y < -Scalar.eps ∨ z < -Scalar.eps) by tauto) rfl
    (show _ = some ⟨o.x, o.y, x * a.z + y * b.z + z * c.z⟩ by congr 2; ring)]

theorem answer_swap (o a b c : V3 ℝ) : answer o a c b = answer o a b c := by
  unfold answer
  rw [part_swap a b c, part_swap o b c, part_swap o a b, part_swap o c a, abs_neg, neg_div_neg_eq, neg_div_neg_eq, neg_div_neg_eq]
  congr 1
  generalize part o b c / part a b c = x
  generalize part o c a / part a b c = y
  generalize part o a b / part a b c = z
  rw [if_congr (show (x < -Scalar.eps ∨ z < -Scalar.eps ∨ y < -Scalar.eps) ↔ (x < -Scalar.eps ∨ y < -Scalar.eps ∨ z < -Scalar.eps) by tauto) rfl
    (show _ = some ⟨o.x, o.y, x * a.z + y * b.z + z * c.z⟩ by congr 2; ring)]

theorem decided_rot {o a b c : V3 ℝ} (h : OffCorners o ⟨a, b, c⟩) : OffCorners o ⟨b, c, a⟩ := by
  intro w0 w1 w2 h1 hx hy
  have := h w2 w0 w1 (by linarith) (by dsimp only at *; linarith) (by dsimp only at *; linarith)
  tauto

theorem decided_swap {o a b c : V3 ℝ} (h : OffCorners o ⟨a, b, c⟩) : OffCorners o ⟨a, c, b⟩ := by
  intro w0 w1 w2 h1 hx hy
  have := h w0 w2 w1 (by linarith) (by dsimp only at *; linarith) (by dsimp only at *; linarith)
  tauto

theorem lineTriangle_answer {o a b c : V3 ℝ} (h : OffCorners o ⟨a, b, c⟩) :
    Inter.lineTriangle ⟨o, V3.neg V3.ez⟩ ⟨a, b, c⟩ Scalar.eps = answer o a b c := by
  have heps := real_eps_pos
  have ha : V3.dot (V3.sub b a) (V3.cross (V3.neg V3.ez) (V3.sub c a)) = part a b c := by
    unfold part; v3; ring
  have hu : V3.dot (V3.sub o a) (V3.cross (V3.neg V3.ez) (V3.sub c a)) = part o c a := by
    unfold part; v3; ring
  have hv : V3.dot (V3.neg V3.ez) (V3.cross (V3.sub o a) (V3.sub b a)) = part o a b := by
    unfold part; v3; ring
  have hsum : part o b c + part o c a + part o a b = part a b c := by unfold part; ring
  unfold Inter.lineTriangle answer
  dsimp only
  rw [ha, hu, hv]
  by_cases hd : |part a b c| < Scalar.eps
  · rw [if_pos hd, if_pos]
    simp only [real_lt, real_neg, Bool.and_eq_true, decide_eq_true_eq]
    exact abs_lt.1 hd
  · have h0 : part a b c ≠ 0 := by intro h0; rw [h0, abs_zero] at hd; exact hd heps
    rw [if_neg hd, if_neg]
    swap
    · simp only [real_lt, real_neg, Bool.and_eq_true, decide_eq_true_eq]
      exact fun hc => hd (abs_lt.2 hc)
    have hz : V3.add o (V3.smul (one /. part a b c *. V3.dot (V3.sub c a) (V3.cross (V3.sub o a) (V3.sub b a))) (V3.neg V3.ez)) =
        ⟨o.x, o.y, (part o b c / part a b c) * a.z + (part o c a / part a b c) * b.z + (part o a b / part a b c) * c.z⟩ := by
      have : (part o b c / part a b c) * a.z + (part o c a / part a b c) * b.z + (part o a b / part a b c) * c.z =
          (part o b c * a.z + part o c a * b.z + part o a b * c.z) / part a b c := by ring
      rw [this]
      have h3 : o.z * part a b c - V3.dot (V3.sub c a) (V3.cross (V3.sub o a) (V3.sub b a)) =
          part o b c * a.z + part o c a * b.z + part o a b * c.z := by
        unfold part; v3; ring
      rw [← h3]
      v3
      congr 1
      · ring
      · ring
      · field_simp
        ring
    rw [hz]
    have e1 : one /. part a b c *. part o c a = part o c a / part a b c := by
      simp only [real_div, real_mul, real_one]; ring
    have e2 : one /. part a b c *. part o a b = part o a b / part a b c := by
      simp only [real_div, real_mul, real_one]; ring
    rw [e1, e2]
    have hs : part o b c / part a b c + part o c a / part a b c + part o a b / part a b c = 1 := by
      rw [← add_div, ← add_div, hsum, div_self h0]
    have hx : part o b c / part a b c * a.x + part o c a / part a b c * b.x + part o a b / part a b c * c.x = o.x := by
      have : part o b c * a.x + part o c a * b.x + part o a b * c.x = o.x * part a b c := by unfold part; ring
      field_simp; linarith
    have hy : part o b c / part a b c * a.y + part o c a / part a b c * b.y + part o a b / part a b c * c.y = o.y := by
      have : part o b c * a.y + part o c a * b.y + part o a b * c.y = o.y * part a b c := by unfold part; ring
      field_simp; linarith
    have hdec := h _ _ _ hs hx hy
    generalize part o b c / part a b c = x at *
    generalize part o c a / part a b c = y at *
    generalize part o a b / part a b c = z at *
    simp only [real_lt, real_sub, real_zero, real_add, real_one, Bool.or_eq_true, decide_eq_true_eq, zero_sub]
    by_cases hn : x < -Scalar.eps ∨ y < -Scalar.eps ∨ z < -Scalar.eps
    · rw [if_pos hn]
      by_cases h1 : y < -Scalar.eps ∨ 1 + Scalar.eps < y
      · rw [if_pos h1]
      · rw [if_neg h1, if_pos]
        rw [not_or] at h1
        rcases hn with hn | hn | hn
        · right; linarith
        · exact absurd hn h1.1
        · exact .inl hn
    · rw [if_neg hn]
      simp only [not_or, not_lt] at hn
      have hb : x ≤ 1 + Scalar.eps ∧ y ≤ 1 + Scalar.eps ∧ z ≤ 1 + Scalar.eps := by
        rcases hdec with h | h | h | h
        · exact h
        · linarith [hn.1]
        · linarith [hn.2.1]
        · linarith [hn.2.2]
      rw [if_neg, if_neg]
      · rintro (h | h) <;> linarith [hn.1, hn.2.2]
      · rintro (h | h) <;> linarith [hn.2.1, hb.2.1]

theorem lineTriangle {o : V3 ℝ} {T T' : Triangle ℝ} (h : [T'.v0, T'.v1, T'.v2].Perm [T.v0, T.v1, T.v2]) (hd : OffCorners o T) :
    Inter.lineTriangle ⟨o, V3.neg V3.ez⟩ T' Scalar.eps = Inter.lineTriangle ⟨o, V3.neg V3.ez⟩ T Scalar.eps := by
  obtain ⟨a, b, c⟩ := T
  obtain ⟨a', b', c'⟩ := T'
  dsimp only at h
  have e := lineTriangle_answer hd
  rcases perm3 h with ⟨rfl, rfl, rfl⟩ | ⟨rfl, rfl, rfl⟩ | ⟨rfl, rfl, rfl⟩ | ⟨rfl, rfl, rfl⟩ | ⟨rfl, rfl, rfl⟩ | ⟨rfl, rfl, rfl⟩
  · rfl
  · rw [e, lineTriangle_answer (decided_swap hd), answer_swap]
  · rw [e, lineTriangle_answer (decided_swap (decided_rot hd)), answer_swap, answer_rot]
  · rw [e, lineTriangle_answer (decided_rot hd), answer_rot]
  · rw [e, lineTriangle_answer (decided_rot (decided_rot hd)), answer_rot, answer_rot]
  · rw [e, lineTriangle_answer (decided_swap (decided_rot (decided_rot hd))), answer_swap, answer_rot, answer_rot]

theorem samplingLine {o : V3 ℝ} {ts ts' : List (TriangleGround ℝ)} (h : List.Forall₂ Relisted ts ts') (hd : ∀ t ∈ ts, OffCorners o t.tri) :
    Rib.samplingLineMesh ts' ⟨o, V3.neg V3.ez⟩ = Rib.samplingLineMesh ts ⟨o, V3.neg V3.ez⟩ := by
  have : Rib.samplingHits ts' ⟨o, V3.neg V3.ez⟩ = Rib.samplingHits ts ⟨o, V3.neg V3.ez⟩ := by
    unfold Rib.samplingHits
    induction h with
    | nil => rfl
    | @cons t t' ts ts' ht hts ih =>
      rw [List.filterMap_cons, List.filterMap_cons, lineTriangle ht.vertices (hd t (by simp)), ht.friction,
        ih fun u hu => hd u (by simp [hu])]
  unfold Rib.samplingLineMesh
  rw [this]

end Relist

/-- **C134, sampling method**: listing the vertices of faces in another order changes nothing, unless a sampling line passes beside a corner
at a distance of the order of the tolerance. -/
theorem C134_sampling_partial (r : Rib ℝ) (pose : Affine ℝ) {ts ts' : List (TriangleGround ℝ)} (h : List.Forall₂ Relisted ts ts')
    (hd : ∀ t ∈ ts, ∀ l ∈ [r.lineXp pose, r.lineXm pose, r.lineYp pose, r.lineYm pose], OffCorners l.origin t.tri) :
    r.envelopSamplingMesh ts' pose = r.envelopSamplingMesh ts pose := by
  have e : ∀ l ∈ [r.lineXp pose, r.lineXm pose, r.lineYp pose, r.lineYm pose],
      Rib.samplingLineMesh ts' l = Rib.samplingLineMesh ts l := by
    intro l hl
    have hdir : l = ⟨l.origin, V3.neg V3.ez⟩ := by
      simp only [List.mem_cons, List.not_mem_nil, or_false] at hl
      rcases hl with rfl | rfl | rfl | rfl <;> rfl
    rw [hdir]
    exact Relist.samplingLine h fun t ht => hd t ht l hl
  unfold Rib.envelopSamplingMesh Rib.envelopSampling
  rw [e _ (by simp), e _ (by simp), e _ (by simp), e _ (by simp)]

end Enve
