import Verif.Model.IntersectionMore
import Verif.Props.CoplanarProps

/-! # The common point of two lines, rays or segments -/

namespace Enve
open Scalar Spec

theorem Inter.crossParam0_eq (o0 d0 o1 d1 : V3 ℝ) : Inter.crossParam0 o0 d0 o1 d1 =
    dot3 (cross3 (minus o1 o0) d1) (cross3 d0 d1) / dot3 (cross3 d0 d1) (cross3 d0 d1) := by
  simp only [Inter.crossParam0, V3.cross_eq3, V3.sub_eq3, V3.dot_eq, real_div]

theorem Inter.crossParam1_eq (o0 d0 o1 d1 : V3 ℝ) : Inter.crossParam1 o0 d0 o1 d1 =
    dot3 (cross3 (minus o1 o0) d0) (cross3 d0 d1) / dot3 (cross3 d0 d1) (cross3 d0 d1) := by
  simp only [Inter.crossParam1, V3.cross_eq3, V3.sub_eq3, V3.dot_eq, real_div, V3.neg, real_neg]
  simp only [dot3, cross3, minus]
  congr 1 <;> ring

theorem Spec.dot3_self_eq_zero {a : V3 ℝ} : dot3 a a = 0 ↔ a = ⟨0, 0, 0⟩ := by
  rw [← V3.sqNorm_eq_zero, V3.sqNorm, V3.dot_eq]

/-- Two lines that are not parallel and lie in a plane have exactly one common point, and the two
parameters computed by the code are those of that point. -/
theorem Inter.cross_spec (o0 d0 o1 d1 : V3 ℝ) (hN : cross3 d0 d1 ≠ ⟨0, 0, 0⟩)
    (hc : dot3 (minus o0 o1) (cross3 d0 d1) = 0) :
    along o0 (Inter.crossParam0 o0 d0 o1 d1) d0 = along o1 (Inter.crossParam1 o0 d0 o1 d1) d1 := by
  have hD : dot3 (cross3 d0 d1) (cross3 d0 d1) ≠ 0 := fun h => hN (dot3_self_eq_zero.1 h)
  rw [Inter.crossParam0_eq, Inter.crossParam1_eq]
  obtain ⟨e1, e2, e3⟩ := V3.decomp d0 d1 (minus o1 o0)
  have hk : dot3 (minus o1 o0) (V3.cross d0 d1) = 0 := by
    rw [V3.cross_eq3]; simp only [dot3, minus] at hc ⊢; linear_combination -hc
  have hA : dot3 (minus o1 o0) d0 * dot3 d1 d1 - dot3 (minus o1 o0) d1 * dot3 d0 d1 =
      dot3 (cross3 (minus o1 o0) d1) (cross3 d0 d1) := by simp only [dot3, minus, cross3]; ring
  have hB : dot3 (minus o1 o0) d1 * dot3 d0 d0 - dot3 (minus o1 o0) d0 * dot3 d0 d1 =
      -dot3 (cross3 (minus o1 o0) d0) (cross3 d0 d1) := by simp only [dot3, minus, cross3]; ring
  rw [hk, hA, hB, V3.cross_eq3] at e1 e2 e3
  generalize dot3 (cross3 (minus o1 o0) d1) (cross3 d0 d1) = A at *
  generalize dot3 (cross3 (minus o1 o0) d0) (cross3 d0 d1) = B at *
  generalize dot3 (cross3 d0 d1) (cross3 d0 d1) = D at *
  simp only [minus] at e1 e2 e3
  simp only [along]
  congr 1
  · field_simp; linear_combination -e1
  · field_simp; linear_combination -e2
  · field_simp; linear_combination -e3

/-- If the lines meet at all, they meet at the computed parameters. -/
theorem Inter.cross_unique {o0 d0 o1 d1 : V3 ℝ} (hN : cross3 d0 d1 ≠ ⟨0, 0, 0⟩) {s t : ℝ}
    (h : along o0 s d0 = along o1 t d1) :
    Inter.crossParam0 o0 d0 o1 d1 = s ∧ Inter.crossParam1 o0 d0 o1 d1 = t := by
  have hD : dot3 (cross3 d0 d1) (cross3 d0 d1) ≠ 0 := fun h => hN (dot3_self_eq_zero.1 h)
  simp only [along, V3.mk.injEq] at h
  obtain ⟨h1, h2, h3⟩ := h
  have w : minus o1 o0 = ⟨s * d0.x - t * d1.x, s * d0.y - t * d1.y, s * d0.z - t * d1.z⟩ := by
    simp only [minus]; congr 1 <;> linarith
  rw [Inter.crossParam0_eq, Inter.crossParam1_eq, w]
  constructor
  · rw [div_eq_iff hD]; simp only [dot3, cross3]; ring
  · rw [div_eq_iff hD]; simp only [dot3, cross3]; ring

theorem Inter.isParallel_false {a b : V3 ℝ} {tol : ℝ} (ht : 0 < tol)
    (h : Inter.isParallel a b tol = false) : cross3 a b ≠ ⟨0, 0, 0⟩ := by
  intro h0
  have := Rel.parV_all.2 h0 tol ht
  rw [Rel.parV] at this
  rw [this] at h
  cases h

theorem Spec.cross3_unit_right {u b : V3 ℝ} (hb : b ≠ ⟨0, 0, 0⟩) :
    cross3 u (unit3 b) = ⟨0, 0, 0⟩ ↔ cross3 u b = ⟨0, 0, 0⟩ := by
  have h0 : length3 b ≠ 0 := by rw [← V3.norm_eq]; exact (V3.norm_pos.2 hb).ne'
  have e (x y : ℝ) : u.x * (x / length3 b) = u.x * x / length3 b := by ring
  simp only [cross3, unit3, V3.mk.injEq, ← mul_div_assoc, ← sub_div, div_eq_zero_iff, h0, or_false]

theorem Spec.cross3_unit_left {u b : V3 ℝ} (hb : b ≠ ⟨0, 0, 0⟩) :
    cross3 (unit3 b) u = ⟨0, 0, 0⟩ ↔ cross3 b u = ⟨0, 0, 0⟩ :=
  ⟨fun h => cross3_swap ((cross3_unit_right hb).1 (cross3_swap h)),
    fun h => cross3_swap ((cross3_unit_right hb).2 (cross3_swap h))⟩

/-- The start, the vector and the range of parameters of a line, ray or segment, extended by `e` at
each end. -/
def Spec.track (e : ℝ) : Entity ℝ → Option (V3 ℝ × V3 ℝ × Set ℝ)
  | .line l => some (l.origin, l.direction, Set.univ)
  | .ray r => some (r.origin, r.direction, Set.Ici (-e))
  | .segment s => some (s.v0, minus s.v1 s.v0, Set.Icc (-e) (1 + e))
  | _ => none

/-- The points of a line, ray or segment extended by `e` at each end (for a segment, `e` times its
length). -/
def Spec.NearTrack (e : ℝ) (x : Entity ℝ) (p : V3 ℝ) : Prop :=
  ∃ o u S, track e x = some (o, u, S) ∧ ∃ t ∈ S, p = along o t u

/-- The overload called for two of line, ray and segment, whatever their order. -/
def Inter.cross {α : Type} [Scalar α] (a b : Entity α) (tol : α) : Option (V3 α) :=
  match a, b with
  | .line a, .line b => Inter.lineLine a b tol
  | .ray a, .ray b => Inter.rayRay a b tol
  | .segment a, .segment b => Inter.segSeg a b tol
  | .line a, .ray b => Inter.lineRay a b tol
  | .ray b, .line a => Inter.lineRay a b tol
  | .line a, .segment b => Inter.lineSegment a b tol
  | .segment b, .line a => Inter.lineSegment a b tol
  | .ray a, .segment b => Inter.raySeg a b tol
  | .segment b, .ray a => Inter.raySeg a b tol
  | _, _ => none

theorem Spec.NearTrack.line {e : ℝ} {l : Line ℝ} {p : V3 ℝ} :
    NearTrack e (.line l) p ↔ ∃ t, p = along l.origin t l.direction := by
  unfold NearTrack track
  constructor
  · rintro ⟨o, u, S, h, t, ht, rfl⟩
    simp only [Option.some.injEq, Prod.mk.injEq] at h
    obtain ⟨rfl, rfl, rfl⟩ := h
    exact ⟨t, rfl⟩
  · rintro ⟨t, h⟩
    exact ⟨_, _, _, rfl, t, Set.mem_univ _, h⟩

theorem Spec.NearTrack.ray {e : ℝ} {r : Ray ℝ} {p : V3 ℝ} :
    NearTrack e (.ray r) p ↔ ∃ t, -e ≤ t ∧ p = along r.origin t r.direction := by
  unfold NearTrack track
  constructor
  · rintro ⟨o, u, S, h, t, ht, rfl⟩
    simp only [Option.some.injEq, Prod.mk.injEq] at h
    obtain ⟨rfl, rfl, rfl⟩ := h
    exact ⟨t, ht, rfl⟩
  · rintro ⟨t, h0, h⟩
    exact ⟨_, _, _, rfl, t, h0, h⟩

theorem Spec.NearTrack.segment {e : ℝ} {s : Segment ℝ} {p : V3 ℝ} :
    NearTrack e (.segment s) p ↔ ∃ t, -e ≤ t ∧ t ≤ 1 + e ∧ p = along s.v0 t (minus s.v1 s.v0) := by
  unfold NearTrack track
  constructor
  · rintro ⟨o, u, S, h, t, ht, rfl⟩
    simp only [Option.some.injEq, Prod.mk.injEq] at h
    obtain ⟨rfl, rfl, rfl⟩ := h
    exact ⟨t, ht.1, ht.2, rfl⟩
  · rintro ⟨t, h0, h1, h⟩
    exact ⟨_, _, _, rfl, t, ⟨h0, h1⟩, h⟩

/-- The two parameter ranges select the common point. -/
theorem Inter.cross_range {o0 d0 o1 d1 : V3 ℝ} (hN : cross3 d0 d1 ≠ ⟨0, 0, 0⟩)
    (hc : dot3 (minus o0 o1) (cross3 d0 d1) = 0) (P Q : ℝ → Prop) (p : V3 ℝ) :
    ((P (Inter.crossParam0 o0 d0 o1 d1) ∧ Q (Inter.crossParam1 o0 d0 o1 d1)) ∧
      V3.add o0 (V3.smul (Inter.crossParam0 o0 d0 o1 d1) d0) = p) ↔
    (∃ t, P t ∧ p = along o0 t d0) ∧ ∃ t, Q t ∧ p = along o1 t d1 := by
  have e : V3.add o0 (V3.smul (Inter.crossParam0 o0 d0 o1 d1) d0) =
      along o0 (Inter.crossParam0 o0 d0 o1 d1) d0 := by rw [V3.real_smul, V3.real_add]; rfl
  rw [e]
  constructor
  · rintro ⟨⟨h0, h1⟩, rfl⟩
    exact ⟨⟨_, h0, rfl⟩, _, h1, Inter.cross_spec o0 d0 o1 d1 hN hc⟩
  · rintro ⟨⟨s, hs, rfl⟩, t, ht, h⟩
    obtain ⟨rfl, rfl⟩ := Inter.cross_unique hN h
    exact ⟨⟨hs, ht⟩, rfl⟩

theorem Spec.triple_of_common {o0 d0 o1 d1 : V3 ℝ} {s t : ℝ} (h : along o0 s d0 = along o1 t d1) :
    dot3 (minus o0 o1) (cross3 d0 d1) = 0 := by
  simp only [along, V3.mk.injEq] at h
  obtain ⟨h1, h2, h3⟩ := h
  simp only [dot3, minus, cross3]
  linear_combination (d0.y * d1.z - d0.z * d1.y) * h1 + (d0.z * d1.x - d0.x * d1.z) * h2 +
    (d0.x * d1.y - d0.y * d1.x) * h3

theorem Segment.toVector_eq3 (s : Segment ℝ) : s.toVector = minus s.v1 s.v0 := V3.sub_eq3 _ _

theorem Inter.lineSegment_eq {α : Type} [Scalar α] (l : Line α) (s : Segment α) (tol : α) :
    Inter.lineSegment l s tol = if Inter.isParallel l.direction s.toUnitVector tol then none else
      if Inter.crossParam1 l.origin l.direction s.v0 s.toVector <. zero -. tol ||
        one +. tol <. Inter.crossParam1 l.origin l.direction s.v0 s.toVector then none
      else some (V3.add l.origin (V3.smul
        (Inter.crossParam0 l.origin l.direction s.v0 s.toVector) l.direction)) := rfl

theorem Inter.some_iff {c : Bool} {x p : V3 ℝ} :
    (if c then none else some x) = some p ↔ c = false ∧ x = p := by
  cases c <;> simp

theorem Spec.triple_unit_right {w u b : V3 ℝ} (hb : b ≠ ⟨0, 0, 0⟩) :
    dot3 w (cross3 u (unit3 b)) = 0 ↔ dot3 w (cross3 u b) = 0 := by
  have h0 : length3 b ≠ 0 := by rw [← V3.norm_eq]; exact (V3.norm_pos.2 hb).ne'
  have : dot3 w (cross3 u (unit3 b)) = dot3 w (cross3 u b) / length3 b := by
    simp only [dot3, cross3, unit3]; ring
  rw [this, div_eq_zero_iff, or_iff_left h0]

theorem Spec.triple_unit_left {w u b : V3 ℝ} (hb : b ≠ ⟨0, 0, 0⟩) :
    dot3 w (cross3 (unit3 b) u) = 0 ↔ dot3 w (cross3 b u) = 0 := by
  have h0 : length3 b ≠ 0 := by rw [← V3.norm_eq]; exact (V3.norm_pos.2 hb).ne'
  have : dot3 w (cross3 (unit3 b) u) = dot3 w (cross3 b u) / length3 b := by
    simp only [dot3, cross3, unit3]; ring
  rw [this, div_eq_zero_iff, or_iff_left h0]

/-- Two lines, rays or segments without exactly parallel directions, listed in this order. -/
theorem Inter.cross_iff (a b : Entity ℝ) (ha : Proper a) (hb : Proper b) (hl : a.level ≤ b.level)
    (tol : ℝ) (ht : 0 < tol) (hp : Rel.parallel a b tol = false) (hs : SamePlane a b) (p : V3 ℝ)
    (ka : carrier a ≠ none) (kb : carrier b ≠ none) :
    Inter.cross a b tol = some p ↔ NearTrack tol a p ∧ NearTrack tol b p := by
  cases a with
  | none => exact absurd rfl ka
  | point => exact absurd rfl ka
  | plane => exact absurd rfl ka
  | triangle => exact absurd rfl ka
  | disk => exact absurd rfl ka
  | ball => exact absurd rfl ka
  | line x =>
    cases b with
    | none => exact absurd rfl kb
    | point => exact absurd rfl kb
    | plane => exact absurd rfl kb
    | triangle => exact absurd rfl kb
    | disk => exact absurd rfl kb
    | ball => exact absurd rfl kb
    | line y =>
      have hN := Inter.isParallel_false ht hp
      have hc := (samePlane_lines (.line ha) (.line hb)).1 hs
      have hp' : Rel.parLineLine x y tol = false := hp
      have := Inter.cross_range hN hc (fun _ => True) (fun _ => True) p
      simp only [true_and, and_self] at this
      simp only [Inter.cross, Inter.lineLine, hp', NearTrack.line, Bool.false_eq_true, if_false,
        Option.some.injEq]
      exact this
    | ray y =>
      have hN := Inter.isParallel_false ht hp
      have hc := (samePlane_lines (.line ha) (.ray hb)).1 hs
      have hp' : Rel.parLineRay x y tol = false := hp
      have := Inter.cross_range hN hc (fun _ => True) (fun t => -tol ≤ t) p
      simp only [true_and] at this
      simp only [Inter.cross, Inter.lineRay, hp', NearTrack.line, NearTrack.ray, Bool.false_eq_true,
        if_false, Inter.some_iff, real_lt, real_sub, real_zero, zero_sub, decide_eq_false_iff_not, not_lt]
      exact this
    | segment y =>
      have hv := minus_ne hb
      have hN := Inter.isParallel_false ht hp
      have hc := (samePlane_lines (.line ha) (.segment hb)).1 hs
      rw [Segment.unit_eq, ne_eq, cross3_unit_right hv] at hN
      rw [Segment.unit_eq, triple_unit_right hv] at hc
      have hp' : Inter.isParallel x.direction y.toUnitVector tol = false := hp
      have := Inter.cross_range hN hc (fun _ => True) (fun t => -tol ≤ t ∧ t ≤ 1 + tol) p
      simp only [true_and, and_assoc] at this
      simp only [Inter.cross, Inter.lineSegment_eq, hp', NearTrack.line, NearTrack.segment,
        Bool.false_eq_true, if_false, Inter.some_iff, real_lt, real_sub, real_zero, zero_sub,
        decide_eq_false_iff_not, not_lt, Bool.or_eq_false_iff, real_add, real_one,
        Segment.toVector_eq3, and_assoc]
      exact this
  | ray x =>
    cases b with
    | none => exact absurd rfl kb
    | point => exact absurd rfl kb
    | plane => exact absurd rfl kb
    | triangle => exact absurd rfl kb
    | disk => exact absurd rfl kb
    | ball => exact absurd rfl kb
    | line y => exact absurd hl (by simp [Entity.level])
    | ray y =>
      have hN := Inter.isParallel_false ht hp
      have hc := (samePlane_lines (.ray ha) (.ray hb)).1 hs
      have hp' : Rel.parRayRay x y tol = false := hp
      have := Inter.cross_range hN hc (fun t => -tol ≤ t) (fun t => -tol ≤ t) p
      simp only [and_assoc] at this
      simp only [Inter.cross, Inter.rayRay, hp', NearTrack.ray, Bool.false_eq_true,
        if_false, Inter.some_iff, real_lt, real_sub, real_zero, zero_sub, decide_eq_false_iff_not,
        not_lt, Bool.or_eq_false_iff, and_assoc]
      exact this
    | segment y =>
      have hv := minus_ne hb
      have hN := Inter.isParallel_false ht hp
      have hc := (samePlane_lines (.ray ha) (.segment hb)).1 hs
      rw [Segment.unit_eq, ne_eq, cross3_unit_right hv] at hN
      rw [Segment.unit_eq, triple_unit_right hv] at hc
      have hp' : Rel.parRaySeg x y tol = false := hp
      have := Inter.cross_range hN hc (fun t => -tol ≤ t) (fun t => -tol ≤ t ∧ t ≤ 1 + tol) p
      simp only [and_assoc] at this
      simp only [Inter.cross, Inter.raySeg, hp', NearTrack.ray, NearTrack.segment,
        Bool.false_eq_true, if_false, Inter.some_iff, real_lt, real_sub, real_zero, zero_sub,
        decide_eq_false_iff_not, not_lt, Bool.or_eq_false_iff, real_add, real_one,
        Segment.toVector_eq3, and_assoc]
      exact this
  | segment x =>
    cases b with
    | none => exact absurd rfl kb
    | point => exact absurd rfl kb
    | plane => exact absurd rfl kb
    | triangle => exact absurd rfl kb
    | disk => exact absurd rfl kb
    | ball => exact absurd rfl kb
    | line y => exact absurd hl (by simp [Entity.level])
    | ray y => exact absurd hl (by simp [Entity.level])
    | segment y =>
      have hu := minus_ne ha
      have hv := minus_ne hb
      have hN := Inter.isParallel_false ht hp
      have hc := (samePlane_lines (.segment ha) (.segment hb)).1 hs
      rw [Segment.unit_eq, Segment.unit_eq, ne_eq, cross3_unit_right hv, cross3_unit_left hu] at hN
      rw [Segment.unit_eq, Segment.unit_eq, triple_unit_right hv, triple_unit_left hu] at hc
      have hp' : Rel.parSegSeg x y tol = false := hp
      have := Inter.cross_range hN hc (fun t => -tol ≤ t ∧ t ≤ 1 + tol)
        (fun t => -tol ≤ t ∧ t ≤ 1 + tol) p
      simp only [and_assoc] at this
      simp only [Inter.cross, Inter.segSeg, hp', NearTrack.segment,
        Bool.false_eq_true, if_false, Inter.some_iff, real_lt, real_sub, real_zero, zero_sub,
        decide_eq_false_iff_not, not_lt, Bool.or_eq_false_iff, real_add, real_one,
        Segment.toVector_eq3, and_assoc]
      rw [← this]
      constructor
      · rintro ⟨h1, h2, h3, h4, h5⟩; exact ⟨h1, h3, h2, h4, h5⟩
      · rintro ⟨h1, h3, h2, h4, h5⟩; exact ⟨h1, h2, h3, h4, h5⟩

theorem Inter.cross_swap {α : Type} [Scalar α] (a b : Entity α) (tol : α) (h : a.level ≠ b.level) :
    Inter.cross a b tol = Inter.cross b a tol := by
  cases a <;> cases b <;> first | rfl | exact absurd rfl h

/-- **C71 (partial).** Two lines, rays or segments that lie in a common plane and are not parallel up to
the tolerance: the intersection is the common point of the two, both extended by the tolerance at their
ends, and there is no intersection exactly when these have no common point.  Missing: entities that do
not lie in a common plane, see `C71_skew_refuted`. -/
theorem C71_common_point_partial (a b : Entity ℝ) (ha : Proper a) (hb : Proper b)
    (ka : carrier a ≠ none) (kb : carrier b ≠ none) (tol : ℝ) (ht : 0 < tol)
    (hp : Rel.parallel a b tol = false) (hs : SamePlane a b) (p : V3 ℝ) :
    Inter.cross a b tol = some p ↔ NearTrack tol a p ∧ NearTrack tol b p := by
  rcases le_total a.level b.level with h | h
  · exact Inter.cross_iff a b ha hb h tol ht hp hs p ka kb
  · rw [C66_symmetric] at hp
    by_cases he : a.level = b.level
    · exact Inter.cross_iff a b ha hb he.le tol ht (C66_symmetric a b tol ▸ hp) hs p ka kb
    · rw [Inter.cross_swap a b tol he, and_comm]
      exact Inter.cross_iff b a hb ha h tol ht hp (SamePlane.swap.1 hs) p kb ka

theorem Spec.NearTrack.of_has {e : ℝ} (he : 0 ≤ e) {a : Entity ℝ} (ka : carrier a ≠ none) {p : V3 ℝ}
    (h : Has a p) : NearTrack e a p := by
  cases a <;> first | exact absurd rfl ka | skip
  · exact NearTrack.line.2 h
  · obtain ⟨t, h0, h⟩ := h; exact NearTrack.ray.2 ⟨t, by linarith, h⟩
  · obtain ⟨t, h0, h1, h⟩ := h; exact NearTrack.segment.2 ⟨t, by linarith, by linarith, h⟩

theorem Spec.carrier_like {a : Entity ℝ} (ha : Proper a) (ka : carrier a ≠ none) :
    ∃ o u, LineLike a o u := by
  cases a <;> first | exact absurd rfl ka | skip
  · exact ⟨_, _, .line ha⟩
  · exact ⟨_, _, .ray ha⟩
  · exact ⟨_, _, .segment ha⟩

/-- **C71.** Two lines, rays or segments with a common point, not parallel up to the tolerance: the
intersection is that point. -/
theorem C71_complete (a b : Entity ℝ) (ha : Proper a) (hb : Proper b)
    (ka : carrier a ≠ none) (kb : carrier b ≠ none) (tol : ℝ) (ht : 0 < tol)
    (hp : Rel.parallel a b tol = false) (p : V3 ℝ) (h1 : Has a p) (h2 : Has b p) :
    Inter.cross a b tol = some p := by
  refine (C71_common_point_partial a b ha hb ka kb tol ht hp ?_ p).2
    ⟨.of_has ht.le ka h1, .of_has ht.le kb h2⟩
  obtain ⟨o, u, la⟩ := carrier_like ha ka
  obtain ⟨q, v, lb⟩ := carrier_like hb kb
  obtain ⟨s, e1⟩ := la.all p h1
  obtain ⟨t, e2⟩ := lb.all p h2
  exact (samePlane_lines la lb).2 (triple_of_common (e1.symm.trans e2))

/-- **C71.** Parallel up to the tolerance means no common point is reported. -/
theorem C71_parallel_none {α : Type} [Scalar α] (a b : Entity α) (tol : α)
    (hp : Rel.parallel a b tol = true) : Inter.cross a b tol = none := by
  cases a <;> cases b <;> first | rfl | exact if_pos hp

theorem Inter.out_elim {α β : Type} (c : β → Entity α) (x : Option β) :
    Inter.out c x = x.elim .none c := by cases x <;> rfl

/-- **C71.** On two entities of the kinds line, ray and segment that are not collinear, `Intersection`
returns the point of the overload for these kinds, or an empty entity. -/
theorem C71_entity (a b : Entity ℝ) (ka : carrier a ≠ none) (kb : carrier b ≠ none)
    (tol : ℝ) (hc : Rel.collinear a b eps = false) :
    Inter.entity a b tol = .ok ((Inter.cross a b tol).elim .none .point) := by
  cases a <;> first | exact absurd rfl ka | skip
  all_goals cases b <;> first | exact absurd rfl kb | skip
  all_goals
    simp only [Inter.entity, hc, Entity.isPoint, Bool.or_self, Bool.false_eq_true, if_false]
    split <;> simp only [Inter.onPlane, Inter.general, Inter.cross, Inter.out_elim]

/-- **C71 (refuted for entities that are not coplanar).** Two perpendicular lines at distance `d`, for
`d` as large as one likes, are reported to meet; the reported point is not on the second line.  The
same holds for two segments. -/
theorem C71_skew_refuted (d : ℝ) (hd : 0 < d) (tol : ℝ) (h1 : tol ≤ 1) :
    let a : Line ℝ := ⟨⟨0, 0, 0⟩, ⟨1, 0, 0⟩⟩
    let b : Line ℝ := ⟨⟨0, 0, d⟩, ⟨0, 1, 0⟩⟩
    (Proper (.line a) ∧ Proper (.line b) ∧ ∀ p q, OnLine a p → OnLine b q → d ≤ dist3 p q) ∧
    Inter.entity (.line a) (.line b) tol = .ok (.point ⟨0, 0, 0⟩) ∧ ¬ OnLine b ⟨0, 0, 0⟩ := by
  intro a b
  have hcr : Inter.cross (.line a) (.line b) tol = some ⟨0, 0, 0⟩ := by
    have hp : Rel.parLineLine a b tol = false := by
      simp only [a, b, Rel.parLineLine, Rel.parV, Inter.isParallel, Scalar.isApprox, real_lt, real_abs,
        real_sub, real_zero, V3.real_cross, V3.norm_eq, length3]
      norm_num; exact h1
    simp only [Inter.cross, Inter.lineLine, hp, Bool.false_eq_true, if_false]
    rw [Inter.crossParam0_eq]
    simp [a, b, V3.real_add, V3.real_smul, dot3, cross3, minus]
  refine ⟨⟨by simp [a, Proper, Unit3], by simp [b, Proper, Unit3], ?_⟩, ?_, ?_⟩
  · rintro p q ⟨s, rfl⟩ ⟨t, rfl⟩
    simp only [dist3, along, a, b]
    refine Real.le_sqrt_of_sq_le ?_
    nlinarith [sq_nonneg s, sq_nonneg t]
  · rw [C71_entity _ _ (by simp [carrier]) (by simp [carrier]), hcr, Option.elim]
    simp only [a, b, Rel.collinear, Rel.colLineLine, Rel.parV, Inter.isParallel, Scalar.isApprox, real_lt,
      real_abs, real_sub, real_zero, V3.real_cross, V3.norm_eq, length3, V3.real_sub, Bool.and_eq_false_iff]
    right
    norm_num
    exact real_eps_lt_one.le
  · rintro ⟨t, h⟩
    simp only [along, b, V3.mk.injEq] at h
    linarith [h.2.2]

/-- **C71 (refuted for two segments that are not coplanar).** -/
theorem C71_skew_segments_refuted (d : ℝ) (hd : 0 < d) (tol : ℝ) (h0 : 0 ≤ tol) (h1 : tol ≤ 1) :
    let a : Segment ℝ := ⟨⟨-1, 0, 0⟩, ⟨1, 0, 0⟩⟩
    let b : Segment ℝ := ⟨⟨0, -1, d⟩, ⟨0, 1, d⟩⟩
    (∀ p q, OnSegment a p → OnSegment b q → d ≤ dist3 p q) ∧
    Inter.entity (.segment a) (.segment b) tol = .ok (.point ⟨0, 0, 0⟩) ∧ ¬ OnSegment b ⟨0, 0, 0⟩ := by
  intro a b
  have ea : a.toUnitVector = ⟨1, 0, 0⟩ := by
    rw [Segment.unit_eq]
    have : length3 (minus a.v1 a.v0) = 2 := by
      simp only [length3, minus, a]; norm_num; rw [show (4 : ℝ) = 2 ^ 2 by norm_num, Real.sqrt_sq (by norm_num)]
    simp only [unit3, this]; simp only [minus, a]; norm_num
  have eb : b.toUnitVector = ⟨0, 1, 0⟩ := by
    rw [Segment.unit_eq]
    have : length3 (minus b.v1 b.v0) = 2 := by
      simp only [length3, minus, b]; norm_num; rw [show (4 : ℝ) = 2 ^ 2 by norm_num, Real.sqrt_sq (by norm_num)]
    simp only [unit3, this]; simp only [minus, b]; norm_num
  have hcr : Inter.cross (.segment a) (.segment b) tol = some ⟨0, 0, 0⟩ := by
    have hp : Rel.parSegSeg a b tol = false := by
      simp only [ea, eb, Rel.parSegSeg, Rel.parV, Inter.isParallel, Scalar.isApprox, real_lt, real_abs,
        real_sub, real_zero, V3.real_cross, V3.norm_eq, length3]
      norm_num; exact h1
    have t0 : Inter.crossParam0 a.v0 a.toVector b.v0 b.toVector = 1 / 2 := by
      rw [Inter.crossParam0_eq, Segment.toVector_eq3, Segment.toVector_eq3]
      simp only [a, b, dot3, cross3, minus]; norm_num
    have t1 : Inter.crossParam1 a.v0 a.toVector b.v0 b.toVector = 1 / 2 := by
      rw [Inter.crossParam1_eq, Segment.toVector_eq3, Segment.toVector_eq3]
      simp only [a, b, dot3, cross3, minus]; norm_num
    simp only [Inter.cross, Inter.segSeg, hp, Bool.false_eq_true, if_false, t0, t1, Inter.some_iff]
    constructor
    · simp only [real_lt, real_sub, real_zero, real_add, real_one, Bool.or_eq_false_iff,
        decide_eq_false_iff_not, not_lt]
      refine ⟨⟨⟨?_, ?_⟩, ?_⟩, ?_⟩ <;> linarith
    · rw [Segment.toVector_eq3, V3.real_smul, V3.real_add]
      simp only [a, minus]; norm_num
  refine ⟨?_, ?_, ?_⟩
  · rintro p q ⟨s, -, -, rfl⟩ ⟨t, -, -, rfl⟩
    simp only [dist3, along, a, b, minus]
    refine Real.le_sqrt_of_sq_le ?_
    nlinarith [sq_nonneg (-1 + s * (1 - -1)), sq_nonneg (-1 + t * (1 - -1))]
  · rw [C71_entity _ _ (by simp [carrier]) (by simp [carrier]), hcr, Option.elim]
    simp only [ea, eb, Rel.collinear, Rel.colSegSeg, Rel.parV, Inter.isParallel, Scalar.isApprox, real_lt,
      real_abs, real_sub, real_zero, V3.real_cross, V3.norm_eq, length3, V3.real_sub, Bool.and_eq_false_iff]
    right
    norm_num
    exact real_eps_lt_one.le
  · rintro ⟨t, -, -, h⟩
    simp only [along, b, minus, V3.mk.injEq] at h
    linarith [h.2.2]

/-- A ray and a segment that meet in the middle of the segment. -/
example : Inter.cross (.ray ⟨⟨0, 0, 0⟩, ⟨1, 0, 0⟩⟩) (.segment ⟨⟨3, -1, 0⟩, ⟨3, 1, 0⟩⟩) (1 / 100 : ℝ) =
    some ⟨3, 0, 0⟩ := by
  have hb : Proper (.segment ⟨⟨3, -1, 0⟩, ⟨3, 1, 0⟩⟩ : Entity ℝ) := by simp [Proper]; norm_num
  have ha : Proper (.ray ⟨⟨0, 0, 0⟩, ⟨1, 0, 0⟩⟩ : Entity ℝ) := by simp [Proper, Unit3]
  refine C71_complete _ _ ha hb (by simp [carrier]) (by simp [carrier]) _ (by norm_num) ?_ _
    ⟨3, by norm_num, by simp [along]⟩ ⟨1 / 2, by norm_num, by norm_num, by simp [along, minus]; norm_num⟩
  rw [Bool.eq_false_iff, ne_eq, C66_parallel _ _ ha hb]
  simp only [ParallelWithin, attitude, unit3, angle3, dot3, minus]
  norm_num

end Enve
