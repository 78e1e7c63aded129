import Verif.Lemmas.LineTouch
import Verif.Props.DispatchProps
import Verif.Props.MemberProps

/-! # C123: entities in a common plane

Where the two entities handed to `Intersection` lie in one plane, the result is an entity of the same dimension as the common part:
a plane returns the other entity itself, a line, ray or segment in the plane of a disk or triangle returns a segment. -/

namespace Enve
open Scalar Spec

theorem Inter.entity_onPlane {α : Type} [Scalar α] (a b : Entity α) (tol : α) (ha : a.isPoint = false) (hb : b.isPoint = false)
    (hl : Rel.collinear a b eps = false) (hp : Rel.coplanar a b eps = true) :
    Inter.entity a b tol = Inter.onPlane a b tol := by
  simp only [Inter.entity, ha, hb, hl, hp, Bool.or_self, Bool.false_eq_true, if_false, if_true]

theorem Spec.SamePlane.of_plane {q : Plane ℝ} {b : Entity ℝ} (hq : Proper (.plane q)) :
    SamePlane (.plane q) b ↔ ∀ p, Has b p → OnPlane q p := by
  have hN0 : q.normal ≠ ⟨0, 0, 0⟩ := by
    intro h
    have hq : Unit3 q.normal := hq
    rw [h] at hq; simp [Unit3] at hq
  constructor
  · rintro ⟨r, hr, h⟩ p hp
    have hN := (PlaneLike.plane hq).normal_of (q := r) fun p hp => h p (.inl hp)
    have c0 := h q.origin (.inl (PlaneLike.plane hq).start)
    have p0 := h p (.inr hp)
    have hk : dot3 r.normal q.normal ≠ 0 := by
      intro h0; rw [h0] at hN; apply hr; rw [hN]; simp
    generalize dot3 r.normal q.normal = k at hN hk
    simp only [OnPlane, hN, dot3, minus] at c0 p0
    have : k * dot3 (minus p q.origin) q.normal = 0 := by
      simp only [dot3, minus]; linear_combination p0 - c0
    exact (mul_eq_zero.1 this).resolve_left hk
  · intro h
    refine ⟨q, hN0, ?_⟩
    rintro p (hp | hp)
    · exact hp
    · exact h p hp

/-- **C123.** A plane and an entity with a direction or a normal that lies in it: `Intersection` returns an entity with exactly the
points of that entity, for every positive tolerance; with the arguments in the other order as well, unless it is a triangle. -/
theorem C123_plane (q : Plane ℝ) (b : Entity ℝ) (hq : Proper (.plane q)) (hb : Proper b) (kb : attitude b ≠ none)
    (h : ∀ p, Has b p → OnPlane q p) (tol : ℝ) (ht : 0 < tol) :
    (∃ x, Inter.entity (.plane q) b tol = .ok x ∧ ∀ p, Has x p ↔ Has b p) ∧
    (b.isTriangle = false → ∃ x, Inter.entity b (.plane q) tol = .ok x ∧ ∀ p, Has x p ↔ Has b p) := by
  have hs := (SamePlane.of_plane hq).2 h
  have c1 := (C69_coplanar (.plane q) b hq hb (by simp [attitude]) kb).2 hs
  have c2 := (C69_coplanar b (.plane q) hb hq kb (by simp [attitude])).2 (SamePlane.swap.1 hs)
  have join {x y : Entity ℝ} (h1 : Inter.entity (.plane q) b tol = .ok x) (h2 : b.isTriangle = false → Inter.entity b (.plane q) tol = .ok y)
      (hx : ∀ p, Has x p ↔ Has b p) (hy : ∀ p, Has y p ↔ Has b p) :
      (∃ x, Inter.entity (.plane q) b tol = .ok x ∧ ∀ p, Has x p ↔ Has b p) ∧
      (b.isTriangle = false → ∃ x, Inter.entity b (.plane q) tol = .ok x ∧ ∀ p, Has x p ↔ Has b p) :=
    ⟨⟨x, h1, hx⟩, fun h => ⟨y, h2 h, hy⟩⟩
  cases b with
  | none => exact absurd rfl kb
  | point => exact absurd rfl kb
  | ball => exact absurd rfl kb
  | line l =>
    refine join (x := .line l) (y := .line l) ?_ (fun _ => ?_) (fun _ => Iff.rfl) (fun _ => Iff.rfl)
    · rw [Inter.entity_onPlane _ _ _ rfl rfl rfl (c1 _ real_eps_pos)]
      have : Rel.copLinePlane l q tol = true := c1 _ ht
      simp only [Inter.onPlane, Inter.linePlaneLine, this, if_true, Inter.out]
    · rw [Inter.entity_onPlane _ _ _ rfl rfl rfl (c2 _ real_eps_pos)]
      have : Rel.copLinePlane l q tol = true := c2 _ ht
      simp only [Inter.onPlane, Inter.linePlaneLine, this, if_true, Inter.out]
  | ray l =>
    refine join (x := .ray l) (y := .ray l) ?_ (fun _ => ?_) (fun _ => Iff.rfl) (fun _ => Iff.rfl)
    · rw [Inter.entity_onPlane _ _ _ rfl rfl rfl (c1 _ real_eps_pos)]
      have : Rel.copRayPlane l q tol = true := c1 _ ht
      simp only [Inter.onPlane, Inter.rayPlaneRay, this, if_true, Inter.out]
    · rw [Inter.entity_onPlane _ _ _ rfl rfl rfl (c2 _ real_eps_pos)]
      have : Rel.copRayPlane l q tol = true := c2 _ ht
      simp only [Inter.onPlane, Inter.rayPlaneRay, this, if_true, Inter.out]
  | plane r =>
    have hr : ∀ p, OnPlane q p → OnPlane r p := (SamePlane.of_plane hb).1 (SamePlane.swap.1 hs)
    have t1 : Rel.copPlanePlane q r tol = true := c1 _ ht
    have t2 : Rel.copPlanePlane r q tol = true := c2 _ ht
    refine join (x := .plane q) (y := .plane r) ?_ (fun _ => ?_) (fun p => ⟨hr p, h p⟩) (fun _ => Iff.rfl)
    · rw [Inter.entity_onPlane _ _ _ rfl rfl rfl (c1 _ real_eps_pos)]
      simp only [Inter.onPlane, Inter.planePlanePlane, t1, if_true, Inter.out]
    · rw [Inter.entity_onPlane _ _ _ rfl rfl rfl (c2 _ real_eps_pos)]
      simp only [Inter.onPlane, Inter.planePlanePlane, t2, if_true, Inter.out]
  | segment s =>
    refine join (x := .segment s) (y := .segment s) ?_ (fun _ => ?_) (fun _ => Iff.rfl) (fun _ => Iff.rfl)
    · rw [Inter.entity_onPlane _ _ _ rfl rfl rfl (c1 _ real_eps_pos)]
      have : Rel.copPlaneSeg q s tol = true := c1 _ ht
      simp only [Inter.onPlane, Inter.planeSegSeg, this, if_true, Inter.out]
    · rw [Inter.entity_onPlane _ _ _ rfl rfl rfl (c2 _ real_eps_pos)]
      have : Rel.copPlaneSeg q s tol = true := c2 _ ht
      simp only [Inter.onPlane, Inter.planeSegSeg, this, if_true, Inter.out]
  | triangle t =>
    refine join (x := .triangle t) (y := .triangle t) ?_ (fun h => by simp [Entity.isTriangle] at h) (fun _ => Iff.rfl) (fun _ => Iff.rfl)
    rw [Inter.entity_onPlane _ _ _ rfl rfl rfl (c1 _ real_eps_pos)]
    have : Rel.copPlaneTri q t tol = true := c1 _ ht
    simp only [Inter.onPlane, Inter.planeTriTri, this, if_true, Inter.out]
  | disk d =>
    refine join (x := .disk d) (y := .disk d) ?_ (fun _ => ?_) (fun _ => Iff.rfl) (fun _ => Iff.rfl)
    · rw [Inter.entity_onPlane _ _ _ rfl rfl rfl (c1 _ real_eps_pos)]
      have : Rel.copPlaneDisk q d tol = true := c1 _ ht
      simp only [Inter.onPlane, Inter.planeDiskDisk, this, if_true, Inter.out]
    · rw [Inter.entity_onPlane _ _ _ rfl rfl rfl (c2 _ real_eps_pos)]
      have : Rel.copPlaneDisk q d tol = true := c2 _ ht
      simp only [Inter.onPlane, Inter.planeDiskDisk, this, if_true, Inter.out]

/-- **C123.** The overloads that ask for the contained entity: each returns that entity or nothing, and returns it for every positive
tolerance exactly when it lies in the plane. -/
theorem C123_contained (q : Plane ℝ) (hq : Proper (.plane q)) :
    (∀ l, Proper (.line l) → ((∀ tol > 0, Inter.linePlaneLine l q tol = some l) ↔ ∀ p, OnLine l p → OnPlane q p) ∧
      ∀ tol, Inter.linePlaneLine l q tol = some l ∨ Inter.linePlaneLine l q tol = none) ∧
    (∀ r, Proper (.ray r) → ((∀ tol > 0, Inter.rayPlaneRay r q tol = some r) ↔ ∀ p, OnRay r p → OnPlane q p) ∧
      ∀ tol, Inter.rayPlaneRay r q tol = some r ∨ Inter.rayPlaneRay r q tol = none) ∧
    (∀ r, Proper (.plane r) → ((∀ tol > 0, Inter.planePlanePlane q r tol = some q) ↔ ∀ p, OnPlane r p → OnPlane q p) ∧
      ∀ tol, Inter.planePlanePlane q r tol = some q ∨ Inter.planePlanePlane q r tol = none) ∧
    (∀ s, Proper (.segment s) → ((∀ tol > 0, Inter.planeSegSeg q s tol = some s) ↔ ∀ p, OnSegment s p → OnPlane q p) ∧
      ∀ tol, Inter.planeSegSeg q s tol = some s ∨ Inter.planeSegSeg q s tol = none) ∧
    (∀ t, Proper (.triangle t) → ((∀ tol > 0, Inter.planeTriTri q t tol = some t) ↔ ∀ p, InTriangle t.v0 t.v1 t.v2 p → OnPlane q p) ∧
      ∀ tol, Inter.planeTriTri q t tol = some t ∨ Inter.planeTriTri q t tol = none) ∧
    (∀ d, Proper (.disk d) → ((∀ tol > 0, Inter.planeDiskDisk q d tol = some d) ↔ ∀ p, InDisk d p → OnPlane q p) ∧
      ∀ tol, Inter.planeDiskDisk q d tol = some d ∨ Inter.planeDiskDisk q d tol = none) := by
  have key {β : Type} (f : ℝ → Option β) (c : ℝ → Bool) (x : β) (b : Entity ℝ) (hb : Proper b) (kb : attitude b ≠ none)
      (hf : ∀ tol, f tol = if c tol then some x else none) (hc : ∀ tol, c tol = Rel.coplanar (.plane q) b tol) :
      ((∀ tol > 0, f tol = some x) ↔ ∀ p, Has b p → OnPlane q p) ∧ ∀ tol, f tol = some x ∨ f tol = none := by
    refine ⟨?_, ?_⟩
    · rw [← SamePlane.of_plane hq, ← C69_coplanar (.plane q) b hq hb (by simp [attitude]) kb]
      refine forall_congr' fun tol => forall_congr' fun ht => ?_
      rw [hf, hc]
      split <;> simp_all
    · intro tol
      rw [hf]
      split
      · exact .inl rfl
      · exact .inr rfl
  refine ⟨fun l hl => ?_, fun l hl => ?_, fun l hl => ?_, fun l hl => ?_, fun l hl => ?_, fun l hl => ?_⟩
  · exact key (Inter.linePlaneLine l q) _ l (.line l) hl (by simp [attitude]) (fun _ => rfl) (fun _ => rfl)
  · exact key (Inter.rayPlaneRay l q) _ l (.ray l) hl (by simp [attitude]) (fun _ => rfl) (fun _ => rfl)
  · exact key (Inter.planePlanePlane q l) _ q (.plane l) hl (by simp [attitude]) (fun _ => rfl) (fun _ => rfl)
  · exact key (Inter.planeSegSeg q l) _ l (.segment l) hl (by simp [attitude]) (fun _ => rfl) (fun _ => rfl)
  · exact key (Inter.planeTriTri q l) _ l (.triangle l) hl (by simp [attitude]) (fun _ => rfl) (fun _ => rfl)
  · exact key (Inter.planeDiskDisk q l) _ l (.disk l) hl (by simp [attitude]) (fun _ => rfl) (fun _ => rfl)

/-! ## Disks -/

theorem V3.dot_self_pos {u : V3 ℝ} (hu : u ≠ ⟨0, 0, 0⟩) : 0 < dot3 u u := by
  have h := V3.norm_pos.2 hu
  rw [V3.norm_eq] at h
  unfold length3 at h
  have := Real.sqrt_pos.1 h
  simp only [dot3]; nlinarith

theorem V3.disc_eq (o u c : V3 ℝ) (r : ℝ) :
    V3.dot (V3.sub o c) u * V3.dot (V3.sub o c) u - (V3.dot (V3.sub o c) (V3.sub o c) - r * r) * V3.dot u u =
      dot3 (minus o c) u ^ 2 - (dot3 (minus o c) (minus o c) - r ^ 2) * dot3 u u := by
  simp only [dot3, minus]; v3; ring

/-- A line in the plane of a disk. -/
theorem Inter.lineDisk_exact {l : Line ℝ} {d : Disk ℝ} {tol : ℝ} (ht : 0 < tol) (hr : 0 ≤ d.radius) (hu : l.direction ≠ ⟨0, 0, 0⟩)
    (h0 : OnPlane d.plane l.origin) (h1 : dot3 l.direction d.plane.normal = 0)
    (hd : Decided tol (dot3 (minus l.origin d.center) l.direction ^ 2 -
      (dot3 (minus l.origin d.center) (minus l.origin d.center) - d.radius ^ 2) * dot3 l.direction l.direction)) :
    (Inter.lineDisk l d tol = none ∧ ∀ p, OnLine l p → ¬ InDisk d p) ∨
    ∃ s, Inter.lineDisk l d tol = some s ∧ s.v0 ≠ s.v1 ∧ ∀ p, OnSegment s p ↔ OnLine l p ∧ InDisk d p := by
  obtain ⟨o, u⟩ := l
  dsimp only at *
  have hA := V3.dot_self_pos hu
  unfold Inter.lineDisk
  simp only [real_mul, real_sub, real_lt, real_neg, real_abs, real_div, real_one, real_add, real_sqrt, V3.disc_eq, decide_eq_true_eq]
  have e1 : V3.dot (V3.sub o d.center) u = dot3 (minus o d.center) u := by simp only [dot3, minus]; v3
  have e2 : V3.dot u u = dot3 u u := by simp only [dot3]; v3
  rw [e1, e2]
  have hin := Spec.inDisk_along hr h0 h1
  generalize dot3 u u = A at *
  generalize dot3 (minus o d.center) u = B at *
  generalize hC : dot3 (minus o d.center) (minus o d.center) - d.radius ^ 2 = C at *
  rcases hd with hd | hd
  · right
    have hD : 0 ≤ B ^ 2 - C * A := by linarith
    rw [if_neg (by linarith), if_neg (by rw [abs_of_nonneg hD]; linarith)]
    have hs : 0 < Real.sqrt (B ^ 2 - C * A) := Real.sqrt_pos.2 (by linarith)
    have hq : ∀ t, InDisk d (along o t u) ↔ -(B + Real.sqrt (B ^ 2 - C * A)) / A ≤ t ∧ t ≤ -(B - Real.sqrt (B ^ 2 - C * A)) / A :=
      fun t => (hin t).trans (quadratic hA hD)
    generalize Real.sqrt (B ^ 2 - C * A) = r at *
    have f1 : V3.sub o (V3.smul ((B + r) * (1 / A)) u) = along o (-(B + r) / A) u := by
      simp only [along]; v3; congr 1 <;> ring
    have f2 : V3.sub o (V3.smul ((B - r) * (1 / A)) u) = along o (-(B - r) / A) u := by
      simp only [along]; v3; congr 1 <;> ring
    refine ⟨_, rfl, ?_, ?_⟩
    · dsimp only
      rw [f1, f2]
      intro h
      have hlt : -(B - r) / A - -(B + r) / A = 2 * r / A := by ring
      have hne : -(B - r) / A - -(B + r) / A ≠ 0 := by rw [hlt]; positivity
      apply hu
      simp only [along, V3.mk.injEq] at h
      obtain ⟨x1, x2, x3⟩ := h
      have c : ∀ x : ℝ, (-(B - r) / A - -(B + r) / A) * x = 0 → x = 0 := fun x hx => (mul_eq_zero.1 hx).resolve_left hne
      ext
      · exact c _ (by linear_combination -x1)
      · exact c _ (by linear_combination -x2)
      · exact c _ (by linear_combination -x3)
    · intro p
      rw [f1, f2, onSegment_along (by rw [div_le_div_iff_of_pos_right hA]; linarith)]
      constructor
      · rintro ⟨t, t0, t1, rfl⟩
        exact ⟨⟨t, rfl⟩, (hq t).2 ⟨t0, t1⟩⟩
      · rintro ⟨⟨t, rfl⟩, hi⟩
        exact ⟨t, ((hq t).1 hi).1, ((hq t).1 hi).2, rfl⟩
  · left
    rw [if_pos hd]
    refine ⟨rfl, ?_⟩
    rintro p ⟨t, rfl⟩ hi
    have := (hin t).1 hi
    linarith [quadratic_none (t := t) hA (show B ^ 2 - C * A < 0 by linarith)]

/-- A ray in the plane of a disk. -/
theorem Inter.rayDisk_exact {l : Ray ℝ} {d : Disk ℝ} {tol : ℝ} (ht : 0 < tol) (hr : 0 ≤ d.radius) (hu : l.direction ≠ ⟨0, 0, 0⟩)
    (h0 : OnPlane d.plane l.origin) (h1 : dot3 l.direction d.plane.normal = 0)
    (hd : Decided tol (dot3 (minus l.origin d.center) l.direction ^ 2 -
      (dot3 (minus l.origin d.center) (minus l.origin d.center) - d.radius ^ 2) * dot3 l.direction l.direction)) (p : V3 ℝ) :
    Has (Inter.out .segment (Inter.rayDiskSeg l d tol)) p ↔ OnRay l p ∧ InDisk d p := by
  obtain ⟨o, u⟩ := l
  dsimp only at *
  have hA := V3.dot_self_pos hu
  unfold Inter.rayDiskSeg
  simp only [real_mul, real_sub, real_lt, real_neg, real_abs, real_div, real_one, real_add, real_sqrt, real_zero, real_max, V3.disc_eq,
    Bool.and_eq_true, decide_eq_true_eq]
  have e1 : V3.dot (V3.sub o d.center) u = dot3 (minus o d.center) u := by simp only [dot3, minus]; v3
  have e2 : V3.dot u u = dot3 u u := by simp only [dot3]; v3
  rw [e1, e2]
  have hin := Spec.inDisk_along hr h0 h1
  generalize dot3 u u = A at *
  generalize dot3 (minus o d.center) u = B at *
  generalize hC : dot3 (minus o d.center) (minus o d.center) - d.radius ^ 2 = C at *
  rcases hd with hd | hd
  · have hD : 0 ≤ B ^ 2 - C * A := by linarith
    rw [if_neg (by linarith), if_neg (by rw [abs_of_nonneg hD]; linarith)]
    have hs : 0 < Real.sqrt (B ^ 2 - C * A) := Real.sqrt_pos.2 (by linarith)
    have hq : ∀ t, InDisk d (along o t u) ↔ -(B + Real.sqrt (B ^ 2 - C * A)) / A ≤ t ∧ t ≤ -(B - Real.sqrt (B ^ 2 - C * A)) / A :=
      fun t => (hin t).trans (quadratic hA hD)
    generalize Real.sqrt (B ^ 2 - C * A) = r at *
    have hle : -(B + r) / A ≤ -(B - r) / A := by rw [div_le_div_iff_of_pos_right hA]; linarith
    rw [show -(B + r) * (1 / A) = -(B + r) / A by ring, show -(B - r) * (1 / A) = -(B - r) / A by ring]
    generalize -(B + r) / A = a at *
    generalize -(B - r) / A = b at *
    by_cases hn : a < 0 ∧ b < 0
    · rw [if_pos hn]
      simp only [Inter.out, Has, false_iff]
      rintro ⟨⟨t, t0, rfl⟩, hi⟩
      linarith [((hq t).1 hi).2, hn.2]
    · rw [if_neg hn]
      have hb : 0 ≤ b := by
        by_contra h
        exact hn ⟨by linarith [not_le.1 h], not_le.1 h⟩
      have f (k : ℝ) : V3.add o (V3.smul k u) = along o k u := by simp only [along]; v3
      simp only [Inter.out, Has]
      rw [f, f, onSegment_along (max_le_max le_rfl hle), max_eq_right hb]
      constructor
      · rintro ⟨t, t0, t1, rfl⟩
        exact ⟨⟨t, le_trans (le_max_left _ _) t0, rfl⟩, (hq t).2 ⟨le_trans (le_max_right _ _) t0, t1⟩⟩
      · rintro ⟨⟨t, t0, rfl⟩, hi⟩
        exact ⟨t, max_le t0 ((hq t).1 hi).1, ((hq t).1 hi).2, rfl⟩
  · rw [if_pos hd]
    simp only [Inter.out, Has, false_iff]
    rintro ⟨⟨t, -, rfl⟩, hi⟩
    have := (hin t).1 hi
    linarith [quadratic_none (t := t) hA (show B ^ 2 - C * A < 0 by linarith)]

/-- A segment in the plane of a disk. -/
theorem Inter.segmentDisk_exact {l : Segment ℝ} {d : Disk ℝ} {tol : ℝ} (ht : 0 < tol) (ht1 : tol ≤ 1) (hn : Unit3 d.plane.normal) (hl : tol ≤ dist3 l.v0 l.v1) (hr : tol ≤ d.radius)
    (h0 : OnPlane d.plane l.v0) (h1 : dot3 (minus l.v1 l.v0) d.plane.normal = 0)
    (hd : Decided tol (dot3 (minus l.v0 d.center) (minus l.v1 l.v0) ^ 2 -
      (dot3 (minus l.v0 d.center) (minus l.v0 d.center) - d.radius ^ 2) * dot3 (minus l.v1 l.v0) (minus l.v1 l.v0))) (p : V3 ℝ) :
    Has (Inter.out .segment (Inter.segmentDisk l d tol)) p ↔ OnSegment l p ∧ InDisk d p := by
  have hu : minus l.v1 l.v0 ≠ ⟨0, 0, 0⟩ := by
    intro h
    simp only [minus, V3.mk.injEq] at h
    unfold dist3 at hl
    rw [show l.v0.x - l.v1.x = 0 by linarith [h.1], show l.v0.y - l.v1.y = 0 by linarith [h.2.1],
      show l.v0.z - l.v1.z = 0 by linarith [h.2.2]] at hl
    norm_num at hl
    linarith
  have g1 : l.isDegenerated tol = false := by
    unfold Segment.isDegenerated Scalar.isApprox
    rw [V3.norm_sub]
    simp only [real_lt, real_abs, real_sub, real_zero, sub_zero, decide_eq_false_iff_not, not_lt]
    exact le_trans hl (le_abs_self _)
  have g2 : d.isDegenerated tol = false := by
    unfold Disk.isDegenerated Plane.isDegenerated Scalar.isApprox
    have h1 : V3.norm d.plane.normal = 1 := by
      unfold Unit3 at hn
      rw [V3.norm_eq, length3, hn, Real.sqrt_one]
    rw [h1]
    simp only [real_lt, real_abs, real_sub, real_zero, sub_zero, Bool.or_eq_false_iff, decide_eq_false_iff_not, not_lt, abs_one]
    exact ⟨le_trans hr (le_abs_self _), ht1⟩
  have hos : ∀ p, OnSegment l p ↔ ∃ t, 0 ≤ t ∧ t ≤ 1 ∧ p = along l.v0 t (minus l.v1 l.v0) := fun p => Iff.rfl
  obtain ⟨o, w⟩ := l
  have hA := V3.dot_self_pos hu
  unfold Inter.segmentDisk
  rw [g1, g2]
  simp only [Segment.toVector, real_mul, real_sub, real_lt, real_neg, real_abs, real_div, real_one, real_add, real_sqrt, real_zero,
    real_max, real_min, V3.disc_eq, Bool.and_eq_true, Bool.or_eq_true, decide_eq_true_eq, Bool.or_false, Bool.false_eq_true, if_false]
  have e0 : V3.sub w o = minus w o := by simp only [minus]; v3
  rw [e0, hos]
  dsimp only at *
  have hin := Spec.inDisk_along (le_trans ht.le hr) h0 h1
  generalize minus w o = u at *
  have e1 : V3.dot (V3.sub o d.center) u = dot3 (minus o d.center) u := by simp only [dot3, minus]; v3
  have e2 : V3.dot u u = dot3 u u := by simp only [dot3]; v3
  rw [e1, e2]
  generalize dot3 u u = A at *
  generalize dot3 (minus o d.center) u = B at *
  generalize hC : dot3 (minus o d.center) (minus o d.center) - d.radius ^ 2 = C at *
  rcases hd with hd | hd
  · have hD : 0 ≤ B ^ 2 - C * A := by linarith
    rw [if_neg (by linarith), if_neg (by rw [abs_of_nonneg hD]; linarith)]
    have hs : 0 < Real.sqrt (B ^ 2 - C * A) := Real.sqrt_pos.2 (by linarith)
    have hq : ∀ t, InDisk d (along o t u) ↔ -(B + Real.sqrt (B ^ 2 - C * A)) / A ≤ t ∧ t ≤ -(B - Real.sqrt (B ^ 2 - C * A)) / A :=
      fun t => (hin t).trans (quadratic hA hD)
    generalize Real.sqrt (B ^ 2 - C * A) = r at *
    have hle : -(B + r) / A ≤ -(B - r) / A := by rw [div_le_div_iff_of_pos_right hA]; linarith
    rw [show -(B + r) * (1 / A) = -(B + r) / A by ring, show -(B - r) * (1 / A) = -(B - r) / A by ring]
    generalize -(B + r) / A = a at *
    generalize -(B - r) / A = b at *
    by_cases hn : a < 0 ∧ b < 0 ∨ 1 < a ∧ 1 < b
    · rw [if_pos hn]
      simp only [Inter.out, Has, false_iff]
      rintro ⟨⟨t, t0, t1, rfl⟩, hi⟩
      have := (hq t).1 hi
      rcases hn with hn | hn <;> linarith [this.1, this.2, hn.1, hn.2]
    · rw [if_neg hn]
      rw [not_or] at hn
      have hb : 0 ≤ b := by
        by_contra h
        exact hn.1 ⟨by linarith [not_le.1 h], not_le.1 h⟩
      have ha : a ≤ 1 := by
        by_contra h
        exact hn.2 ⟨not_le.1 h, by linarith [not_le.1 h]⟩
      have f (k : ℝ) : V3.add o (V3.smul k u) = along o k u := by simp only [along]; v3
      simp only [Inter.out, Has]
      rw [f, f, onSegment_along (max_le_max le_rfl (min_le_min hle le_rfl)), min_eq_left ha, max_eq_right (le_min hb zero_le_one)]
      constructor
      · rintro ⟨t, t0, t1, rfl⟩
        exact ⟨⟨t, le_trans (le_max_left _ _) t0, le_trans t1 (min_le_right _ _), rfl⟩,
          (hq t).2 ⟨le_trans (le_max_right _ _) t0, le_trans t1 (min_le_left _ _)⟩⟩
      · rintro ⟨⟨t, t0, t1, rfl⟩, hi⟩
        exact ⟨t, max_le t0 ((hq t).1 hi).1, le_min ((hq t).1 hi).2 t1, rfl⟩
  · rw [if_pos hd]
    simp only [Inter.out, Has, false_iff]
    rintro ⟨⟨t, -, -, rfl⟩, hi⟩
    have := (hin t).1 hi
    linarith [quadratic_none (t := t) hA (show B ^ 2 - C * A < 0 by linarith)]

/-- How far the parameter of a line, ray or segment moves its point: the parameter of a segment runs from 0 to 1. -/
noncomputable def Spec.stride : Entity ℝ → ℝ
  | .segment s => dist3 s.v0 s.v1
  | _ => 1

/-- **C123.** A line, ray or segment in the plane of a disk, not nearly tangent to its border: in both orders of the arguments
`Intersection` returns an entity with exactly the common points. -/
theorem C123_disk_partial (a : Entity ℝ) (d : Disk ℝ) (o u : V3 ℝ) (ha : Proper a) (hd : Proper (.disk d)) (hc : carrier a = some (o, u))
    (h : SamePlane a (.disk d)) (tol : ℝ) (ht : 0 < tol) (ht1 : tol ≤ 1) (hr : tol ≤ d.radius) (hl : tol ≤ stride a)
    (hg : Decided tol (stride a ^ 2 * (d.radius ^ 2 - offLine o u d.plane.origin ^ 2))) :
    ∃ x, Inter.entity a (.disk d) tol = .ok x ∧ Inter.entity (.disk d) a tol = .ok x ∧ ∀ p, Has x p ↔ Has a p ∧ Has (.disk d) p := by
  have ka : attitude a ≠ none := by cases a <;> simp [carrier, attitude] at hc ⊢
  have kd : attitude (.disk d) ≠ none := by simp [attitude]
  have c1 := (C69_coplanar a (.disk d) ha hd ka kd).2 h eps real_eps_pos
  have c2 := (C69_coplanar (.disk d) a hd ha kd ka).2 (SamePlane.swap.1 h) eps real_eps_pos
  have h0 : 0 ≤ d.radius := hd.2.le
  have ez (u : V3 ℝ) (hu : Unit3 u) : u ≠ ⟨0, 0, 0⟩ := by rintro rfl; simp [Unit3] at hu
  have e1 (u : V3 ℝ) (hu : Unit3 u) : dot3 u u = 1 := by unfold Unit3 at hu; simp only [dot3]; linarith
  cases a with
  | line l =>
    cases hc
    have hl : Unit3 l.direction := ha
    obtain ⟨i1, i2⟩ := (samePlane_line_plane (.line ha) (.disk hd)).1 h
    have hg' : Decided tol (dot3 (minus l.origin d.center) l.direction ^ 2 -
        (dot3 (minus l.origin d.center) (minus l.origin d.center) - d.radius ^ 2) * dot3 l.direction l.direction) := by
      simp only [offLine_sq hl, stride] at hg
      rw [e1 _ hl]
      convert hg using 1
      rw [show d.plane.origin = d.center from rfl]
      ring
    refine ⟨Inter.out .segment (Inter.lineDisk l d tol), ?_, ?_, ?_⟩
    · rw [Inter.entity_onPlane _ _ _ rfl rfl rfl c1]; rfl
    · rw [Inter.entity_onPlane _ _ _ rfl rfl rfl c2]; rfl
    · intro p
      rcases Inter.lineDisk_exact ht h0 (ez _ hl) (by rw [OnPlane, dot3_comm]; exact i2) i1 hg' with ⟨e, hn⟩ | ⟨s, e, -, hs⟩
      · rw [e]
        simp only [Inter.out, Has, false_iff, not_and]
        exact hn p
      · rw [e]; exact hs p
  | ray l =>
    cases hc
    have hl : Unit3 l.direction := ha
    obtain ⟨i1, i2⟩ := (samePlane_line_plane (.ray ha) (.disk hd)).1 h
    have hg' : Decided tol (dot3 (minus l.origin d.center) l.direction ^ 2 -
        (dot3 (minus l.origin d.center) (minus l.origin d.center) - d.radius ^ 2) * dot3 l.direction l.direction) := by
      simp only [offLine_sq hl, stride] at hg
      rw [e1 _ hl]
      convert hg using 1
      rw [show d.plane.origin = d.center from rfl]
      ring
    refine ⟨Inter.out .segment (Inter.rayDiskSeg l d tol), ?_, ?_, ?_⟩
    · rw [Inter.entity_onPlane _ _ _ rfl rfl rfl c1]; rfl
    · rw [Inter.entity_onPlane _ _ _ rfl rfl rfl c2]; rfl
    · exact Inter.rayDisk_exact ht h0 (ez _ hl) (by rw [OnPlane, dot3_comm]; exact i2) i1 hg'
  | segment l =>
    cases hc
    have hu : Unit3 (unit3 (minus l.v1 l.v0)) := ha.seg
    obtain ⟨i1, i2⟩ := (samePlane_line_plane (.segment ha) (.disk hd)).1 h
    rw [Segment.unit_eq] at i1
    have hn := minus_ne ha
    have hL : length3 (minus l.v1 l.v0) ≠ 0 := by rw [← V3.norm_eq]; exact (V3.norm_pos.2 hn).ne'
    have sc (w : V3 ℝ) : dot3 w (minus l.v1 l.v0) = length3 (minus l.v1 l.v0) * dot3 w (unit3 (minus l.v1 l.v0)) := by
      simp only [unit3, dot3]; field_simp
    have hLL : length3 (minus l.v1 l.v0) = dist3 l.v0 l.v1 := by
      unfold length3 dist3 minus; congr 1; ring
    have hsq : dot3 (minus l.v1 l.v0) (minus l.v1 l.v0) = dist3 l.v0 l.v1 ^ 2 := by
      unfold dist3; rw [Real.sq_sqrt (by positivity)]; simp only [dot3, minus]; ring
    have hg' : Decided tol (dot3 (minus l.v0 d.center) (minus l.v1 l.v0) ^ 2 -
        (dot3 (minus l.v0 d.center) (minus l.v0 d.center) - d.radius ^ 2) * dot3 (minus l.v1 l.v0) (minus l.v1 l.v0)) := by
      simp only [offLine_sq hu, stride] at hg
      rw [sc (minus l.v0 d.center), hsq, hLL]
      convert hg using 1
      show _ = _ * (_ - (dot3 (minus l.v0 d.center) (minus l.v0 d.center) - dot3 (minus l.v0 d.center) _ ^ 2))
      ring
    refine ⟨Inter.out .segment (Inter.segmentDisk l d tol), ?_, ?_, ?_⟩
    · rw [Inter.entity_onPlane _ _ _ rfl rfl rfl c1]; rfl
    · rw [Inter.entity_onPlane _ _ _ rfl rfl rfl c2]; rfl
    · refine Inter.segmentDisk_exact ht ht1 hd.1 hl hr (by rw [OnPlane, dot3_comm]; exact i2) ?_ hg'
      rw [dot3_comm, sc, dot3_comm]
      exact mul_eq_zero_of_right _ i1
  | none => simp [carrier] at hc
  | point => simp [carrier] at hc
  | plane => simp [carrier] at hc
  | triangle => simp [carrier] at hc
  | disk => simp [carrier] at hc
  | ball => simp [carrier] at hc

/-- **C123 (refuted near tangency).** For every tolerance below 1 there is a line in the plane of the unit disk with two different points
in the disk, for which a single point is returned. -/
theorem C123_tangent_refuted (tol : ℝ) (ht : 0 < tol) (h1 : tol < 1) :
    ∃ (l : Line ℝ) (d : Disk ℝ) (p q r : V3 ℝ), Proper (.line l) ∧ Proper (.disk d) ∧ SamePlane (.line l) (.disk d) ∧ p ≠ q ∧
      (OnLine l p ∧ InDisk d p) ∧ (OnLine l q ∧ InDisk d q) ∧ Inter.entity (.line l) (.disk d) tol = .ok (.segment ⟨r, r⟩) := by
  obtain ⟨y, hy⟩ : ∃ y : ℝ, y ^ 2 = 1 - tol / 2 := ⟨Real.sqrt (1 - tol / 2), Real.sq_sqrt (by linarith)⟩
  obtain ⟨x, hx, hx0⟩ : ∃ x : ℝ, x ^ 2 = tol / 2 ∧ 0 < x :=
    ⟨Real.sqrt (tol / 2), Real.sq_sqrt (by linarith), Real.sqrt_pos.2 (by linarith)⟩
  let l : Line ℝ := ⟨⟨0, y, 0⟩, ⟨1, 0, 0⟩⟩
  let d : Disk ℝ := ⟨1, ⟨⟨0, 0, 0⟩, ⟨0, 0, 1⟩⟩⟩
  have hl : Proper (.line l) := by simp [Proper, Unit3, l]
  have hd : Proper (.disk d) := by simp [Proper, Unit3, d]
  have hs : SamePlane (.line l) (.disk d) := by
    refine ⟨d.plane, by simp [d], ?_⟩
    rintro p (⟨t, rfl⟩ | hp)
    · simp [OnPlane, dot3, minus, along, l, d]
    · exact hp.1
  have c1 := (C69_coplanar (.line l) (.disk d) hl hd (by simp [attitude]) (by simp [attitude])).2 hs eps real_eps_pos
  have hin (k : ℝ) (hk : k ^ 2 = x ^ 2) : InDisk d ⟨k, y, 0⟩ := by
    refine ⟨by simp [OnPlane, dot3, minus, d], ?_⟩
    simp only [d, dist3]
    rw [Real.sqrt_le_left (by norm_num)]
    nlinarith
  refine ⟨l, d, ⟨x, y, 0⟩, ⟨-x, y, 0⟩, foot l d.center, hl, hd, hs, ?_, ⟨⟨x, by simp [along, l]⟩, hin x rfl⟩,
    ⟨⟨-x, by simp [along, l]⟩, hin (-x) (by ring)⟩, ?_⟩
  · intro h
    have : x = -x := congrArg V3.x h
    linarith
  · rw [Inter.entity_onPlane _ _ _ rfl rfl rfl c1]
    simp only [Inter.onPlane]
    have hf : dist3 (foot l d.center) d.center ^ 2 = y ^ 2 := by
      unfold dist3
      rw [Real.sq_sqrt (by positivity)]
      simp [foot, along, l, d, Disk.center, dot3, minus]
    have hdd : dot3 l.direction l.direction = 1 := by simp [l, dot3]
    rcases Inter.lineDisk_spec l d tol ht (by rw [hdd]; norm_num) with ⟨-, h⟩ | ⟨ρ, e, -, ⟨rfl, -, -⟩ | ⟨-, h, -⟩⟩
    · rw [hf, hdd, hy] at h
      simp only [d] at h
      linarith
    · rw [e]
      simp [Inter.out, along]
    · rw [hf, hdd, hy] at h
      simp only [d] at h
      linarith

/-! ## Triangles -/

/-- What the triangle lemma needs from a line-like entity in the plane of a triangle. -/
theorem Inter.lineTriangle_inPlane {a : Entity ℝ} {T : Triangle ℝ} {o u : V3 ℝ} (ha : LineLike a o u) (hT : Proper (.triangle T))
    (h : SamePlane a (.triangle T)) {tol : ℝ} (ht : 0 < tol) (hc : Cuts tol (sideOf o u (faceNormal T)) T) :
    (∃ s, Inter.lineTriangleSeg ⟨o, u⟩ T tol = .ok (some s) ∧ s.v0 ≠ s.v1 ∧
      ∀ X, OnSegment s X ↔ InTriangle T.v0 T.v1 T.v2 X ∧ OnLine ⟨o, u⟩ X) ∨
    (Inter.lineTriangleSeg ⟨o, u⟩ T tol = .ok none ∧ ∀ X, InTriangle T.v0 T.v1 T.v2 X → ¬ OnLine ⟨o, u⟩ X) := by
  obtain ⟨i1, i2⟩ := (samePlane_line_plane ha (.triangle hT)).1 h
  have hN : Unit3 (faceNormal T) := hT.tri
  have hn : T.layingPlane.normal = faceNormal T := Triangle.normal_eq T
  have hall := (PlaneLike.triangle hT).all
  rw [hn] at i1 i2 hall
  have pv : ∀ v, InTriangle T.v0 T.v1 T.v2 v → dot3 (minus v o) (faceNormal T) = 0 := by
    intro v hv
    have := hall v hv
    simp only [dot3, minus] at this i2 ⊢; linear_combination this - i2
  have hu := ha.unit
  refine Inter.lineTriangle_cuts (n := cross3 (faceNormal T) u) hT hN ht ?_ ?_ (pv _ ?_) (pv _ ?_) (pv _ ?_)
    (sideOf o u (faceNormal T)) (fun v => rfl) hc
  · show u = _
    unfold Unit3 at hN
    simp only [dot3] at i1
    generalize faceNormal T = N at *
    rw [V3.cross_eq3]
    ext <;> simp only [cross3]
    · linear_combination -u.x * hN + N.x * i1
    · linear_combination -u.y * hN + N.y * i1
    · linear_combination -u.z * hN + N.z * i1
  · show u ≠ _
    rintro rfl; simp [Unit3] at hu
  · exact ⟨1, 0, 0, by norm_num, by norm_num, by norm_num, by norm_num, by ext <;> simp⟩
  · exact ⟨0, 1, 0, by norm_num, by norm_num, by norm_num, by norm_num, by ext <;> simp⟩
  · exact ⟨0, 0, 1, by norm_num, by norm_num, by norm_num, by norm_num, by ext <;> simp⟩

/-- **C123.** A line or ray in the plane of a triangle that cuts one corner off it, cuts it through a vertex, runs along an edge or
passes by it: in both orders of the arguments
`Intersection` returns an entity with exactly the common points. -/
theorem C123_triangle_partial (a : Entity ℝ) (T : Triangle ℝ) (o u : V3 ℝ) (ha : Proper a) (hT : Proper (.triangle T))
    (hc : carrier a = some (o, u)) (hs : a.isSegment = false) (h : SamePlane a (.triangle T)) (tol : ℝ) (ht : 0 < tol)
    (hg : Cuts tol (sideOf o u (faceNormal T)) T) :
    ∃ x, Inter.entity a (.triangle T) tol = .ok x ∧ Inter.entity (.triangle T) a tol = .ok x ∧
      ∀ p, Has x p ↔ Has a p ∧ Has (.triangle T) p := by
  have ka : attitude a ≠ none := by cases a <;> simp [carrier, attitude] at hc ⊢
  have kT : attitude (.triangle T) ≠ none := by simp [attitude]
  have c1 := (C69_coplanar a (.triangle T) ha hT ka kT).2 h eps real_eps_pos
  have c2 := (C69_coplanar (.triangle T) a hT ha kT ka).2 (SamePlane.swap.1 h) eps real_eps_pos
  cases a with
  | line l =>
    cases hc
    rcases Inter.lineTriangle_inPlane (.line ha) hT h ht hg with ⟨s, e, -, hx⟩ | ⟨e, hx⟩
    · refine ⟨.segment s, ?_, ?_, fun p => (hx p).trans and_comm⟩
      · rw [Inter.entity_onPlane _ _ _ rfl rfl rfl c1]; simp only [Inter.onPlane]; rw [e]; rfl
      · rw [Inter.entity_onPlane _ _ _ rfl rfl rfl c2]; simp only [Inter.onPlane]; rw [e]; rfl
    · refine ⟨.none, ?_, ?_, fun p => ?_⟩
      · rw [Inter.entity_onPlane _ _ _ rfl rfl rfl c1]; simp only [Inter.onPlane]; rw [e]; rfl
      · rw [Inter.entity_onPlane _ _ _ rfl rfl rfl c2]; simp only [Inter.onPlane]; rw [e]; rfl
      · simp only [Has, false_iff, not_and]
        exact fun h1 h2 => hx p h2 h1
  | ray r =>
    cases hc
    have hl := Inter.lineTriangle_inPlane (.ray ha) hT h ht hg
    rcases hl with ⟨s, e, (hne : Proper (.segment s)), hx⟩ | ⟨e, hx⟩
    · have hsl : SameLine (.ray r) (.segment s) := by
        refine ⟨⟨r.origin, r.direction⟩, ?_⟩
        rintro p (⟨t, -, rfl⟩ | hp)
        · exact ⟨t, rfl⟩
        · exact ((hx p).1 hp).2
      obtain ⟨x, ex, hxx⟩ := C76_overlap_partial (.ray r) (.segment s) ha hne (by simp [carrier]) (by simp [carrier]) hsl
        (fun h => by simp [Entity.isSegment] at h) tol ht (fun _ h => by simp [Entity.isRay] at h)
      have hcol : Rel.collinear (.ray r) (.segment s) eps = true :=
        hsl.collinear ha hne (by simp [carrier]) (by simp [carrier]) (fun h => by simp [Entity.isRay] at h) real_eps_pos
      rw [Inter.entity_onLine _ _ _ rfl rfl hcol] at ex
      simp only [Inter.onLine] at ex
      have er : Inter.rayTriangleSeg r T tol = .ok (Inter.raySegSeg r s tol) := by
        unfold Inter.rayTriangleSeg; rw [e]; rfl
      refine ⟨x, ?_, ?_, fun p => ?_⟩
      · rw [Inter.entity_onPlane _ _ _ rfl rfl rfl c1]; simp only [Inter.onPlane]; rw [er]; exact ex
      · rw [Inter.entity_onPlane _ _ _ rfl rfl rfl c2]; simp only [Inter.onPlane]; rw [er]; exact ex
      · rw [hxx p]
        show OnRay r p ∧ OnSegment s p ↔ OnRay r p ∧ InTriangle T.v0 T.v1 T.v2 p
        rw [hx p]
        exact ⟨fun h => ⟨h.1, h.2.1⟩, fun h => ⟨h.1, h.2, by obtain ⟨t, -, e⟩ := h.1; exact ⟨t, e⟩⟩⟩
    · have er : Inter.rayTriangleSeg r T tol = .ok none := by
        unfold Inter.rayTriangleSeg; rw [e]; rfl
      refine ⟨.none, ?_, ?_, fun p => ?_⟩
      · rw [Inter.entity_onPlane _ _ _ rfl rfl rfl c1]; simp only [Inter.onPlane]; rw [er]; rfl
      · rw [Inter.entity_onPlane _ _ _ rfl rfl rfl c2]; simp only [Inter.onPlane]; rw [er]; rfl
      · simp only [Has, false_iff, not_and]
        rintro ⟨t, -, rfl⟩ h2
        exact hx _ h2 ⟨t, rfl⟩
  | segment => simp [Entity.isSegment] at hs
  | none => simp [carrier] at hc
  | point => simp [carrier] at hc
  | plane => simp [carrier] at hc
  | triangle => simp [carrier] at hc
  | disk => simp [carrier] at hc
  | ball => simp [carrier] at hc

/-- **C123.** A line in the plane of a triangle that touches it in one vertex only: in both orders of the arguments `Intersection` returns
an entity with exactly the common point. It is a segment with both ends at the vertex, not a point. -/
theorem C123_vertex_partial (l : Line ℝ) (T : Triangle ℝ) (hl : Proper (.line l)) (hT : Proper (.triangle T))
    (h : SamePlane (.line l) (.triangle T)) (tol : ℝ) (ht : 0 < tol) (A B C : V3 ℝ)
    (hABC : A = T.v0 ∧ B = T.v1 ∧ C = T.v2 ∨ A = T.v1 ∧ B = T.v2 ∧ C = T.v0 ∨ A = T.v2 ∧ B = T.v0 ∧ C = T.v1)
    (hg : VertexOn tol (sideOf l.origin l.direction (faceNormal T)) A B C) :
    Inter.entity (.line l) (.triangle T) tol = .ok (.segment ⟨A, A⟩) ∧ Inter.entity (.triangle T) (.line l) tol = .ok (.segment ⟨A, A⟩) ∧
      ∀ p, Has (.line l) p ∧ Has (.triangle T) p ↔ p = A := by
  have c1 := (C69_coplanar (.line l) (.triangle T) hl hT (by simp [attitude]) (by simp [attitude])).2 h eps real_eps_pos
  have c2 := (C69_coplanar (.triangle T) (.line l) hT hl (by simp [attitude]) (by simp [attitude])).2 (SamePlane.swap.1 h) eps real_eps_pos
  obtain ⟨i1, i2⟩ := (samePlane_line_plane (.line hl) (.triangle hT)).1 h
  have hN : Unit3 (faceNormal T) := hT.tri
  have hn : T.layingPlane.normal = faceNormal T := Triangle.normal_eq T
  have hall := (PlaneLike.triangle hT).all
  rw [hn] at i1 i2 hall
  have pv : ∀ v, InTriangle T.v0 T.v1 T.v2 v → dot3 (minus v l.origin) (faceNormal T) = 0 := by
    intro v hv
    have := hall v hv
    simp only [dot3, minus] at this i2 ⊢; linear_combination this - i2
  have hu : Unit3 l.direction := hl
  have hd : l.direction = V3.cross (cross3 (faceNormal T) l.direction) (faceNormal T) := by
    unfold Unit3 at hN
    simp only [dot3] at i1
    generalize faceNormal T = N at *
    rw [V3.cross_eq3]
    ext <;> simp only [cross3]
    · linear_combination -l.direction.x * hN + N.x * i1
    · linear_combination -l.direction.y * hN + N.y * i1
    · linear_combination -l.direction.z * hN + N.z * i1
  have m0 : InTriangle T.v0 T.v1 T.v2 T.v0 := ⟨1, 0, 0, by norm_num, by norm_num, by norm_num, by norm_num, by ext <;> simp⟩
  have m1 : InTriangle T.v0 T.v1 T.v2 T.v1 := ⟨0, 1, 0, by norm_num, by norm_num, by norm_num, by norm_num, by ext <;> simp⟩
  have m2 : InTriangle T.v0 T.v1 T.v2 T.v2 := ⟨0, 0, 1, by norm_num, by norm_num, by norm_num, by norm_num, by ext <;> simp⟩
  obtain ⟨e, hx⟩ := Inter.lineTriangle_vertex hN ht hd (pv _ m0) (pv _ m1) (pv _ m2) (sideOf l.origin l.direction (faceNormal T))
    (fun v => rfl) hABC hg
  have mA : InTriangle T.v0 T.v1 T.v2 A := by
    rcases hABC with ⟨rfl, -, -⟩ | ⟨rfl, -, -⟩ | ⟨rfl, -, -⟩ <;> assumption
  refine ⟨?_, ?_, fun p => ⟨fun hp => hx p hp.2 ?_, ?_⟩⟩
  · rw [Inter.entity_onPlane _ _ _ rfl rfl rfl c1]; simp only [Inter.onPlane]; rw [e]; rfl
  · rw [Inter.entity_onPlane _ _ _ rfl rfl rfl c2]; simp only [Inter.onPlane]; rw [e]; rfl
  · obtain ⟨t, rfl⟩ := hp.1
    simp only [sideOf, dot3, minus, along, cross3]; ring
  · rintro rfl
    refine ⟨onLine_of_side hd ?_ (pv _ mA) hg.1, mA⟩
    intro h0
    rw [h0] at hu
    simp [Unit3] at hu

/-- **C123.** A segment in the plane of a triangle, on a line that cuts one corner off the triangle, cuts it through a vertex, runs
along an edge or passes by it: in both orders of the arguments `Intersection` returns a segment that contains all common points and exceeds the segment and the triangle by at most half
the tolerance, or nothing if there is no common point. -/
theorem C123_segment_partial (a : Segment ℝ) (T : Triangle ℝ) (ha : Proper (.segment a)) (hT : Proper (.triangle T))
    (h : SamePlane (.segment a) (.triangle T)) (tol : ℝ) (ht : 0 < tol)
    (hg : Cuts tol (sideOf a.v0 (unit3 (minus a.v1 a.v0)) (faceNormal T)) T) :
    (∃ s, Inter.entity (.segment a) (.triangle T) tol = .ok (.segment s) ∧ Inter.entity (.triangle T) (.segment a) tol = .ok (.segment s) ∧
      (∀ p, OnSegment a p → InTriangle T.v0 T.v1 T.v2 p → OnSegment s p) ∧
      ∀ p, OnSegment s p → (∃ q, OnSegment a q ∧ dist3 p q ≤ tol / 2) ∧ ∃ q, InTriangle T.v0 T.v1 T.v2 q ∧ dist3 p q ≤ tol / 2) ∨
    (Inter.entity (.segment a) (.triangle T) tol = .ok .none ∧ Inter.entity (.triangle T) (.segment a) tol = .ok .none ∧
      ∀ p, OnSegment a p → ¬ InTriangle T.v0 T.v1 T.v2 p) := by
  have ka : attitude (.segment a) ≠ none := by simp [attitude]
  have kT : attitude (.triangle T) ≠ none := by simp [attitude]
  have c1 := (C69_coplanar (.segment a) (.triangle T) ha hT ka kT).2 h eps real_eps_pos
  have c2 := (C69_coplanar (.triangle T) (.segment a) hT ha kT ka).2 (SamePlane.swap.1 h) eps real_eps_pos
  rw [Inter.entity_onPlane _ _ _ rfl rfl rfl c1, Inter.entity_onPlane _ _ _ rfl rfl rfl c2]
  simp only [Inter.onPlane]
  have hall := (LineLike.segment ha).all
  have hll := Inter.lineTriangle_inPlane (.segment ha) hT h ht (by rw [Segment.unit_eq]; exact hg)
  rcases hll with ⟨s, e, (hne : Proper (.segment s)), hx⟩ | ⟨e, hx⟩
  · have hsl : SameLine (.segment a) (.segment s) := by
      refine ⟨⟨a.v0, a.toUnitVector⟩, ?_⟩
      rintro p (hp | hp)
      · exact hall p hp
      · exact ((hx p).1 hp).2
    have hcol : Rel.collinear (.segment a) (.segment s) eps = true :=
      hsl.collinear ha hne (by simp [carrier]) (by simp [carrier]) (fun h => by simp [Entity.isRay] at h) real_eps_pos
    have er : Inter.segTriangleSeg a T tol = Inter.segSegSeg a s tol := by
      unfold Inter.segTriangleSeg; rw [e]; rfl
    rw [er]
    have := C76_segments a s ha hne hsl tol ht
    rw [Inter.entity_onLine _ _ _ rfl rfl hcol] at this
    simp only [Inter.onLine] at this
    rcases this with ⟨r, er, h1, h2⟩ | ⟨er, h1⟩
    · refine .inl ⟨r, er, er, fun p hp hq => h1 p hp ((hx p).2 ⟨hq, hall p hp⟩), fun p hp => ?_⟩
      obtain ⟨h3, q, hq, hd⟩ := h2 p hp
      exact ⟨h3, q, ((hx q).1 hq).1, hd⟩
    · refine .inr ⟨er, er, fun p hp hq => ?_⟩
      have := h1 p p hp ((hx p).2 ⟨hq, hall p hp⟩)
      rw [show dist3 p p = 0 by simp [dist3]] at this
      linarith
  · have er : Inter.segTriangleSeg a T tol = .ok none := by
      unfold Inter.segTriangleSeg; rw [e]; rfl
    rw [er]
    exact .inr ⟨rfl, rfl, fun p hp hq => hx p hq (hall p hp)⟩

/-! ## Two flat bodies -/

/-- **C123 (refuted for two triangles).** Two triangles in one plane: the result is always the empty entity,
whatever they have in common; a triangle has no point in common with itself. -/
theorem C123_triangles_refuted (T U : Triangle ℝ) (hT : Proper (.triangle T)) (hU : Proper (.triangle U))
    (h : SamePlane (.triangle T) (.triangle U)) (tol : ℝ) (ht : 0 < tol) :
    Inter.entity (.triangle T) (.triangle U) tol = .ok .none := by
  have k (t : Triangle ℝ) : attitude (.triangle t) ≠ none := by simp [attitude]
  have c1 := (C69_coplanar (.triangle T) (.triangle U) hT hU (k T) (k U)).2 h
  rw [Inter.entity_onPlane _ _ _ rfl rfl rfl (c1 _ real_eps_pos)]
  have : Rel.copTriTri T U tol = true := c1 _ ht
  simp only [Inter.onPlane, Inter.triTriNone, this, Bool.not_true, Bool.false_eq_true, if_false]
  rfl

/-- **C123 (refuted for disks).** Two disks in one plane, or a triangle and a disk in one plane: the call throws. -/
theorem C123_disks_refuted (d e : Disk ℝ) (T : Triangle ℝ) (hd : Proper (.disk d)) (he : Proper (.disk e)) (hT : Proper (.triangle T))
    (tol : ℝ) :
    (SamePlane (.disk d) (.disk e) → ∃ w, Inter.entity (.disk d) (.disk e) tol = .throw w) ∧
    (SamePlane (.triangle T) (.disk d) → (∃ w, Inter.entity (.triangle T) (.disk d) tol = .throw w) ∧
      ∃ w, Inter.entity (.disk d) (.triangle T) tol = .throw w) := by
  have k (t : Triangle ℝ) : attitude (.triangle t) ≠ none := by simp [attitude]
  have k' (t : Disk ℝ) : attitude (.disk t) ≠ none := by simp [attitude]
  refine ⟨fun h => ?_, fun h => ⟨?_, ?_⟩⟩
  · have c1 := (C69_coplanar (.disk d) (.disk e) hd he (k' d) (k' e)).2 h
    rw [Inter.entity_onPlane _ _ _ rfl rfl rfl (c1 _ real_eps_pos)]
    exact ⟨_, rfl⟩
  · have c1 := (C69_coplanar (.triangle T) (.disk d) hT hd (k T) (k' d)).2 h
    rw [Inter.entity_onPlane _ _ _ rfl rfl rfl (c1 _ real_eps_pos)]
    exact ⟨_, rfl⟩
  · have c1 := (C69_coplanar (.disk d) (.triangle T) hd hT (k' d) (k T)).2 (SamePlane.swap.1 h)
    rw [Inter.entity_onPlane _ _ _ rfl rfl rfl (c1 _ real_eps_pos)]
    exact ⟨_, rfl⟩

/-- **C123.** The overload that only tells whether two triangles in one plane meet: it says yes whenever a vertex of one is in the
other, for every positive tolerance. -/
theorem C123_overlap_partial (T U : Triangle ℝ) (hT : Proper (.triangle T)) (hU : Proper (.triangle U))
    (h : SamePlane (.triangle T) (.triangle U))
    (hv : (InTriangle T.v0 T.v1 T.v2 U.v0 ∨ InTriangle T.v0 T.v1 T.v2 U.v1 ∨ InTriangle T.v0 T.v1 T.v2 U.v2) ∨
      InTriangle U.v0 U.v1 U.v2 T.v0 ∨ InTriangle U.v0 U.v1 U.v2 T.v1 ∨ InTriangle U.v0 U.v1 U.v2 T.v2) (tol : ℝ) (ht : 0 < tol) :
    Inter.triTriNone T U tol = .ok true := by
  have k (t : Triangle ℝ) : attitude (.triangle t) ≠ none := by simp [attitude]
  have : Rel.copTriTri T U tol = true := (C69_coplanar (.triangle T) (.triangle U) hT hU (k T) (k U)).2 h _ ht
  simp only [Inter.triTriNone, this, Bool.not_true, Bool.false_eq_true, if_false]
  rcases hv with (hv | hv | hv) | (hv | hv | hv)
  · rw [(Triangle.isInside_all hT _).2 hv tol ht]; simp
  · rw [(Triangle.isInside_all hT _).2 hv tol ht]; simp
  · rw [(Triangle.isInside_all hT _).2 hv tol ht]; simp
  · rw [(Triangle.isInside_all hU _).2 hv tol ht]; simp
  · rw [(Triangle.isInside_all hU _).2 hv tol ht]; simp
  · rw [(Triangle.isInside_all hU _).2 hv tol ht]; simp

/-- A triangle that points up and one that points down: together they form a star with six corners. -/
noncomputable def Demo.starUp : Triangle ℝ := ⟨⟨0, 2, 0⟩, ⟨-2, -1, 0⟩, ⟨2, -1, 0⟩⟩
/-- The second triangle of the star. -/
noncomputable def Demo.starDown : Triangle ℝ := ⟨⟨0, -2, 0⟩, ⟨2, 1, 0⟩, ⟨-2, 1, 0⟩⟩

/-- **C123 (refuted for the overload that only tells whether two triangles meet).** The two triangles of a star have a common point but
no vertex in each other: for every tolerance below one third the answer is no. -/
theorem C123_star_refuted (tol : ℝ) (ht : 0 < tol) (h1 : tol < 1 / 3) :
    Proper (.triangle Demo.starUp) ∧ Proper (.triangle Demo.starDown) ∧ SamePlane (.triangle Demo.starUp) (.triangle Demo.starDown) ∧
    (Has (.triangle Demo.starUp) ⟨0, 0, 0⟩ ∧ Has (.triangle Demo.starDown) ⟨0, 0, 0⟩) ∧
    Inter.triTriNone Demo.starUp Demo.starDown tol = .ok false := by
  have hT : Proper (.triangle Demo.starUp) := by simp [Proper, Demo.starUp, cross3, minus]; norm_num
  have hU : Proper (.triangle Demo.starDown) := by simp [Proper, Demo.starDown, cross3, minus]; norm_num
  have hs : SamePlane (.triangle Demo.starUp) (.triangle Demo.starDown) := by
    refine ⟨⟨⟨0, 0, 0⟩, ⟨0, 0, 1⟩⟩, by simp, ?_⟩
    rintro p (⟨a, b, c, -, -, -, -, rfl⟩ | ⟨a, b, c, -, -, -, -, rfl⟩) <;>
      simp [OnPlane, dot3, minus, Demo.starUp, Demo.starDown]
  refine ⟨hT, hU, hs, ⟨?_, ?_⟩, ?_⟩
  · exact ⟨1 / 3, 1 / 3, 1 / 3, by norm_num, by norm_num, by norm_num, by norm_num, by simp [Demo.starUp]; norm_num⟩
  · exact ⟨1 / 3, 1 / 3, 1 / 3, by norm_num, by norm_num, by norm_num, by norm_num, by simp [Demo.starDown]; norm_num⟩
  · have k (t : Triangle ℝ) : attitude (.triangle t) ≠ none := by simp [attitude]
    have : Rel.copTriTri Demo.starUp Demo.starDown tol = true :=
      (C69_coplanar (.triangle Demo.starUp) (.triangle Demo.starDown) hT hU (k _) (k _)).2 hs _ ht
    simp only [Inter.triTriNone, this, Bool.not_true, Bool.false_eq_true, if_false]
    have no (t : Triangle ℝ) (p : V3 ℝ) (h : (t.barycentric p).1 = -1 / 3 ∨ (t.barycentric p).2.1 = -1 / 3 ∨ (t.barycentric p).2.2 = -1 / 3) :
        t.isInside p tol = false := by
      rw [Bool.eq_false_iff, Ne, Triangle.isInside_iff]
      rintro ⟨⟨⟨x, -⟩, ⟨y, -⟩, z, -⟩, -⟩
      rcases h with h | h | h
      · rw [h] at x; linarith
      · rw [h] at y; linarith
      · rw [h] at z; linarith
    rw [no _ _ (.inl ?_), no _ _ (.inr (.inl ?_)), no _ _ (.inr (.inr ?_)), no _ _ (.inl ?_), no _ _ (.inr (.inl ?_)),
      no _ _ (.inr (.inr ?_))]
    · rfl
    all_goals
      simp only [Triangle.barycentric, Demo.starUp, Demo.starDown]
      v3
      norm_num

/-! ## The theorems apply -/

/-- The ground plane, and in it a line, a disk of radius 2 and a triangle. -/
noncomputable def Demo.floor : Plane ℝ := ⟨⟨0, 0, 0⟩, ⟨0, 0, 1⟩⟩
noncomputable def Demo.lane : Line ℝ := ⟨⟨-5, 1, 0⟩, ⟨1, 0, 0⟩⟩
noncomputable def Demo.plate : Disk ℝ := ⟨2, Demo.floor⟩

theorem Demo.lane_floor : ∀ p, OnLine Demo.lane p → OnPlane Demo.floor p := by
  rintro p ⟨t, rfl⟩; simp [OnPlane, dot3, minus, along, Demo.lane, Demo.floor]

example : ∃ x, Inter.entity (.plane Demo.floor) (.line Demo.lane) eps = .ok x ∧ ∀ p, Has x p ↔ OnLine Demo.lane p :=
  (C123_plane Demo.floor (.line Demo.lane) (by simp [Proper, Unit3, Demo.floor]) (by simp [Proper, Unit3, Demo.lane])
    (by simp [attitude]) Demo.lane_floor eps real_eps_pos).1

example : ∃ x, Inter.entity (.line Demo.lane) (.disk Demo.plate) eps = .ok x ∧ Has x ⟨1, 1, 0⟩ ∧ ¬ Has x ⟨2, 1, 0⟩ := by
  have e1 := real_eps_lt_one
  obtain ⟨x, e, -, hx⟩ := C123_disk_partial (.line Demo.lane) Demo.plate _ _ (by simp [Proper, Unit3, Demo.lane])
    (by simp [Proper, Unit3, Demo.plate, Demo.floor]) rfl
    ⟨Demo.floor, by simp [Demo.floor], by rintro p (hp | hp); exacts [Demo.lane_floor p hp, hp.1]⟩ eps real_eps_pos e1.le
    (by simp only [Demo.plate]; linarith) (by simp only [stride]; linarith)
    (.inl (by
      rw [offLine_sq (by simp [Unit3, Demo.lane])]
      simp only [stride, Demo.plate, Demo.floor, Demo.lane, minus, dot3]
      norm_num
      linarith))
  refine ⟨x, e, (hx _).2 ⟨⟨6, by simp [along, Demo.lane]; norm_num⟩, ?_, ?_⟩, fun h => ?_⟩
  · simp [Demo.plate, Demo.floor, OnPlane, dot3, minus]
  · simp only [Demo.plate, Demo.floor, dist3]
    rw [Real.sqrt_le_left (by norm_num)]; norm_num
  · have := ((hx _).1 h).2.2
    simp only [Demo.plate, Demo.floor, dist3] at this
    rw [Real.sqrt_le_left (by norm_num)] at this
    norm_num at this

/-- The lane cuts the top corner off the triangle that points up: the common part is the segment from (-2/3, 1) to (2/3, 1). -/
example : ∃ x, Inter.entity (.triangle Demo.starUp) (.line Demo.lane) eps = .ok x ∧ Has x ⟨1 / 2, 1, 0⟩ ∧ ¬ Has x ⟨1, 1, 0⟩ := by
  have e0 := real_eps_pos
  have e2 : (eps : ℝ) ≤ 1 / 4 := by rw [real_eps]; norm_num
  have hn : faceNormal Demo.starUp = ⟨0, 0, 1⟩ := by
    have : length3 ⟨0, 0, 12⟩ = 12 := by
      unfold length3; rw [show (0:ℝ) ^ 2 + 0 ^ 2 + 12 ^ 2 = 12 ^ 2 by norm_num, Real.sqrt_sq (by norm_num)]
    simp only [faceNormal, Demo.starUp, cross3, minus]
    norm_num
    simp only [unit3, this]
    norm_num
  have hs : SamePlane (.line Demo.lane) (.triangle Demo.starUp) := by
    refine ⟨Demo.floor, by simp [Demo.floor], ?_⟩
    rintro p (hp | ⟨a, b, c, -, -, -, -, rfl⟩)
    · exact Demo.lane_floor p hp
    · simp [OnPlane, dot3, minus, Demo.starUp, Demo.floor]
  obtain ⟨x, -, e, hx⟩ := C123_triangle_partial (.line Demo.lane) Demo.starUp _ _ (by simp [Proper, Unit3, Demo.lane])
    (by simp [Proper, Demo.starUp, cross3, minus]; norm_num) rfl rfl hs eps e0
    (by
      rw [hn]
      left; left
      have d1 : dist3 Demo.starUp.v0 Demo.starUp.v1 ≤ 4 := by
        simp only [Demo.starUp, dist3]; rw [Real.sqrt_le_left (by norm_num)]; norm_num
      have d2 : dist3 Demo.starUp.v0 Demo.starUp.v2 ≤ 4 := by
        simp only [Demo.starUp, dist3]; rw [Real.sqrt_le_left (by norm_num)]; norm_num
      have g0 : sideOf Demo.lane.origin Demo.lane.direction ⟨0, 0, 1⟩ Demo.starUp.v0 = 1 := by
        simp [sideOf, Demo.lane, Demo.starUp, dot3, minus, cross3]; norm_num
      have g1 : sideOf Demo.lane.origin Demo.lane.direction ⟨0, 0, 1⟩ Demo.starUp.v1 = -2 := by
        simp [sideOf, Demo.lane, Demo.starUp, dot3, minus, cross3]; norm_num
      have g2 : sideOf Demo.lane.origin Demo.lane.direction ⟨0, 0, 1⟩ Demo.starUp.v2 = -2 := by
        simp [sideOf, Demo.lane, Demo.starUp, dot3, minus, cross3]; norm_num
      unfold Splits
      simp only [g0, g1, g2]
      refine ⟨by norm_num, by norm_num, ?_, ?_, by norm_num, by norm_num⟩
      · norm_num; nlinarith
      · norm_num; nlinarith)
  refine ⟨x, e, (hx _).2 ⟨⟨11 / 2, by simp [along, Demo.lane]; norm_num⟩, 2 / 3, 1 / 24, 7 / 24, by norm_num, by norm_num, by norm_num,
    by norm_num, by simp [Demo.starUp]; norm_num⟩, fun h => ?_⟩
  obtain ⟨a, b, c, ha, hb, hc, hs, e⟩ := ((hx _).1 h).2
  simp only [Demo.starUp, V3.mk.injEq] at e
  linarith [e.1, e.2.1]

/-- The line along the lower edge of the triangle that points up. -/
noncomputable def Demo.sill : Line ℝ := ⟨⟨-5, -1, 0⟩, ⟨1, 0, 0⟩⟩
/-- The upright line through the top of that triangle. -/
noncomputable def Demo.mast : Line ℝ := ⟨⟨0, 0, 0⟩, ⟨0, 1, 0⟩⟩

theorem Demo.starUp_face : faceNormal Demo.starUp = ⟨0, 0, 1⟩ := by
  have : length3 ⟨0, 0, 12⟩ = 12 := by
    unfold length3; rw [show (0:ℝ) ^ 2 + 0 ^ 2 + 12 ^ 2 = 12 ^ 2 by norm_num, Real.sqrt_sq (by norm_num)]
  simp only [faceNormal, Demo.starUp, cross3, minus]
  norm_num
  simp only [unit3, this]
  norm_num

/-- A line along an edge: the common part is the edge. -/
example : ∃ x, Inter.entity (.triangle Demo.starUp) (.line Demo.sill) eps = .ok x ∧ Has x ⟨2, -1, 0⟩ ∧ ¬ Has x ⟨3, -1, 0⟩ := by
  have e0 := real_eps_pos
  have e2 : (eps : ℝ) ≤ 1 / 4 := by rw [real_eps]; norm_num
  have hs : SamePlane (.line Demo.sill) (.triangle Demo.starUp) := by
    refine ⟨Demo.floor, by simp [Demo.floor], ?_⟩
    rintro p (⟨t, rfl⟩ | ⟨a, b, c, -, -, -, -, rfl⟩)
    · simp [OnPlane, dot3, minus, along, Demo.sill, Demo.floor]
    · simp [OnPlane, dot3, minus, Demo.starUp, Demo.floor]
  obtain ⟨x, -, e, hx⟩ := C123_triangle_partial (.line Demo.sill) Demo.starUp _ _ (by simp [Proper, Unit3, Demo.sill])
    (by simp [Proper, Demo.starUp, cross3, minus]; norm_num) rfl rfl hs eps e0
    (by
      rw [Demo.starUp_face]
      refine .inr ⟨_, _, _, .inl ⟨rfl, rfl, rfl⟩, .inl ?_⟩
      have d1 : dist3 Demo.starUp.v0 Demo.starUp.v1 ≤ 4 := by
        simp only [Demo.starUp, dist3]; rw [Real.sqrt_le_left (by norm_num)]; norm_num
      have d2 : dist3 Demo.starUp.v0 Demo.starUp.v2 ≤ 4 := by
        simp only [Demo.starUp, dist3]; rw [Real.sqrt_le_left (by norm_num)]; norm_num
      have g0 : sideOf Demo.sill.origin Demo.sill.direction ⟨0, 0, 1⟩ Demo.starUp.v0 = 3 := by
        simp [sideOf, Demo.sill, Demo.starUp, dot3, minus, cross3]; norm_num
      have g1 : sideOf Demo.sill.origin Demo.sill.direction ⟨0, 0, 1⟩ Demo.starUp.v1 = 0 := by
        simp [sideOf, Demo.sill, Demo.starUp, dot3, minus, cross3]
      have g2 : sideOf Demo.sill.origin Demo.sill.direction ⟨0, 0, 1⟩ Demo.starUp.v2 = 0 := by
        simp [sideOf, Demo.sill, Demo.starUp, dot3, minus, cross3]
      unfold EdgeOn
      simp only [g0, g1, g2]
      refine ⟨trivial, trivial, ?_, ?_⟩
      · norm_num; nlinarith
      · norm_num; nlinarith)
  refine ⟨x, e, (hx _).2 ⟨⟨7, by simp [along, Demo.sill]; norm_num⟩, 0, 0, 1, by norm_num, by norm_num, by norm_num,
    by norm_num, by simp [Demo.starUp]⟩, fun h => ?_⟩
  obtain ⟨a, b, c, ha, hb, hc, hs, e⟩ := ((hx _).1 h).2
  simp only [Demo.starUp, V3.mk.injEq] at e
  linarith [e.1, e.2.1]

/-- A line through a vertex and the inside: the common part ends at the vertex. -/
example : ∃ x, Inter.entity (.triangle Demo.starUp) (.line Demo.mast) eps = .ok x ∧ Has x ⟨0, 2, 0⟩ ∧ Has x ⟨0, -1, 0⟩ ∧ ¬ Has x ⟨0, 3, 0⟩ := by
  have e0 := real_eps_pos
  have e2 : (eps : ℝ) ≤ 1 / 4 := by rw [real_eps]; norm_num
  have hs : SamePlane (.line Demo.mast) (.triangle Demo.starUp) := by
    refine ⟨Demo.floor, by simp [Demo.floor], ?_⟩
    rintro p (⟨t, rfl⟩ | ⟨a, b, c, -, -, -, -, rfl⟩)
    · simp [OnPlane, dot3, minus, along, Demo.mast, Demo.floor]
    · simp [OnPlane, dot3, minus, Demo.starUp, Demo.floor]
  obtain ⟨x, -, e, hx⟩ := C123_triangle_partial (.line Demo.mast) Demo.starUp _ _ (by simp [Proper, Unit3, Demo.mast])
    (by simp [Proper, Demo.starUp, cross3, minus]; norm_num) rfl rfl hs eps e0
    (by
      rw [Demo.starUp_face]
      refine .inr ⟨_, _, _, .inl ⟨rfl, rfl, rfl⟩, .inr ?_⟩
      have d1 : dist3 Demo.starUp.v0 Demo.starUp.v1 ≤ 4 := by
        simp only [Demo.starUp, dist3]; rw [Real.sqrt_le_left (by norm_num)]; norm_num
      have d2 : dist3 Demo.starUp.v0 Demo.starUp.v2 ≤ 4 := by
        simp only [Demo.starUp, dist3]; rw [Real.sqrt_le_left (by norm_num)]; norm_num
      have d3 : dist3 Demo.starUp.v1 Demo.starUp.v2 ≤ 4 := by
        simp only [Demo.starUp, dist3]; rw [Real.sqrt_le_left (by norm_num)]; norm_num
      have d4 : length3 Demo.starUp.v0 ≤ 2 := by
        simp only [Demo.starUp, length3]; rw [Real.sqrt_le_left (by norm_num)]; norm_num
      have g0 : sideOf Demo.mast.origin Demo.mast.direction ⟨0, 0, 1⟩ Demo.starUp.v0 = 0 := by
        simp [sideOf, Demo.mast, Demo.starUp, dot3, minus, cross3]
      have g1 : sideOf Demo.mast.origin Demo.mast.direction ⟨0, 0, 1⟩ Demo.starUp.v1 = 2 := by
        simp [sideOf, Demo.mast, Demo.starUp, dot3, minus, cross3]
      have g2 : sideOf Demo.mast.origin Demo.mast.direction ⟨0, 0, 1⟩ Demo.starUp.v2 = -2 := by
        simp [sideOf, Demo.mast, Demo.starUp, dot3, minus, cross3]
      unfold Through
      simp only [g0, g1, g2]
      refine ⟨trivial, by norm_num, ?_, ?_, ?_, ?_⟩
      · norm_num; nlinarith
      · norm_num; nlinarith
      · norm_num; nlinarith
      · rintro p ⟨t, -, -, rfl⟩
        have : 3 ≤ dist3 Demo.starUp.v0 (along Demo.starUp.v1 t (minus Demo.starUp.v2 Demo.starUp.v1)) := by
          apply Real.le_sqrt_of_sq_le
          simp only [Demo.starUp, along, minus]
          nlinarith [mul_self_nonneg (4 * t - 2)]
        refine lt_of_lt_of_le ?_ this
        nlinarith)
  refine ⟨x, e, (hx _).2 ⟨⟨2, by simp [along, Demo.mast]⟩, 1, 0, 0, by norm_num, by norm_num, by norm_num,
    by norm_num, by simp [Demo.starUp]⟩, (hx _).2 ⟨⟨-1, by simp [along, Demo.mast]⟩, 0, 1 / 2, 1 / 2, by norm_num, by norm_num, by norm_num,
    by norm_num, by simp [Demo.starUp]; norm_num⟩, fun h => ?_⟩
  obtain ⟨a, b, c, ha, hb, hc, hs, e⟩ := ((hx _).1 h).2
  simp only [Demo.starUp, V3.mk.injEq] at e
  linarith [e.1, e.2.1]

/-- A line that touches the triangle at the top only. -/
example : Inter.entity (.line ⟨⟨5, 2, 0⟩, ⟨1, 0, 0⟩⟩) (.triangle Demo.starUp) eps = .ok (.segment ⟨⟨0, 2, 0⟩, ⟨0, 2, 0⟩⟩) := by
  have e0 := real_eps_pos
  have e2 : (eps : ℝ) ≤ 1 / 4 := by rw [real_eps]; norm_num
  have hs : SamePlane (.line ⟨⟨5, 2, 0⟩, ⟨1, 0, 0⟩⟩) (.triangle Demo.starUp) := by
    refine ⟨Demo.floor, by simp [Demo.floor], ?_⟩
    rintro p (⟨t, rfl⟩ | ⟨a, b, c, -, -, -, -, rfl⟩)
    · simp [OnPlane, dot3, minus, along, Demo.floor]
    · simp [OnPlane, dot3, minus, Demo.starUp, Demo.floor]
  refine (C123_vertex_partial _ Demo.starUp (by simp [Proper, Unit3]) (by simp [Proper, Demo.starUp, cross3, minus]; norm_num) hs eps e0
    Demo.starUp.v0 _ _ (.inl ⟨rfl, rfl, rfl⟩) ?_).1
  rw [Demo.starUp_face]
  have d1 : dist3 Demo.starUp.v0 Demo.starUp.v1 ≤ 4 := by
    simp only [Demo.starUp, dist3]; rw [Real.sqrt_le_left (by norm_num)]; norm_num
  have d2 : dist3 Demo.starUp.v0 Demo.starUp.v2 ≤ 4 := by
    simp only [Demo.starUp, dist3]; rw [Real.sqrt_le_left (by norm_num)]; norm_num
  have g0 : sideOf ⟨5, 2, 0⟩ ⟨1, 0, 0⟩ ⟨0, 0, 1⟩ Demo.starUp.v0 = 0 := by
    simp [sideOf, Demo.starUp, dot3, minus, cross3]
  have g1 : sideOf ⟨5, 2, 0⟩ ⟨1, 0, 0⟩ ⟨0, 0, 1⟩ Demo.starUp.v1 = -3 := by
    simp [sideOf, Demo.starUp, dot3, minus, cross3]; norm_num
  have g2 : sideOf ⟨5, 2, 0⟩ ⟨1, 0, 0⟩ ⟨0, 0, 1⟩ Demo.starUp.v2 = -3 := by
    simp [sideOf, Demo.starUp, dot3, minus, cross3]; norm_num
  unfold VertexOn
  simp only [g0, g1, g2]
  refine ⟨trivial, by norm_num, ?_, ?_, by norm_num, by norm_num⟩
  · norm_num; nlinarith
  · norm_num; nlinarith

end Enve
