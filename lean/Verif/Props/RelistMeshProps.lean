import Verif.Props.RelistProps
import Verif.Props.EditProps

/-! # The order in which the vertices of a face are listed: C134, the geometric method -/

namespace Enve
open Scalar Spec

namespace Relist

theorem neg_neg (a : V3 ℝ) : V3.neg (V3.neg a) = a := by simp only [V3.real_neg]; ext <;> simp
theorem norm_neg (a : V3 ℝ) : V3.norm (V3.neg a) = V3.norm a := by
  rw [V3.real_norm, V3.real_norm, V3.real_neg]; congr 1; ring
theorem sub_neg (a b : V3 ℝ) : V3.sub a b = V3.neg (V3.sub b a) := by simp only [V3.real_neg, V3.real_sub]; ext <;> simp
theorem cross_neg (a b : V3 ℝ) : V3.cross a (V3.neg b) = V3.neg (V3.cross a b) := by v3; congr 1 <;> ring
theorem neg_cross (a b : V3 ℝ) : V3.cross (V3.neg a) b = V3.neg (V3.cross a b) := by v3; congr 1 <;> ring
theorem dot_neg (a b : V3 ℝ) : V3.dot a (V3.neg b) = -V3.dot a b := by
  rw [V3.real_dot, V3.real_dot, V3.real_neg]; ring
theorem neg_dot (a b : V3 ℝ) : V3.dot (V3.neg a) b = -V3.dot a b := by
  rw [V3.real_dot, V3.real_dot, V3.real_neg]; ring
theorem smul_neg (k : ℝ) (a : V3 ℝ) : V3.smul (-k) (V3.neg a) = V3.smul k a := by v3; congr 1 <;> ring

theorem planePlane (p q : Plane ℝ) (tol : ℝ) :
    Inter.planePlane p q.reverse tol = (Inter.planePlane p q tol).map Line.reverse := by
  have h1 : V3.normalized q.reverse.normal = V3.neg (V3.normalized q.normal) := V3.normalized_neg _
  have h4 : q.reverse.d = -q.d := by
    simp only [Plane.d, Plane.reverse, V3.real_dot, V3.real_neg, real_neg]; ring
  simp only [Inter.planePlane, h1, cross_neg, dot_neg, h4, norm_neg]
  split
  · rfl
  · simp only [Option.map_some, Line.reverse]
    congr 2
    v3
    congr 1 <;> ring

theorem lineSegment_reverse (l : Line ℝ) (s : Segment ℝ) (tol : ℝ) : Inter.lineSegment l.reverse s tol = Inter.lineSegment l s tol := by
  have hd : l.reverse.direction = V3.neg l.direction := rfl
  have ho : l.reverse.origin = l.origin := rfl
  simp only [Inter.lineSegment, Inter.isParallel, hd, ho, neg_cross, cross_neg, norm_neg, dot_neg, neg_dot, neg_neg, _root_.neg_neg, real_div,
    neg_div, smul_neg]

theorem lineSegment_swap (l : Line ℝ) (s : Segment ℝ) {tol : ℝ} (ht : 0 < tol) :
    Inter.lineSegment l s.swap tol = Inter.lineSegment l s tol := by
  have hu : s.swap.toUnitVector = V3.neg s.toUnitVector := by
    rw [Segment.toUnitVector, Segment.toUnitVector, ← V3.normalized_neg, ← sub_neg]; rfl
  have hp : Inter.isParallel l.direction s.swap.toUnitVector tol = Inter.isParallel l.direction s.toUnitVector tol := by
    rw [Inter.isParallel, Inter.isParallel, hu, cross_neg, norm_neg]
  unfold Inter.lineSegment
  rw [hp]
  split
  · rfl
  rename_i hpar
  have hne : V3.cross l.direction s.toVector ≠ ⟨0, 0, 0⟩ := by
    intro h0
    apply hpar
    have hcr : V3.cross l.direction s.toUnitVector = ⟨0, 0, 0⟩ := by
      by_cases hv : s.toVector = ⟨0, 0, 0⟩
      · have : s.toUnitVector = ⟨0, 0, 0⟩ := by
          show V3.normalized s.toVector = _
          rw [V3.normalized_zero hv, hv]
        rw [this]; v3; simp
      · have : s.toUnitVector = ⟨s.toVector.x / V3.norm s.toVector, s.toVector.y / V3.norm s.toVector, s.toVector.z / V3.norm s.toVector⟩ :=
          V3.normalized_of_ne hv
        rw [this]
        rw [V3.real_cross, V3.mk.injEq] at h0 ⊢
        refine ⟨?_, ?_, ?_⟩
        · linear_combination (1 / V3.norm s.toVector) * h0.1
        · linear_combination (1 / V3.norm s.toVector) * h0.2.1
        · linear_combination (1 / V3.norm s.toVector) * h0.2.2
    unfold Inter.isParallel
    rw [hcr]
    simp only [Scalar.isApprox, V3.norm_eq_zero.2 rfl, real_sub, real_zero, real_abs, sub_zero, abs_zero, real_lt, decide_eq_true_eq]
    exact ht
  have hv : s.swap.toVector = V3.neg s.toVector := sub_neg _ _
  have hv0 : s.swap.v0 = V3.add s.v0 s.toVector := by
    show s.v1 = _; simp only [Segment.toVector]; v3; ext <;> simp
  dsimp only
  rw [hv, hv0]
  obtain ⟨o, d⟩ := l
  dsimp only at hne ⊢
  generalize s.v0 = a at *
  generalize s.toVector = b at *
  have hpos : V3.dot (V3.cross d b) (V3.cross d b) ≠ 0 := by
    intro h
    apply hne
    rw [V3.real_dot] at h
    have hx := mul_self_nonneg (V3.cross d b).x
    have hy := mul_self_nonneg (V3.cross d b).y
    have hz := mul_self_nonneg (V3.cross d b).z
    ext
    · exact mul_self_eq_zero.1 (by linarith)
    · exact mul_self_eq_zero.1 (by linarith)
    · exact mul_self_eq_zero.1 (by linarith)
  simp only [cross_neg, neg_neg, dot_neg, neg_dot, _root_.neg_neg]
  have t0 : V3.dot (V3.cross (V3.sub (V3.add a b) o) b) (V3.cross d b) = V3.dot (V3.cross (V3.sub a o) b) (V3.cross d b) := by
    v3; ring
  have t1 : V3.dot (V3.cross (V3.sub o (V3.add a b)) d) (V3.cross d b) =
      V3.dot (V3.cross (V3.sub o a) d) (V3.cross d b) + V3.dot (V3.cross d b) (V3.cross d b) := by
    v3; ring
  rw [t0, t1]
  generalize V3.dot (V3.cross (V3.sub a o) b) (V3.cross d b) = A
  generalize V3.dot (V3.cross (V3.sub o a) d) (V3.cross d b) = B
  generalize V3.dot (V3.cross d b) (V3.cross d b) = C at *
  have e : (B + C) / C = 1 - (-B) / C := by field_simp; ring
  simp only [real_div, e]
  have hc : ((1 - -B / C) <. zero -. tol || one +. tol <. 1 - -B / C) = (-B / C <. zero -. tol || one +. tol <. -B / C) := by
    simp only [real_lt, real_sub, real_zero, real_add, real_one]
    rw [Bool.or_comm]
    congr 1 <;> rw [decide_eq_decide] <;> constructor <;> intro h <;> linarith
  rw [hc]

/-- The segment of a relisted triangle is the same, or the same run through in the other sense. -/
def SameSegment (a b : Res (Option (Segment ℝ))) : Prop :=
  b = a ∨ ∃ s, a = .ok (some s) ∧ b = .ok (some s.swap)

theorem lineTriangleSeg {l l' : Line ℝ} (hl : l' = l ∨ l' = l.reverse) {T T' : Triangle ℝ} {tol : ℝ} (ht : 0 < tol)
    (h : [T'.v0, T'.v1, T'.v2].Perm [T.v0, T.v1, T.v2]) (hc : Inter.Clear l T tol) :
    SameSegment (Inter.lineTriangleSeg l T tol) (Inter.lineTriangleSeg l' T' tol) := by
  have hl' : ∀ s, Inter.lineSegment l' s tol = Inter.lineSegment l s tol := by
    rcases hl with rfl | rfl
    · exact fun _ => rfl
    · exact fun s => lineSegment_reverse l s tol
  have hs : ∀ a b, Inter.lineSegment l ⟨b, a⟩ tol = Inter.lineSegment l ⟨a, b⟩ tol := fun a b => lineSegment_swap l ⟨a, b⟩ ht
  obtain ⟨a, b, c⟩ := T
  obtain ⟨a', b', c'⟩ := T'
  unfold Inter.Clear at hc
  unfold Inter.lineTriangleSeg
  simp only [Triangle.edge0, Triangle.edge1, Triangle.edge2, hl'] at hc ⊢
  dsimp only at h
  obtain ⟨x, hx⟩ : ∃ x, Inter.lineSegment l ⟨a, b⟩ tol = x := ⟨_, rfl⟩
  obtain ⟨y, hy⟩ : ∃ y, Inter.lineSegment l ⟨b, c⟩ tol = y := ⟨_, rfl⟩
  obtain ⟨z, hz⟩ : ∃ z, Inter.lineSegment l ⟨c, a⟩ tol = z := ⟨_, rfl⟩
  have hx' := (hs a b).trans hx
  have hy' := (hs b c).trans hy
  have hz' := (hs c a).trans hz
  rw [hx, hy, hz] at hc ⊢
  rcases perm3 h with ⟨rfl, rfl, rfl⟩ | ⟨rfl, rfl, rfl⟩ | ⟨rfl, rfl, rfl⟩ | ⟨rfl, rfl, rfl⟩ | ⟨rfl, rfl, rfl⟩ | ⟨rfl, rfl, rfl⟩
  · rw [hx, hy, hz]; exact .inl rfl
  all_goals first | rw [hx, hy, hz] | rw [hx', hy', hz'] | rw [hy, hz, hx] | rw [hz, hx, hy] | rw [hy', hx', hz'] | rw [hz', hy', hx'] | rw [hx', hz', hy']
  all_goals
    clear hx hy hz hx' hy' hz' hs hl' h hl
    rcases x with _ | p <;> rcases y with _ | q <;> rcases z with _ | r <;>
      first
        | exact .inl rfl
        | exact .inr ⟨_, rfl, rfl⟩
        | (exfalso; rcases hc with h | h | h <;> cases h)

theorem normal {T T' : Triangle ℝ} (h : [T'.v0, T'.v1, T'.v2].Perm [T.v0, T.v1, T.v2]) :
    T'.normal = T.normal ∨ T'.normal = V3.neg T.normal := by
  obtain ⟨a, b, c⟩ := T
  obtain ⟨a', b', c'⟩ := T'
  dsimp only at h
  unfold Triangle.normal
  rw [← V3.normalized_neg]
  rcases perm3 h with ⟨rfl, rfl, rfl⟩ | ⟨rfl, rfl, rfl⟩ | ⟨rfl, rfl, rfl⟩ | ⟨rfl, rfl, rfl⟩ | ⟨rfl, rfl, rfl⟩ | ⟨rfl, rfl, rfl⟩
  · exact .inl rfl
  · right; congr 1; v3; congr 1 <;> ring
  · right; congr 1; v3; congr 1 <;> ring
  · left; congr 1; v3; congr 1 <;> ring
  · left; congr 1; v3; congr 1 <;> ring
  · right; congr 1; v3; congr 1 <;> ring

theorem centroid {T T' : Triangle ℝ} (h : [T'.v0, T'.v1, T'.v2].Perm [T.v0, T.v1, T.v2]) : T'.centroid = T.centroid := by
  obtain ⟨a, b, c⟩ := T
  obtain ⟨a', b', c'⟩ := T'
  dsimp only at h
  unfold Triangle.centroid
  rcases perm3 h with ⟨rfl, rfl, rfl⟩ | ⟨rfl, rfl, rfl⟩ | ⟨rfl, rfl, rfl⟩ | ⟨rfl, rfl, rfl⟩ | ⟨rfl, rfl, rfl⟩ | ⟨rfl, rfl, rfl⟩ <;>
    first | rfl | (congr 1; v3; congr 1 <;> ring)

theorem planeTriangle {T T' : Triangle ℝ} {tol : ℝ} (ht : 0 < tol) (h : [T'.v0, T'.v1, T'.v2].Perm [T.v0, T.v1, T.v2]) (p : Plane ℝ)
    (hc : ∀ l, Inter.planePlane p T.layingPlane tol = some l → Inter.Clear l T tol) :
    SameSegment (Inter.planeTriangle p T tol) (Inter.planeTriangle p T' tol) := by
  unfold Inter.planeTriangle
  have hpl : Inter.planePlane p T'.layingPlane tol = Inter.planePlane p T.layingPlane tol ∨
      Inter.planePlane p T'.layingPlane tol = (Inter.planePlane p T.layingPlane tol).map Line.reverse := by
    rcases normal h with hn | hn
    · left; unfold Triangle.layingPlane; rw [hn, centroid h]
    · right
      rw [← planePlane]
      unfold Triangle.layingPlane; rw [hn, centroid h]; rfl
  rcases hl : Inter.planePlane p T.layingPlane tol with _ | l
  · rw [hl] at hpl
    rcases hpl with e | e <;> (rw [e]; exact .inl rfl)
  · rw [hl] at hpl
    rcases hpl with e | e <;> rw [e]
    · exact lineTriangleSeg (.inl rfl) ht h (hc l hl)
    · exact lineTriangleSeg (.inr rfl) ht h (hc l hl)

theorem segmentDisk (s : Segment ℝ) (d : Disk ℝ) {tol : ℝ} (ht : 0 < tol) :
    Inter.segmentDisk s.swap d tol = (Inter.segmentDisk s d tol).map Segment.swap := by
  have hdeg : s.swap.isDegenerated tol = s.isDegenerated tol := by
    unfold Segment.isDegenerated
    rw [sub_neg, norm_neg]; rfl
  have hv : s.swap.toVector = V3.neg s.toVector := sub_neg _ _
  have hv0 : s.swap.v0 = V3.add s.v0 s.toVector := by
    show s.v1 = _; simp only [Segment.toVector]; v3; ext <;> simp
  unfold Inter.segmentDisk
  rw [hdeg]
  split
  · rfl
  rename_i hnd
  rw [hv, hv0]
  have hpos : 0 < V3.dot s.toVector s.toVector := by
    rw [Bool.or_eq_true, not_or] at hnd
    have h1 := hnd.1
    have hnn : 0 ≤ V3.dot s.toVector s.toVector := by
      rw [V3.real_dot]; nlinarith [mul_self_nonneg s.toVector.x, mul_self_nonneg s.toVector.y, mul_self_nonneg s.toVector.z]
    refine lt_of_le_of_ne hnn fun h0 => h1 ?_
    have hz : V3.sub s.v0 s.v1 = ⟨0, 0, 0⟩ := by
      rw [V3.real_dot] at h0
      have hx := mul_self_nonneg s.toVector.x
      have hy := mul_self_nonneg s.toVector.y
      have hz := mul_self_nonneg s.toVector.z
      have e : V3.sub s.v0 s.v1 = V3.neg s.toVector := sub_neg _ _
      rw [e, V3.real_neg]
      ext
      · rw [mul_self_eq_zero.1 (show s.toVector.x * s.toVector.x = 0 by linarith)]; simp
      · rw [mul_self_eq_zero.1 (show s.toVector.y * s.toVector.y = 0 by linarith)]; simp
      · rw [mul_self_eq_zero.1 (show s.toVector.z * s.toVector.z = 0 by linarith)]; simp
    unfold Segment.isDegenerated
    rw [hz]
    simp only [Scalar.isApprox, V3.norm_eq_zero.2 rfl, real_sub, real_zero, real_abs, sub_zero, abs_zero, real_lt, decide_eq_true_eq]
    exact ht
  dsimp only
  simp only [dot_neg, neg_dot, _root_.neg_neg]
  generalize s.toVector = D at *
  generalize s.v0 = o at *
  have h1 : V3.dot (V3.sub (V3.add o D) d.center) D = V3.dot (V3.sub o d.center) D + V3.dot D D := by v3; ring
  have h2 : V3.dot (V3.sub (V3.add o D) d.center) (V3.sub (V3.add o D) d.center) =
      V3.dot (V3.sub o d.center) (V3.sub o d.center) + 2 * V3.dot (V3.sub o d.center) D + V3.dot D D := by v3; ring
  rw [h1, h2]
  generalize V3.dot (V3.sub o d.center) (V3.sub o d.center) = C at *
  generalize V3.dot (V3.sub o d.center) D = B at *
  generalize V3.dot D D = A at *
  have hdisc : -(B + A) *. -(B + A) -. (C + 2 * B + A -. d.radius *. d.radius) *. A = B *. B -. (C -. d.radius *. d.radius) *. A := by
    simp only [real_mul, real_sub]; ring
  rw [hdisc]
  generalize hW : B *. B -. (C -. d.radius *. d.radius) *. A = W
  split
  · rfl
  have hpt : ∀ t : ℝ, V3.add (V3.add o D) (V3.smul (1 - t) (V3.neg D)) = V3.add o (V3.smul t D) := by
    intro t; v3; congr 1 <;> ring
  split
  · have e : (-. -(B + A)) *. (one /. A) = 1 - (-. B) *. (one /. A) := by
      simp only [real_neg, real_mul, real_div, real_one]; field_simp; ring
    rw [e, hpt]
    have hc : ((1 - (-. B) *. (one /. A)) <. zero || one <. (1 - (-. B) *. (one /. A))) =
        ((-. B) *. (one /. A) <. zero || one <. (-. B) *. (one /. A)) := by
      simp only [real_lt, real_zero, real_one]
      rw [Bool.or_comm]
      congr 1 <;> rw [decide_eq_decide] <;> constructor <;> intro h <;> linarith
    rw [hc]
    split <;> rfl
  · have e0 : (-. (-(B + A) +. Scalar.sqrt W)) *. (one /. A) = 1 - (-. (B -. Scalar.sqrt W)) *. (one /. A) := by
      simp only [real_neg, real_mul, real_div, real_one, real_add, real_sub]; field_simp; ring
    have e1 : (-. (-(B + A) -. Scalar.sqrt W)) *. (one /. A) = 1 - (-. (B +. Scalar.sqrt W)) *. (one /. A) := by
      simp only [real_neg, real_mul, real_div, real_one, real_add, real_sub]; field_simp; ring
    rw [e0, e1]
    generalize (-. (B +. Scalar.sqrt W)) *. (one /. A) = t0
    generalize (-. (B -. Scalar.sqrt W)) *. (one /. A) = t1
    have hc : ((1 - t1) <. zero && (1 - t0) <. zero || one <. (1 - t1) && one <. (1 - t0)) =
        (t0 <. zero && t1 <. zero || one <. t0 && one <. t1) := by
      simp only [real_lt, real_zero, real_one]
      rw [Bool.or_comm]
      have a1 : ∀ t : ℝ, decide (1 < 1 - t) = decide (t < 0) := fun t => by
        rw [decide_eq_decide]; constructor <;> intro h <;> linarith
      have a2 : ∀ t : ℝ, decide (1 - t < 0) = decide (1 < t) := fun t => by
        rw [decide_eq_decide]; constructor <;> intro h <;> linarith
      rw [a1, a1, a2, a2, Bool.and_comm, Bool.and_comm (decide (1 < t1))]
    have hcl : ∀ t : ℝ, Scalar.max zero (Scalar.min (1 - t) one) = 1 - Scalar.max zero (Scalar.min t one) := by
      intro t
      simp only [real_max, real_min, real_zero, real_one]
      rcases le_total t 0 with h | h
      · rw [min_eq_right (by linarith), max_eq_right (by norm_num), min_eq_left (by linarith), max_eq_left (by linarith)]; ring
      · rcases le_total t 1 with h1 | h1
        · rw [min_eq_left (by linarith), max_eq_right (by linarith), min_eq_left h1, max_eq_right h]
        · rw [min_eq_left (by linarith), max_eq_left (by linarith), min_eq_right h1, max_eq_right (by norm_num)]; ring
    rw [hc]
    split
    · rfl
    · rw [hcl, hcl, hpt, hpt]; rfl

theorem triangleDisk {T T' : Triangle ℝ} {tol : ℝ} (ht : 0 < tol) (h : [T'.v0, T'.v1, T'.v2].Perm [T.v0, T.v1, T.v2]) (d : Disk ℝ)
    (hc : ∀ l, Inter.planePlane d.layingPlane T.layingPlane tol = some l → Inter.Clear l T tol) :
    SameSegment (Inter.triangleDisk T d tol) (Inter.triangleDisk T' d tol) := by
  unfold Inter.triangleDisk
  rcases planeTriangle ht h d.layingPlane hc with e | ⟨s, e1, e2⟩
  · rw [e]; exact .inl rfl
  · rw [e1, e2]
    simp only [Res.bind_ok, Res.pure_eq, segmentDisk s d ht]
    rcases Inter.segmentDisk s d tol with _ | u
    · exact .inl rfl
    · exact .inr ⟨u, rfl, rfl⟩

theorem contrib (r : Rib ℝ) (pose : Affine ℝ) {t t' : TriangleGround ℝ} (hn : t'.normal = t.normal) (hf : t'.friction = t.friction)
    (seg : Segment ℝ) : r.contrib pose t' seg.swap = r.contrib pose t seg := by
  have hl : seg.swap.length = seg.length := by
    simp only [Segment.length, Segment.swap, V3.real_norm, V3.real_sub]
    congr 1; ring
  unfold Rib.contrib
  dsimp only
  rw [hl, hn, hf]
  show (if _ then _ else _) = _
  have e0 : seg.swap.v0 = seg.v1 := rfl
  have e1 : seg.swap.v1 = seg.v0 := rfl
  rw [e0, e1]
  generalize M3.mulVec (M3.transpose pose.linear) (V3.sub seg.v0 (r.centerGrd pose)) = pa
  generalize M3.mulVec (M3.transpose pose.linear) (V3.sub seg.v1 (r.centerGrd pose)) = pb
  generalize Scalar.atan2 pa.z pa.x = x
  generalize Scalar.atan2 pb.z pb.x = y
  have h1 : (if x <. y then x else y) = (if y <. x then y else x) := by
    simp only [real_lt, decide_eq_true_eq]
    rcases lt_trichotomy x y with h | h | h
    · rw [if_pos h, if_neg (by linarith)]
    · subst h; simp
    · rw [if_neg (by linarith), if_pos h]
  have h2 : (if x <. y then y else x) = (if y <. x then x else y) := by
    simp only [real_lt, decide_eq_true_eq]
    rcases lt_trichotomy x y with h | h | h
    · rw [if_pos h, if_neg (by linarith)]
    · subst h; simp
    · rw [if_neg (by linarith), if_pos h]
  rw [h1, h2]
  generalize Scalar.min r.radius (V3.norm pa) = ra
  generalize Scalar.min r.radius (V3.norm pb) = rb
  have h3 : two *. rb *. ra = two *. ra *. rb := by simp only [real_mul]; ring
  have h4 : rb +. ra = ra +. rb := by simp only [real_add]; ring
  have h5 : rb *. ra = ra *. rb := by simp only [real_mul]; ring
  rw [h3, h4, h5]

end Relist

/-! ## Normal and box of a face -/

/-- **C134, normals and boxes**: a face that is not vertical has the same normal whatever the order of its vertices; a vertical face has the
same one or the opposite one. The corners of its box are always the same. -/
theorem C134_normal {t t' : TriangleGround ℝ} (ht : t.Constructed) (ht' : t'.Constructed) (h : Relisted t t') :
    (shadow t.tri ≠ 0 → t'.normal = t.normal) ∧ (t'.normal = t.normal ∨ t'.normal = V3.neg t.normal) ∧
    t'.bbox.min = t.bbox.min ∧ t'.bbox.max = t.bbox.max := by
  have hform : ∀ {u : TriangleGround ℝ}, u.Constructed →
      u.normal = if u.tri.normal.z < 0 then V3.neg u.tri.normal else u.tri.normal := by
    rintro u ⟨i, f, p, q, r, hu⟩
    obtain ⟨-, rfl⟩ := TriangleGround.make_ok hu
    simp only [TriangleGround.updateBBox, TriangleGround.updateNormal, real_lt, real_zero, decide_eq_true_eq]
    split
    · v3; congr 1 <;> ring
    · rfl
  have hz : shadow t.tri ≠ 0 → t.tri.normal.z ≠ 0 := by
    intro hs
    have e : V3.cross (V3.sub t.tri.v1 t.tri.v0) (V3.sub t.tri.v2 t.tri.v0) ≠ ⟨0, 0, 0⟩ := by
      intro hc
      apply hs
      have := congrArg V3.z hc
      simp only [V3.real_cross, V3.real_sub] at this
      unfold shadow; linarith
    have hn := V3.norm_pos.2 e
    unfold Triangle.normal
    rw [V3.normalized_of_ne e]
    have hc : (V3.cross (V3.sub t.tri.v1 t.tri.v0) (V3.sub t.tri.v2 t.tri.v0)).z = shadow t.tri := by
      simp only [V3.real_cross, V3.real_sub, shadow]
    rw [hc]
    exact div_ne_zero hs hn.ne'
  have hneg : (V3.neg t.tri.normal).z = -t.tri.normal.z := by rw [V3.real_neg]
  refine ⟨fun hs => ?_, ?_, ?_, ?_⟩
  · have h0 := hz hs
    rw [hform ht, hform ht']
    rcases Relist.normal h.vertices with e | e
    · rw [e]
    · rw [e, hneg]
      rcases lt_or_gt_of_ne h0 with h1 | h1
      · rw [if_neg (by linarith), if_pos h1]
      · rw [if_pos (by linarith), if_neg (by linarith), Relist.neg_neg]
  · rw [hform ht, hform ht']
    rcases Relist.normal h.vertices with e | e
    · rw [e]; exact .inl rfl
    · rw [e, hneg]
      split <;> split <;> simp [Relist.neg_neg]
  all_goals
    rw [ht.bbox_eq, ht'.bbox_eq]
    have := h.vertices
    generalize t.tri.v0 = a at *
    generalize t.tri.v1 = b at *
    generalize t.tri.v2 = c at *
    generalize t'.tri.v0 = a' at *
    generalize t'.tri.v1 = b' at *
    generalize t'.tri.v2 = c' at *
    simp only [Box.clamp, real_min, real_max]
    rcases Relist.perm3 this with ⟨rfl, rfl, rfl⟩ | ⟨rfl, rfl, rfl⟩ | ⟨rfl, rfl, rfl⟩ | ⟨rfl, rfl, rfl⟩ | ⟨rfl, rfl, rfl⟩ | ⟨rfl, rfl, rfl⟩ <;>
      simp only [min_comm, min_left_comm, max_comm, max_left_comm]

/-! ## The geometric method -/

theorem Relist.section_ {r : Rib ℝ} (hr : IsRib r) {pose : Affine ℝ} (hp : IsRigid pose) {t t' : TriangleGround ℝ} (h : Relisted t t')
    (hoff : OffRib pose r t.tri) :
    Relist.SameSegment (Inter.triangleDisk t.tri (r.diskGrd pose) Scalar.eps) (Inter.triangleDisk t'.tri (r.diskGrd pose) Scalar.eps) := by
  by_cases hN : Unit3 t.tri.normal
  · refine Relist.triangleDisk real_eps_pos h.vertices _ fun l hl => ?_
    refine Inter.clear_of_off t.tri (r.diskGrd pose) (Rib.normalGrd_unit hr hp) hN _ real_eps_pos ?_ ?_ l hl
    · intro u hu v hv huv
      simp only [Rib.side_eq hr] at huv ⊢
      exact hoff.1 u hu v hv huv
    · intro v hv
      rw [Rib.side_eq hr]
      exact hoff.2 v hv
  · have hN' : ¬ Unit3 t'.tri.normal := by
      intro hc
      apply hN
      rcases Relist.normal h.vertices with e | e
      · rwa [e] at hc
      · rw [e, V3.real_neg] at hc
        unfold Unit3 at *
        dsimp only at hc
        linarith
    rw [Inter.triangleDisk_flat hN _ real_eps_pos, Inter.triangleDisk_flat hN' _ real_eps_pos]
    exact .inl rfl

theorem Relist.geomLoop {r : Rib ℝ} (hr : IsRib r) {pose : Affine ℝ} (hp : IsRigid pose) {ts ts' : List (TriangleGround ℝ)}
    (h : List.Forall₂ Relisted ts ts') (hc : ∀ t ∈ ts, t.Constructed) (hc' : ∀ t ∈ ts', t.Constructed)
    (hv : ∀ t ∈ ts, shadow t.tri ≠ 0) (hoff : ∀ t ∈ ts, OffRib pose r t.tri) (acc : Rib.Acc ℝ) :
    r.geomLoop pose ts' acc = r.geomLoop pose ts acc := by
  induction h generalizing acc with
  | nil => rfl
  | @cons t t' ts ts' ht hts ih =>
    have ih := ih (fun u hu => hc u (by simp [hu])) (fun u hu => hc' u (by simp [hu])) (fun u hu => hv u (by simp [hu]))
      (fun u hu => hoff u (by simp [hu]))
    have hn := (C134_normal (hc t (by simp)) (hc' t' (by simp)) ht).1 (hv t (by simp))
    rw [Rib.geomLoop, Rib.geomLoop]
    rcases Relist.section_ hr hp ht (hoff t (by simp)) with e | ⟨s, e1, e2⟩
    · rw [e]
      rcases Inter.triangleDisk t.tri (r.diskGrd pose) (Scalar.eps : ℝ) with o | w | w
      · rcases o with _ | s
        · simp only [Res.bind_ok]; exact ih acc
        · simp only [Res.bind_ok]
          have : r.contrib pose t' s = r.contrib pose t s := by
            simp only [Rib.contrib, hn, ht.friction]
          rw [this]
          rcases r.contrib pose t s with _ | c
          · rfl
          · exact ih _
      · rfl
      · rfl
    · rw [e1, e2]
      simp only [Res.bind_ok]
      rw [Relist.contrib r pose hn ht.friction]
      rcases r.contrib pose t s with _ | c
      · rfl
      · exact ih _

/-- **C134, geometric method**: listing the vertices of faces in another order changes nothing, if no face is vertical and no vertex is
within the tolerance of the plane of the rib. -/
theorem C134_geometric_partial {r : Rib ℝ} (hr : IsRib r) {pose : Affine ℝ} (hp : IsRigid pose) {ts ts' : List (TriangleGround ℝ)}
    (h : List.Forall₂ Relisted ts ts') (hc : ∀ t ∈ ts, t.Constructed) (hc' : ∀ t ∈ ts', t.Constructed)
    (hv : ∀ t ∈ ts, shadow t.tri ≠ 0) (hoff : ∀ t ∈ ts, OffRib pose r t.tri) :
    r.envelopGeometricMesh ts' pose = r.envelopGeometricMesh ts pose := by
  unfold Rib.envelopGeometricMesh
  rw [Relist.geomLoop hr hp h hc hc' hv hoff]

/-! ## Whole tyres -/

theorem Spec.BuiltMesh.numbered {m : Mesh ℝ} (hm : BuiltMesh m) :
    m = Mesh.ofTriangles m.triangles ∧ ∀ (i : Nat) t, m.triangles[i]? = some t → t.id = i := by
  rcases hm with ⟨np, hm⟩ | ⟨ts, h1, h2, h3, rfl⟩
  · exact ⟨hm.consistent.1.built, hm.consistent.1.ids⟩
  · exact ⟨rfl, h3⟩

theorem Relist.box {t t' : TriangleGround ℝ} (ht : t.Constructed) (ht' : t'.Constructed) (h : Relisted t t') (hid : t'.id = t.id) :
    t'.bbox = t.bbox := by
  obtain ⟨-, -, h1, h2⟩ := C134_normal ht ht' h
  have e1 := ht.bbox_eq
  have e2 := ht'.bbox_eq
  rw [e1, e2] at h1 h2 ⊢
  rw [hid] at h1 h2 ⊢
  unfold Box.clamp at *
  dsimp only at h1 h2 ⊢
  rw [h1, h2]

theorem Relist.query {M M' : Mesh ℝ} (hM : BuiltMesh M) (hM' : BuiltMesh M') (h : List.Forall₂ Relisted M.triangles M'.triangles)
    {q : Box ℝ} {loc : List (TriangleGround ℝ)} (hq : M.intersection q = .ok loc) :
    ∃ loc', M'.intersection q = .ok loc' ∧ List.Forall₂ Relisted loc loc' ∧ (∀ t ∈ loc, t ∈ M.triangles) ∧ ∀ t ∈ loc', t ∈ M'.triangles := by
  obtain ⟨b1, i1⟩ := hM.numbered
  obtain ⟨b2, i2⟩ := hM'.numbered
  obtain ⟨hlen, hget⟩ := List.forall₂_iff_get.1 h
  have hbox : M'.triangles.map (·.bbox) = M.triangles.map (·.bbox) := by
    refine List.ext_getElem (by simp [hlen]) fun i g1 g2 => ?_
    simp only [List.length_map] at g1 g2
    simp only [List.getElem_map]
    have e := hget i (by omega) (by omega)
    simp only [List.get_eq_getElem] at e
    refine Relist.box (hM.constructed _ (List.getElem_mem _)) (hM'.constructed _ (List.getElem_mem _)) e ?_
    rw [i1 i _ (List.getElem?_eq_getElem g2), i2 i _ (List.getElem?_eq_getElem g1)]
  have htree : M'.tree = M.tree := by
    rw [b1, b2]
    simp only [Mesh.ofTriangles, Mesh.buildAABBtree, Mesh.updateBBoxes]
    rw [hbox]
  unfold Mesh.intersection at hq ⊢
  rw [htree]
  obtain ⟨pairs, hp, hl⟩ := Res.bind_eq_ok.1 hq
  rw [hp, Res.bind_ok]
  clear hp hq
  induction pairs generalizing loc with
  | nil =>
    rw [Mesh.lookupAll] at hl
    cases hl
    exact ⟨[], rfl, .nil, by simp, by simp⟩
  | cons p ps ih =>
    rw [Mesh.lookupAll] at hl ⊢
    obtain ⟨t, h1, hl⟩ := Res.bind_eq_ok.1 hl
    obtain ⟨ts, h2, hl⟩ := Res.bind_eq_ok.1 hl
    cases hl
    obtain ⟨loc', g1, g2, g3, g4⟩ := ih h2
    unfold Mesh.ptrTriangleground at h1 ⊢
    split at h1
    · rename_i h0
      rw [if_pos h0]
      split at h1
      · rename_i u hu
        cases h1
        obtain ⟨k1, k2⟩ := List.getElem?_eq_some_iff.1 hu
        have e := hget _ k1 (by omega)
        simp only [List.get_eq_getElem, k2] at e
        rw [List.getElem?_eq_getElem (show p.1.id.toNat < M'.triangles.length by omega)]
        simp only [Res.bind_ok, g1, Res.pure_eq]
        refine ⟨_, rfl, .cons e g2, ?_, ?_⟩
        · intro u hu
          rcases List.mem_cons.1 hu with rfl | hu
          · rw [← k2]; exact List.getElem_mem _
          · exact g3 u hu
        · intro u hu
          rcases List.mem_cons.1 hu with rfl | hu
          · exact List.getElem_mem _
          · exact g4 u hu
      · cases h1
    · cases h1

theorem Relist.candidates {ts ts' : List (TriangleGround ℝ)} (h : List.Forall₂ Relisted ts ts') (pose : Affine ℝ) (method : String)
    (r : Rib ℝ) : List.Forall₂ Relisted (Shell.ribCandidates pose method ts r) (Shell.ribCandidates pose method ts' r) := by
  unfold Shell.ribCandidates
  have hr : Shell.refines method ts' = Shell.refines method ts := by unfold Shell.refines; rw [h.length_eq]
  rw [hr]
  clear hr
  generalize Shell.refines method ts = ref
  generalize Plane.normalize ⟨pose.trans, pose.linear.c1⟩ = mid
  have hcand : ∀ t t' : TriangleGround ℝ, Relisted t t' → Shell.isCandidate mid ref r.center.y t' = Shell.isCandidate mid ref r.center.y t := by
    intro t t' ht
    unfold Shell.isCandidate
    dsimp only
    have hsum : Scalar.sign (mid.signedDistance t'.tri.v0 -. r.center.y) + Scalar.sign (mid.signedDistance t'.tri.v1 -. r.center.y) +
        Scalar.sign (mid.signedDistance t'.tri.v2 -. r.center.y) =
        Scalar.sign (mid.signedDistance t.tri.v0 -. r.center.y) + Scalar.sign (mid.signedDistance t.tri.v1 -. r.center.y) +
        Scalar.sign (mid.signedDistance t.tri.v2 -. r.center.y) := by
      have := (ht.vertices.map fun v => Scalar.sign (mid.signedDistance v -. r.center.y)).sum_eq
      simpa [add_assoc] using this
    rw [hsum]
  induction h with
  | nil => exact .nil
  | @cons a b l l' hab _ ih =>
    have e := hcand a b hab
    cases hc : Shell.isCandidate mid ref r.center.y a
    · rw [List.filter_cons_of_neg (by simp [hc]), List.filter_cons_of_neg (by simp [e, hc])]; exact ih
    · rw [List.filter_cons_of_pos hc, List.filter_cons_of_pos (by rw [e]; exact hc)]; exact .cons hab ih

/-- Two outcomes of a setup that agree in everything but the lists of candidates kept inside the shell. -/
def Spec.SameSetup (a b : MRes (Shell ℝ) Bool) : Prop :=
  (∃ s c flag, a = .ok s flag ∧ b = .ok { s with cands := c } flag) ∨ (∃ s c w, a = .throw s w ∧ b = .throw { s with cands := c } w) ∨
    ∃ w, a = .ub w ∧ b = .ub w

/-- **C134, whole tyres**: on a mesh whose faces list their vertices in another order, `setup` with either method has the same outcome, with
the same records, if, for the sampling method, no sampling line passes beside a corner at a distance of the order of the tolerance, and for
the geometric method, no face is vertical and no vertex is within the tolerance of the plane of a rib. -/
theorem C134_setup_partial {pol : Policy} {s : Shell ℝ} (hs : s.Reachable pol) {M M' : Mesh ℝ} (hM : BuiltMesh M) (hM' : BuiltMesh M')
    (h : List.Forall₂ Relisted M.triangles M'.triangles) {pose : Affine ℝ} (hp : IsRigid pose) (method : String)
    (hsam : method = "sampling" → ∀ t ∈ M.triangles, ∀ r ∈ s.ribs,
      ∀ l ∈ [r.lineXp pose, r.lineXm pose, r.lineYp pose, r.lineYm pose], OffCorners l.origin t.tri)
    (hgeo : method = "geometric" → ∀ t ∈ M.triangles, shadow t.tri ≠ 0 ∧ ∀ r ∈ s.ribs, OffRib pose r t.tri) :
    SameSetup (s.setupMesh pol M pose method) (s.setupMesh pol M' pose method) := by
  obtain ⟨loc, hl, -⟩ := hM.query _ (Shell.updateBBox_WF (s.transform pose))
  obtain ⟨loc', hl', hrel, hmem, hmem'⟩ := Relist.query hM hM' h hl
  by_cases hne : loc = []
  · subst hne
    cases hrel
    rw [Shell.setupMesh_none hl, Shell.setupMesh_none hl']
    generalize Shell.ribLoop _ _ _ _ _ _ _ = R
    rcases R with ⟨o, b⟩ | ⟨o, w⟩ | w
    · exact .inl ⟨_, _, _, rfl, rfl⟩
    · exact .inr (.inl ⟨_, _, _, rfl, rfl⟩)
    · exact .inr (.inr ⟨_, rfl, rfl⟩)
  · have hne' : loc' ≠ [] := by rintro rfl; cases hrel; exact hne rfl
    rw [Shell.setupMesh_some hs.inv.cands hl hne, Shell.setupMesh_some hs.inv.cands hl' hne']
    have hcong : ∀ (j : Nat) (r : Rib ℝ), s.ribs[j]? = some r →
        r.envelopMesh (Shell.ribCandidates pose method loc' r) pose method =
          r.envelopMesh (Shell.ribCandidates pose method loc r) pose method := by
      intro j r hr
      have hrm := List.mem_of_getElem? hr
      have hcand := Relist.candidates hrel pose method r
      have m1 : ∀ t ∈ Shell.ribCandidates pose method loc r, t ∈ M.triangles := fun t ht => hmem t (List.mem_of_mem_filter ht)
      have m2 : ∀ t ∈ Shell.ribCandidates pose method loc' r, t ∈ M'.triangles := fun t ht => hmem' t (List.mem_of_mem_filter ht)
      unfold Rib.envelopMesh
      split
      · rename_i hg
        exact C134_geometric_partial (hs.isRib r hrm) hp hcand (fun t ht => hM.constructed t (m1 t ht))
          (fun t ht => hM'.constructed t (m2 t ht)) (fun t ht => (hgeo hg t (m1 t ht)).1) fun t ht => (hgeo hg t (m1 t ht)).2 r hrm
      · split
        · rename_i _ hg
          rw [C134_sampling_partial r pose hcand fun t ht => hsam hg t (m1 t ht) r hrm]
        · rfl
    rw [Shell.ribLoop_fcongr (f := fun _ r => r.envelopMesh (Shell.ribCandidates pose method loc' r) pose method)
      (g := fun _ r => r.envelopMesh (Shell.ribCandidates pose method loc r) pose method) fun j r hr => hcong j r hr]
    generalize Shell.ribLoop _ _ _ _ _ _ _ = R
    rcases R with ⟨o, b⟩ | ⟨o, w⟩ | w
    · exact .inl ⟨_, _, _, rfl, rfl⟩
    · exact .inr (.inl ⟨_, _, _, rfl, rfl⟩)
    · exact .inr (.inr ⟨_, rfl, rfl⟩)

end Enve
