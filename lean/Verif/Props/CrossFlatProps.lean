import Verif.Props.InPlaneProps
import Verif.Props.PierceProps

/-! # C124: triangles and disks in two planes that cross

The intersection of two triangles, or of two disks, in planes that are not nearly parallel: the parts of the common line of the planes
inside the two bodies are compared. -/

namespace Enve
open Scalar Spec

/-- How far a point is above the plane of a triangle, on the side of its normal. -/
noncomputable def Spec.above (t : Triangle ℝ) (p : V3 ℝ) : ℝ := dot3 (minus p t.v0) (faceNormal t)

theorem Spec.CutsCleanly.neg {tol : ℝ} {g h : V3 ℝ → ℝ} {t : Triangle ℝ} (e : ∀ v, h v = -g v) (hc : CutsCleanly tol g t) :
    CutsCleanly tol h t := by
  have s {a b : ℝ} : |-a - -b| = |a - b| := by rw [show -a - -b = -(a - b) by ring, abs_neg]
  unfold CutsCleanly Splits Misses at *
  simp only [e, neg_mul_neg, abs_neg, s]
  exact hc

theorem Spec.Cuts.neg {tol : ℝ} {g h : V3 ℝ → ℝ} {t : Triangle ℝ} (e : ∀ v, h v = -g v) (hc : Cuts tol g t) : Cuts tol h t := by
  have s {a b : ℝ} : |-a - -b| = |a - b| := by rw [show -a - -b = -(a - b) by ring, abs_neg]
  rcases hc with hc | ⟨A, B, C, hABC, hc⟩
  · exact .inl (hc.neg e)
  · refine .inr ⟨A, B, C, hABC, ?_⟩
    unfold EdgeOn Through at *
    simp only [e, neg_mul_neg, abs_neg, s, neg_eq_zero]
    exact hc

/-- The end of the computation for two bodies cut by one line. -/
theorem Inter.merge {A B : V3 ℝ → Prop} {l : Line ℝ} {s0 s1 : Segment ℝ} {tol : ℝ} (ht : 0 < tol) (h0 : s0.v0 ≠ s0.v1)
    (h1 : s1.v0 ≠ s1.v1) (i0 : ∀ X, OnSegment s0 X ↔ A X ∧ OnLine l X) (i1 : ∀ X, OnSegment s1 X ↔ B X ∧ OnLine l X)
    (hl : ∀ X, A X → B X → OnLine l X) :
    (∃ s, Inter.segSegSeg s0 s1 tol = .ok (some s) ∧ (∀ p, A p → B p → OnSegment s p) ∧
      ∀ p, OnSegment s p → (∃ q, A q ∧ dist3 p q ≤ tol / 2) ∧ ∃ q, B q ∧ dist3 p q ≤ tol / 2) ∨
    (Inter.segSegSeg s0 s1 tol = .ok none ∧ ∀ p, A p → ¬ B p) := by
  have p0 : Proper (.segment s0) := h0
  have p1 : Proper (.segment s1) := h1
  have hsl : SameLine (.segment s0) (.segment s1) := by
    refine ⟨l, ?_⟩
    rintro p (hp | hp)
    · exact ((i0 p).1 hp).2
    · exact ((i1 p).1 hp).2
  rcases Inter.clip_segments p0 p1 hsl ht with ⟨s, e, h2, h3⟩ | ⟨e, h2⟩
  · refine .inl ⟨s, e, fun p ha hb => h2 p ((i0 p).2 ⟨ha, hl p ha hb⟩) ((i1 p).2 ⟨hb, hl p ha hb⟩), fun p hp => ?_⟩
    obtain ⟨⟨q, hq, d0⟩, r, hr, d1⟩ := h3 p hp
    exact ⟨⟨q, ((i0 q).1 hq).1, d0⟩, r, ((i1 r).1 hr).1, d1⟩
  · refine .inr ⟨e, fun p ha hb => ?_⟩
    have := h2 p p ((i0 p).2 ⟨ha, hl p ha hb⟩) ((i1 p).2 ⟨hb, hl p ha hb⟩)
    rw [show dist3 p p = 0 by simp [dist3]] at this
    linarith

/-- The line in which two planes that are not nearly parallel meet. -/
theorem Inter.planePlane_line {p q : Plane ℝ} (hp : Unit3 p.normal) (hq : Unit3 q.normal) {tol : ℝ} (ht : 0 < tol)
    (hs : tol ≤ 1 - dot3 p.normal q.normal ^ 2) :
    ∃ l, Inter.planePlane p q tol = some l ∧ l.direction = V3.cross p.normal q.normal ∧ l.direction ≠ ⟨0, 0, 0⟩ ∧
      (∀ x, OnLine l x ↔ OnPlane p x ∧ OnPlane q x) ∧
      (∀ v, dot3 (minus v l.origin) p.normal = dot3 (minus v p.origin) p.normal) ∧
      ∀ v, dot3 (minus v l.origin) q.normal = dot3 (minus v q.origin) q.normal := by
  obtain ⟨hnone, hsome⟩ := C51_plane_plane p q hp hq tol ht
  have hnn : Inter.planePlane p q tol ≠ none := fun h => by linarith [hnone.1 h]
  obtain ⟨l, hl⟩ := Option.ne_none_iff_exists'.1 hnn
  have hform : l.direction = V3.cross p.normal q.normal := by
    have := hl
    rw [Inter.planePlane_unit p q hp hq] at this
    split at this
    · cases this
    · cases this; rfl
  have ho := (hsome l hl l.origin).1 ⟨0, by simp [along]⟩
  refine ⟨l, hl, hform, ?_, hsome l hl, fun v => ?_, fun v => ?_⟩
  · intro h
    have hc := V3.cross_sq p.normal q.normal
    rw [hp.dot, hq.dot, mul_one, ← hform, h] at hc
    simp only [dot3] at hc hs
    linarith
  · have := ho.1
    simp only [OnPlane, dot3, minus] at this ⊢; linear_combination -this
  · have := ho.2
    simp only [OnPlane, dot3, minus] at this ⊢; linear_combination -this

theorem Rel.not_coplanar {p q : Plane ℝ} (hp : Unit3 p.normal) (hq : Unit3 q.normal) (hs : eps ≤ 1 - dot3 p.normal q.normal ^ 2) :
    Rel.copPlanePlane p q eps = false := by
  have e0 := real_eps_pos
  have e1 := real_eps_lt_one
  unfold Rel.copPlanePlane
  rw [Bool.and_eq_false_iff]
  left
  unfold Rel.parV Inter.isParallel Scalar.isApprox
  simp only [real_lt, real_abs, real_sub, real_zero, sub_zero, decide_eq_false_iff_not, not_lt]
  have hc := V3.cross_sq p.normal q.normal
  rw [hp.dot, hq.dot, mul_one] at hc
  have hn : V3.norm (V3.cross p.normal q.normal) ^ 2 = 1 - dot3 p.normal q.normal ^ 2 := by
    rw [← hc, V3.norm_eq, length3, Real.sq_sqrt (by positivity)]
    simp only [dot3]; ring
  have h0 := V3.norm_nonneg (V3.cross p.normal q.normal)
  rw [abs_of_nonneg h0]
  by_contra h
  nlinarith [not_le.1 h]

/-- **C124.** Two triangles in planes that are not nearly parallel, each cut by the plane of the other, also through a vertex, or
with an edge in it, or clearly on one side of it: `Intersection` returns a segment that contains all common points and exceeds each triangle by at most half the tolerance, or nothing
if they have no common point. -/
theorem C124_triangles_partial (T U : Triangle ℝ) (hT : Proper (.triangle T)) (hU : Proper (.triangle U)) (tol : ℝ) (ht : 0 < tol)
    (hs : Max.max tol eps ≤ 1 - dot3 (faceNormal T) (faceNormal U) ^ 2) (cT : Cuts tol (above U) T) (cU : Cuts tol (above T) U) :
    (∃ s, Inter.entity (.triangle T) (.triangle U) tol = .ok (.segment s) ∧
      (∀ p, Has (.triangle T) p → Has (.triangle U) p → OnSegment s p) ∧
      ∀ p, OnSegment s p → (∃ q, Has (.triangle T) q ∧ dist3 p q ≤ tol / 2) ∧ ∃ q, Has (.triangle U) q ∧ dist3 p q ≤ tol / 2) ∨
    (Inter.entity (.triangle T) (.triangle U) tol = .ok .none ∧ ∀ p, Has (.triangle T) p → ¬ Has (.triangle U) p) := by
  have nT : T.layingPlane.normal = faceNormal T := Triangle.normal_eq T
  have nU : U.layingPlane.normal = faceNormal U := Triangle.normal_eq U
  have uT : Unit3 T.layingPlane.normal := by rw [nT]; exact hT.tri
  have uU : Unit3 U.layingPlane.normal := by rw [nU]; exact hU.tri
  rw [← nT, ← nU] at hs
  have hcop : Rel.coplanar (.triangle T) (.triangle U) eps = false := Rel.not_coplanar uT uU (le_trans (le_max_right _ _) hs)
  rw [Inter.entity_general _ _ _ rfl rfl rfl hcop]
  simp only [Inter.general]
  obtain ⟨l, el, hd, h0, hl, oT, oU⟩ := Inter.planePlane_line uT uU ht (le_trans (le_max_left _ _) hs)
  have aT : ∀ X, Has (.triangle T) X → OnPlane T.layingPlane X := (PlaneLike.triangle hT).all
  have aU : ∀ X, Has (.triangle U) X → OnPlane U.layingPlane X := (PlaneLike.triangle hU).all
  obtain ⟨t0, t1, t2⟩ := onPlane_centroid T
  obtain ⟨u0, u1, u2⟩ := onPlane_centroid U
  have gT : ∀ v, above T v = dot3 (minus v l.origin) T.layingPlane.normal := by
    intro v
    have e : above T v = dot3 (minus v T.v0) T.layingPlane.normal := by rw [nT]; rfl
    rw [oT, e]
    simp only [OnPlane, dot3, minus] at t0 ⊢; linear_combination -t0
  have gU : ∀ v, above U v = dot3 (minus v l.origin) U.layingPlane.normal := by
    intro v
    have e : above U v = dot3 (minus v U.v0) U.layingPlane.normal := by rw [nU]; rfl
    rw [oU, e]
    simp only [OnPlane, dot3, minus] at u0 ⊢; linear_combination -u0
  have c1 := Inter.lineTriangle_cuts (n := V3.neg U.layingPlane.normal) (N := T.layingPlane.normal) hT uT ht (l := l)
    (by rw [hd]; v3; congr 1 <;> ring) h0 (by rw [oT]; exact t0) (by rw [oT]; exact t1) (by rw [oT]; exact t2)
    (fun v => dot3 (minus v l.origin) (V3.neg U.layingPlane.normal)) (fun v => rfl)
    (cT.neg fun v => by rw [gU]; simp only [dot3]; v3; ring)
  have c2 := Inter.lineTriangle_cuts (n := T.layingPlane.normal) (N := U.layingPlane.normal) hU uU ht hd h0
    (by rw [oU]; exact u0) (by rw [oU]; exact u1) (by rw [oU]; exact u2) (above T) gT cU
  have hl' : ∀ X, Has (.triangle T) X → Has (.triangle U) X → OnLine l X := fun X h1 h2 => (hl X).2 ⟨aT X h1, aU X h2⟩
  unfold Inter.triTriSeg
  rw [el]
  dsimp only
  rcases c1 with ⟨s0, e0, n0, i0⟩ | ⟨e0, i0⟩
  · rcases c2 with ⟨s1, e1, n1, i1⟩ | ⟨e1, i1⟩
    · rw [e0, e1]
      rcases Inter.merge ht n0 n1 i0 i1 hl' with ⟨s, e, h⟩ | ⟨e, h⟩
      · exact .inl ⟨s, by show (do let s ← Inter.segSegSeg s0 s1 tol; _) = _; rw [e]; rfl, h⟩
      · exact .inr ⟨by show (do let s ← Inter.segSegSeg s0 s1 tol; _) = _; rw [e]; rfl, h⟩
    · rw [e0, e1]
      exact .inr ⟨rfl, fun p h1 h2 => i1 p h2 (hl' p h1 h2)⟩
  · right
    refine ⟨?_, fun p h1 h2 => i0 p h1 (hl' p h1 h2)⟩
    rcases c2 with ⟨s1, e1, -, -⟩ | ⟨e1, -⟩ <;> rw [e0, e1] <;> rfl

/-- The discriminant of a line that is common to two planes. -/
theorem Spec.disc_cross {w N M u : V3 ℝ} (r : ℝ) (hN : Unit3 N) (hM : Unit3 M) (h : dot3 w N = 0) (hu : u = V3.cross N M ∨ u = V3.cross M N) :
    dot3 w u ^ 2 - (dot3 w w - r ^ 2) * dot3 u u = (1 - dot3 N M ^ 2) * r ^ 2 - dot3 w M ^ 2 := by
  unfold Unit3 at hN hM
  have key : dot3 w (V3.cross N M) ^ 2 - (dot3 w w - r ^ 2) * dot3 (V3.cross N M) (V3.cross N M) =
      (1 - dot3 N M ^ 2) * r ^ 2 - dot3 w M ^ 2 := by
    simp only [dot3, V3.real_cross] at h ⊢
    linear_combination (r ^ 2 * (M.x ^ 2 + M.y ^ 2 + M.z ^ 2) - (w.x * M.x + w.y * M.y + w.z * M.z) ^ 2) * hN + r ^ 2 * hM +
      (2 * (w.x * M.x + w.y * M.y + w.z * M.z) * (N.x * M.x + N.y * M.y + N.z * M.z) -
        (M.x ^ 2 + M.y ^ 2 + M.z ^ 2) * (w.x * N.x + w.y * N.y + w.z * N.z)) * h
  rcases hu with rfl | rfl
  · exact key
  · rw [← key]; simp only [dot3, V3.real_cross]; ring

/-- **C124.** Two disks in planes that are not nearly parallel, where the common line of the planes is not nearly tangent to either:
`Intersection` returns a segment that contains all common points and exceeds each disk by at most half the tolerance, or nothing if they
have no common point. -/
theorem C124_disks_partial (d e : Disk ℝ) (hd : Proper (.disk d)) (he : Proper (.disk e)) (tol : ℝ) (ht : 0 < tol)
    (hs : Max.max tol eps ≤ 1 - dot3 d.plane.normal e.plane.normal ^ 2)
    (cd : Decided tol ((1 - dot3 d.plane.normal e.plane.normal ^ 2) * d.radius ^ 2 -
      dot3 (minus d.plane.origin e.plane.origin) e.plane.normal ^ 2))
    (ce : Decided tol ((1 - dot3 d.plane.normal e.plane.normal ^ 2) * e.radius ^ 2 -
      dot3 (minus e.plane.origin d.plane.origin) d.plane.normal ^ 2)) :
    (∃ s, Inter.entity (.disk d) (.disk e) tol = .ok (.segment s) ∧
      (∀ p, Has (.disk d) p → Has (.disk e) p → OnSegment s p) ∧
      ∀ p, OnSegment s p → (∃ q, Has (.disk d) q ∧ dist3 p q ≤ tol / 2) ∧ ∃ q, Has (.disk e) q ∧ dist3 p q ≤ tol / 2) ∨
    (Inter.entity (.disk d) (.disk e) tol = .ok .none ∧ ∀ p, Has (.disk d) p → ¬ Has (.disk e) p) := by
  have ud : Unit3 d.layingPlane.normal := hd.1
  have ue : Unit3 e.layingPlane.normal := he.1
  have hcop : Rel.coplanar (.disk d) (.disk e) eps = false :=
    Rel.not_coplanar (p := d.layingPlane) (q := e.layingPlane) ud ue (le_trans (le_max_right _ _) hs)
  rw [Inter.entity_general _ _ _ rfl rfl rfl hcop]
  simp only [Inter.general]
  obtain ⟨l, el, hdir, h0, hl, od, oe⟩ :=
    Inter.planePlane_line (p := d.layingPlane) (q := e.layingPlane) ud ue ht (le_trans (le_max_left _ _) hs)
  have hl' : ∀ X, Has (.disk d) X → Has (.disk e) X → OnLine l X := fun X h1 h2 => (hl X).2 ⟨h1.1, h2.1⟩
  have ho := (hl l.origin).1 ⟨0, by simp [along]⟩
  have q1 : OnPlane d.plane l.origin := ho.1
  have q2 : OnPlane e.plane l.origin := ho.2
  have ud' : Unit3 d.plane.normal := ud
  have ue' : Unit3 e.plane.normal := ue
  have hdir' : l.direction = V3.cross d.plane.normal e.plane.normal := hdir
  have disc1 : dot3 (minus l.origin d.center) l.direction ^ 2 -
      (dot3 (minus l.origin d.center) (minus l.origin d.center) - d.radius ^ 2) * dot3 l.direction l.direction =
      (1 - dot3 d.plane.normal e.plane.normal ^ 2) * d.radius ^ 2 -
      dot3 (minus d.plane.origin e.plane.origin) e.plane.normal ^ 2 := by
    rw [disc_cross d.radius ud' ue' (w := minus l.origin d.center) q1 (.inl hdir')]
    have e : dot3 (minus l.origin d.center) e.plane.normal = -dot3 (minus d.plane.origin e.plane.origin) e.plane.normal := by
      rw [show d.center = d.plane.origin from rfl]
      simp only [OnPlane, dot3, minus] at q2 ⊢; linear_combination q2
    rw [e, neg_sq]
  have disc2 : dot3 (minus l.origin e.center) l.direction ^ 2 -
      (dot3 (minus l.origin e.center) (minus l.origin e.center) - e.radius ^ 2) * dot3 l.direction l.direction =
      (1 - dot3 d.plane.normal e.plane.normal ^ 2) * e.radius ^ 2 -
      dot3 (minus e.plane.origin d.plane.origin) d.plane.normal ^ 2 := by
    rw [disc_cross e.radius ue' ud' (w := minus l.origin e.center) q2 (.inr hdir'), dot3_comm e.plane.normal]
    have e : dot3 (minus l.origin e.center) d.plane.normal = -dot3 (minus e.plane.origin d.plane.origin) d.plane.normal := by
      rw [show e.center = e.plane.origin from rfl]
      simp only [OnPlane, dot3, minus] at q1 ⊢; linear_combination q1
    rw [e, neg_sq]
  have dn1 : dot3 l.direction d.plane.normal = 0 := by rw [hdir']; simp only [dot3]; v3; ring
  have dn2 : dot3 l.direction e.plane.normal = 0 := by rw [hdir']; simp only [dot3]; v3; ring
  have c1 := Inter.lineDisk_exact ht hd.2.le h0 q1 dn1 (by rw [disc1]; exact cd)
  have c2 := Inter.lineDisk_exact ht he.2.le h0 q2 dn2 (by rw [disc2]; exact ce)
  unfold Inter.diskDiskSeg
  rw [el]
  dsimp only
  rcases c1 with ⟨e0, i0⟩ | ⟨s0, e0, n0, i0⟩
  · right
    refine ⟨?_, fun p h1 h2 => i0 p (hl' p h1 h2) h1⟩
    rcases c2 with ⟨e1, -⟩ | ⟨s1, e1, -, -⟩ <;> rw [e0, e1] <;> rfl
  · rcases c2 with ⟨e1, i1⟩ | ⟨s1, e1, n1, i1⟩
    · rw [e0, e1]
      exact .inr ⟨rfl, fun p h1 h2 => i1 p (hl' p h1 h2) h2⟩
    · rw [e0, e1]
      rcases Inter.merge ht n0 n1 (fun X => (i0 X).trans and_comm) (fun X => (i1 X).trans and_comm) hl' with ⟨s, e, h⟩ | ⟨e, h⟩
      · exact .inl ⟨s, by show (do let s ← Inter.segSegSeg s0 s1 tol; _) = _; rw [e]; rfl, h⟩
      · exact .inr ⟨by show (do let s ← Inter.segSegSeg s0 s1 tol; _) = _; rw [e]; rfl, h⟩

/-! ## The theorems apply -/

/-- An upright triangle across the triangle that points up. -/
noncomputable def Demo.sail : Triangle ℝ := ⟨⟨1, 0, 1⟩, ⟨1, -2, -1⟩, ⟨1, 2, -1⟩⟩
/-- An upright disk of radius 1 across the disk of radius 2. -/
noncomputable def Demo.wheel : Disk ℝ := ⟨1, ⟨⟨1, 0, 0⟩, ⟨1, 0, 0⟩⟩⟩

theorem Demo.sail_normal : faceNormal Demo.sail = ⟨1, 0, 0⟩ := by
  have : length3 ⟨8, 0, 0⟩ = 8 := by
    unfold length3; rw [show (8:ℝ) ^ 2 + 0 ^ 2 + 0 ^ 2 = 8 ^ 2 by norm_num, Real.sqrt_sq (by norm_num)]
  simp only [faceNormal, Demo.sail, cross3, minus]
  norm_num
  simp only [unit3, this]
  norm_num

example : ∃ s, Inter.entity (.triangle Demo.starUp) (.triangle Demo.sail) eps = .ok (.segment s) ∧ OnSegment s ⟨1, 0, 0⟩ := by
  have e0 := real_eps_pos
  have e2 : (eps : ℝ) ≤ 1 / 4 := by rw [real_eps]; norm_num
  have b (p q : V3 ℝ) (h : (p.x - q.x) ^ 2 + (p.y - q.y) ^ 2 + (p.z - q.z) ^ 2 ≤ 16) : eps * dist3 p q ≤ 1 := by
    have : dist3 p q ≤ 4 := by unfold dist3; rw [Real.sqrt_le_left (by norm_num)]; linarith
    nlinarith
  have mT : Has (.triangle Demo.starUp) ⟨1, 0, 0⟩ :=
    ⟨1 / 3, 1 / 12, 7 / 12, by norm_num, by norm_num, by norm_num, by norm_num, by simp [Demo.starUp]; norm_num⟩
  have mU : Has (.triangle Demo.sail) ⟨1, 0, 0⟩ :=
    ⟨1 / 2, 1 / 4, 1 / 4, by norm_num, by norm_num, by norm_num, by norm_num, by simp [Demo.sail]; norm_num⟩
  have := C124_triangles_partial Demo.starUp Demo.sail (by simp [Proper, Demo.starUp, cross3, minus]; norm_num)
    (by simp [Proper, Demo.sail, cross3, minus]; norm_num) eps e0
    (by rw [Demo.starUp_face, Demo.sail_normal, max_self]; simp only [dot3]; norm_num; linarith)
    (by
      refine .inl (.inr (.inr (.inl ?_)))
      simp only [Splits, above, Demo.sail_normal]
      refine ⟨?_, ?_, ?_, ?_, ?_, ?_⟩
      · simp [Demo.starUp, Demo.sail, dot3, minus]
      · simp [Demo.starUp, Demo.sail, dot3, minus]; norm_num
      · refine le_trans (b _ _ ?_) ?_ <;> simp [Demo.starUp, Demo.sail, dot3, minus] <;> norm_num
      · refine le_trans (b _ _ ?_) ?_ <;> simp [Demo.starUp, Demo.sail, dot3, minus] <;> norm_num
      · simp [Demo.starUp, Demo.sail, dot3, minus]; norm_num; linarith
      · simp [Demo.starUp, Demo.sail, dot3, minus]; norm_num; linarith)
    (by
      refine .inl (.inl ?_)
      simp only [Splits, above, Demo.starUp_face]
      refine ⟨?_, ?_, ?_, ?_, ?_, ?_⟩
      · simp [Demo.starUp, Demo.sail, dot3, minus]
      · simp [Demo.starUp, Demo.sail, dot3, minus]
      · refine le_trans (b _ _ ?_) ?_ <;> simp [Demo.starUp, Demo.sail, dot3, minus] <;> norm_num
      · refine le_trans (b _ _ ?_) ?_ <;> simp [Demo.starUp, Demo.sail, dot3, minus] <;> norm_num
      · simp [Demo.starUp, Demo.sail, dot3, minus]
      · simp [Demo.starUp, Demo.sail, dot3, minus])
  rcases this with ⟨s, e, h, -⟩ | ⟨-, h⟩
  · exact ⟨s, e, h _ mT mU⟩
  · exact absurd mU (h _ mT)

example : ∃ s, Inter.entity (.disk Demo.plate) (.disk Demo.wheel) eps = .ok (.segment s) ∧ OnSegment s ⟨1, 1, 0⟩ := by
  have e0 := real_eps_pos
  have e1 := real_eps_lt_one
  have m1 : Has (.disk Demo.plate) ⟨1, 1, 0⟩ := by
    refine ⟨by simp [OnPlane, dot3, minus, Demo.plate, Demo.floor], ?_⟩
    simp only [Demo.plate, Demo.floor, dist3]; rw [Real.sqrt_le_left (by norm_num)]; norm_num
  have m2 : Has (.disk Demo.wheel) ⟨1, 1, 0⟩ := by
    refine ⟨by simp [OnPlane, dot3, minus, Demo.wheel], ?_⟩
    simp only [Demo.wheel, dist3]; rw [Real.sqrt_le_left (by norm_num)]; norm_num
  have := C124_disks_partial Demo.plate Demo.wheel (by simp [Proper, Unit3, Demo.plate, Demo.floor])
    (by simp [Proper, Unit3, Demo.wheel]) eps e0
    (by rw [max_self]; simp [Demo.plate, Demo.floor, Demo.wheel, dot3]; linarith)
    (.inl (by simp [Demo.plate, Demo.floor, Demo.wheel, dot3, minus]; norm_num; linarith))
    (.inl (by simp [Demo.plate, Demo.floor, Demo.wheel, dot3, minus]; linarith))
  rcases this with ⟨s, e, h, -⟩ | ⟨-, h⟩
  · exact ⟨s, e, h _ m1 m2⟩
  · exact absurd m2 (h _ m1)

end Enve
