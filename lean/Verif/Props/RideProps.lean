import Verif.Props.SearchProps
import Verif.Props.RoadProps
import Verif.Props.MirrorProps
import Verif.Props.OffAxisProps

/-! # The sampling method at different heights of the wheel: C131

The sampling lines are vertical.  Raising or lowering the wheel moves it along these lines, so the sampled points stay where they are
and only the depth changes. -/

namespace Enve
open Scalar Spec

/-- A line that starts at another of its points meets a triangle in the same point. -/
theorem Inter.lineTriangle_lowered (o : V3 ℝ) (d : ℝ) (t : Triangle ℝ) :
    Inter.lineTriangle ⟨⟨o.x, o.y, o.z - d⟩, V3.neg V3.ez⟩ t Scalar.eps = Inter.lineTriangle ⟨o, V3.neg V3.ez⟩ t Scalar.eps := by
  have heps := real_eps_pos
  have hd : (V3.neg V3.ez : V3 ℝ) = ⟨0, 0, -1⟩ := by simp [V3.neg, V3.ez]
  rw [hd]
  unfold Inter.lineTriangle
  dsimp only
  set a := V3.dot (V3.sub t.v1 t.v0) (V3.cross (⟨0, 0, -1⟩ : V3 ℝ) (V3.sub t.v2 t.v0)) with ha
  by_cases h0 : ((-. (Scalar.eps : ℝ)) <. a && a <. Scalar.eps) = true
  · rw [if_pos h0, if_pos h0]
  rw [if_neg h0, if_neg h0]
  have ha0 : a ≠ 0 := by
    intro h
    apply h0
    rw [h]
    simp [heps]
  have e1 : V3.dot (V3.sub (⟨o.x, o.y, o.z - d⟩ : V3 ℝ) t.v0) (V3.cross ⟨0, 0, -1⟩ (V3.sub t.v2 t.v0)) =
      V3.dot (V3.sub o t.v0) (V3.cross ⟨0, 0, -1⟩ (V3.sub t.v2 t.v0)) := by
    v3; ring
  have e2 : V3.dot (⟨0, 0, -1⟩ : V3 ℝ) (V3.cross (V3.sub ⟨o.x, o.y, o.z - d⟩ t.v0) (V3.sub t.v1 t.v0)) =
      V3.dot ⟨0, 0, -1⟩ (V3.cross (V3.sub o t.v0) (V3.sub t.v1 t.v0)) := by
    v3; ring
  have e3 : V3.dot (V3.sub t.v2 t.v0) (V3.cross (V3.sub (⟨o.x, o.y, o.z - d⟩ : V3 ℝ) t.v0) (V3.sub t.v1 t.v0)) =
      V3.dot (V3.sub t.v2 t.v0) (V3.cross (V3.sub o t.v0) (V3.sub t.v1 t.v0)) - d * a := by
    rw [ha]; v3; ring
  rw [e1, e2, e3]
  split
  · rfl
  split
  · rfl
  congr 1
  simp only [real_mul, real_div, real_one]
  v3
  simp only [mul_zero, add_zero]
  congr 1
  field_simp
  ring

/-- What both grounds do with a vertical line: the point found lies on the line, and does not depend on where the line starts. -/
structure Rib.Vertical (sample : Line ℝ → Option (V3 ℝ × ℝ)) : Prop where
  same : ∀ (o : V3 ℝ) (d : ℝ), sample ⟨⟨o.x, o.y, o.z - d⟩, V3.neg V3.ez⟩ = sample ⟨o, V3.neg V3.ez⟩
  on : ∀ (o : V3 ℝ) (p : V3 ℝ) (f : ℝ), sample ⟨o, V3.neg V3.ez⟩ = some (p, f) → p.x = o.x ∧ p.y = o.y

theorem Rib.vertical_mesh (ground : List (TriangleGround ℝ)) : Rib.Vertical (Rib.samplingLineMesh ground) where
  same o d := by
    have : Rib.samplingHits ground ⟨⟨o.x, o.y, o.z - d⟩, V3.neg V3.ez⟩ = Rib.samplingHits ground ⟨o, V3.neg V3.ez⟩ := by
      unfold Rib.samplingHits
      simp only [Inter.lineTriangle_lowered]
    unfold Rib.samplingLineMesh
    rw [this]
  on o p f h := by
    unfold Rib.samplingLineMesh at h
    have key : (p, f) ∈ Rib.samplingHits ground ⟨o, V3.neg V3.ez⟩ := by
      split at h
      · exact absurd h (by simp)
      · rename_i a as e
        rw [e, ← Option.some.inj h]
        exact Rib.highest_mem _ _
    unfold Rib.samplingHits at key
    obtain ⟨t, -, ht⟩ := List.mem_filterMap.1 key
    obtain ⟨q, hq, hqp⟩ := Option.map_eq_some_iff.1 ht
    cases hqp
    unfold Inter.lineTriangle at hq
    dsimp only at hq
    split at hq
    · exact absurd hq (by simp)
    split at hq
    · exact absurd hq (by simp)
    split at hq
    · exact absurd hq (by simp)
    rw [← Option.some.inj hq]
    simp [V3.add, V3.smul, V3.neg, V3.ez]

theorem Rib.vertical_flat (ground : Flat ℝ) : Rib.Vertical (Rib.samplingLineFlat ground) where
  same o d := by
    have heps := real_eps_pos
    unfold Rib.samplingLineFlat
    congr 1
    unfold Inter.linePlane
    dsimp only
    split
    · rename_i h
      have h0 : ground.plane.normal.z ≠ 0 := by
        intro h0
        simp [V3.dot, V3.neg, V3.ez, h0] at h
        linarith [real_eps, heps, show (Scalar.eps : ℝ) = Scalar.eps from rfl]
      congr 1
      simp [V3.dot, V3.neg, V3.ez, V3.add, V3.sub, V3.smul]
      field_simp
      ring
    · rfl
  on o p f h := by
    unfold Rib.samplingLineFlat at h
    obtain ⟨q, hq, hqp⟩ := Option.map_eq_some_iff.1 h
    cases hqp
    unfold Inter.linePlane at hq
    dsimp only at hq
    split at hq
    · rw [← Option.some.inj hq]
      simp [V3.add, V3.smul, V3.neg, V3.ez]
    · exact absurd hq (by simp)

/-- The record of a rib whose centre is `h` above the ground point below it. -/
noncomputable def Spec.rideRecord (r : Rib ℝ) (point normal : V3 ℝ) (friction reach h : ℝ) : Output ℝ :=
  { point := point
    normal := normal
    friction := friction
    depth := reach - |h|
    area := Rib.depthArea r.radius r.width (reach - |h|)
    volume := Rib.depthVolume r.radius r.width (reach - |h|) }

theorem Rib.line_lowered (pose : Affine ℝ) (d : ℝ) (v : V3 ℝ) :
    V3.add (lowered pose d).trans (M3.mulVec (lowered pose d).linear v) =
      ⟨(V3.add pose.trans (M3.mulVec pose.linear v)).x, (V3.add pose.trans (M3.mulVec pose.linear v)).y,
        (V3.add pose.trans (M3.mulVec pose.linear v)).z - d⟩ := by
  simp only [Spec.lowered, V3.add, real_add]
  congr 1
  ring

/-- One rib over one ground at all heights of the wheel: either there is no contact at any height, or the point, the
normal, the friction and the reach are fixed and only the height of the centre over the point counts. -/
theorem Rib.envelopSampling_heights {sample : Line ℝ → Option (V3 ℝ × ℝ)} (hv : Rib.Vertical sample) (r : Rib ℝ)
    (pose : Affine ℝ) :
    (∀ d, r.envelopSampling sample (lowered pose d) = (false, r.noContact (lowered pose d))) ∨
    ∃ (z0 μ q : ℝ) (n : V3 ℝ), |q| ≤ 1 ∧ ∀ d, r.envelopSampling sample (lowered pose d) =
      if 0 < r.radius * |q| - |(r.centerGrd pose).z - d - z0| then
        (true, rideRecord r ⟨(r.centerGrd pose).x, (r.centerGrd pose).y, z0⟩ n μ (r.radius * |q|)
          ((r.centerGrd pose).z - d - z0))
      else (false, r.noContact (lowered pose d)) := by
  have e0 : ∀ d, sample (r.lineXp (lowered pose d)) = sample (r.lineXp pose) := fun d => by
    unfold Rib.lineXp; rw [Rib.line_lowered, hv.same]
  have e1 : ∀ d, sample (r.lineXm (lowered pose d)) = sample (r.lineXm pose) := fun d => by
    unfold Rib.lineXm; rw [Rib.line_lowered, hv.same]
  have e2 : ∀ d, sample (r.lineYp (lowered pose d)) = sample (r.lineYp pose) := fun d => by
    unfold Rib.lineYp; rw [Rib.line_lowered, hv.same]
  have e3 : ∀ d, sample (r.lineYm (lowered pose d)) = sample (r.lineYm pose) := fun d => by
    unfold Rib.lineYm; rw [Rib.line_lowered, hv.same]
  unfold Rib.envelopSampling
  simp only [e0, e1, e2, e3]
  rcases h0 : sample (r.lineXp pose) with _ | ⟨p0, f0⟩
  · left; intro d; rfl
  rcases h1 : sample (r.lineXm pose) with _ | ⟨p1, f1⟩
  · left; intro d; rfl
  rcases h2 : sample (r.lineYp pose) with _ | ⟨p2, f2⟩
  · left; intro d; rfl
  rcases h3 : sample (r.lineYm pose) with _ | ⟨p3, f3⟩
  · left; intro d; rfl
  right
  obtain ⟨x0, y0⟩ := hv.on _ _ _ h0
  obtain ⟨x1, y1⟩ := hv.on _ _ _ h1
  obtain ⟨x2, y2⟩ := hv.on _ _ _ h2
  obtain ⟨x3, y3⟩ := hv.on _ _ _ h3
  have hpt : V3.sdiv (V3.add (V3.add (V3.add p0 p1) p2) p3) (lit 4 1) =
      (⟨(r.centerGrd pose).x, (r.centerGrd pose).y, (p0.z + p1.z + p2.z + p3.z) / 4⟩ : V3 ℝ) := by
    simp only [V3.sdiv, V3.add, real_add, real_div, real_lit, x0, x1, x2, x3, y0, y1, y2, y3, Rib.centerGrd]
    v3
    simp
    constructor <;> ring
  refine ⟨(p0.z + p1.z + p2.z + p3.z) / 4, (f0 + f1 + f2 + f3) / 4,
    V3.dot (V3.normalized (V3.cross (V3.sub p0 p1) (V3.sub p2 p3)))
      (V3.normalized (V3.cross (V3.normalized pose.linear.c1)
        (V3.normalized (V3.cross (V3.normalized (V3.cross (V3.sub p0 p1) (V3.sub p2 p3))) (V3.normalized pose.linear.c1))))),
    V3.normalized (V3.cross (V3.sub p0 p1) (V3.sub p2 p3)), V3.abs_dot_normalized_le _ _, fun d => ?_⟩
  have hn : V3.norm (V3.sub (V3.sdiv (V3.add (V3.add (V3.add p0 p1) p2) p3) (lit 4 1)) (r.centerGrd (lowered pose d))) =
      |(r.centerGrd pose).z - d - (p0.z + p1.z + p2.z + p3.z) / 4| := by
    have hc : r.centerGrd (lowered pose d) = ⟨(r.centerGrd pose).x, (r.centerGrd pose).y, (r.centerGrd pose).z - d⟩ := by
      unfold Rib.centerGrd; exact Rib.line_lowered pose d _
    rw [hpt, hc, V3.norm_eq]
    simp only [length3, dot3, V3.sub, real_sub, sub_self]
    rw [show (0 : ℝ) ^ 2 + 0 ^ 2 + ((p0.z + p1.z + p2.z + p3.z) / 4 - ((r.centerGrd pose).z - d)) ^ 2 =
      ((r.centerGrd pose).z - d - (p0.z + p1.z + p2.z + p3.z) / 4) ^ 2 by ring, Real.sqrt_sq_eq_abs]
  simp only [hn]
  simp only [hpt, Spec.rideRecord, show (lowered pose d).linear = pose.linear from rfl, real_mul, real_sub, real_abs, real_add,
    real_div, real_lt, real_zero, decide_eq_true_eq]
  norm_num

/-! ## C131 -/

/-- **C131, all heights.**  A rib of a wheel over a list of triangles, with the sampling method: either there is no contact at any height
of the wheel, or there are a ground height under the rib centre, a normal, a friction and a reach of at most the radius such that
at every height the record is the one of these four values and the height of the centre over the ground, and there is a contact
exactly when that height is less than the reach. -/
theorem C131_heights {r : Rib ℝ} (hr : IsRib r) (ground : List (TriangleGround ℝ)) (pose : Affine ℝ) :
    (∀ d, r.envelopSamplingMesh ground (lowered pose d) = (false, r.noContact (lowered pose d))) ∨
    ∃ (z0 μ reach : ℝ) (n : V3 ℝ), 0 ≤ reach ∧ reach ≤ r.radius ∧ ∀ d,
      (|(pose.apply ⟨0, r.y, 0⟩).z - d - z0| < reach → r.envelopSamplingMesh ground (lowered pose d) =
        (true, rideRecord r ⟨(pose.apply ⟨0, r.y, 0⟩).x, (pose.apply ⟨0, r.y, 0⟩).y, z0⟩ n μ reach
          ((pose.apply ⟨0, r.y, 0⟩).z - d - z0))) ∧
      (reach ≤ |(pose.apply ⟨0, r.y, 0⟩).z - d - z0| → r.envelopSamplingMesh ground (lowered pose d) =
        (false, r.noContact (lowered pose d))) := by
  have hcen : r.centerGrd pose = pose.apply ⟨0, r.y, 0⟩ := by
    rw [Rib.centerGrd_eq, Spec.ribCentre, show r.center = ⟨0, r.y, 0⟩ from hr.center]
  have hR := hr.radius_pos
  rcases Rib.envelopSampling_heights (Rib.vertical_mesh ground) r pose with h | ⟨z0, μ, q, n, hq, h⟩
  · exact .inl h
  · refine .inr ⟨z0, μ, r.radius * |q|, n, mul_nonneg hR.le (abs_nonneg _), mul_le_of_le_one_right hR.le hq, fun d => ⟨fun hd => ?_, fun hd => ?_⟩⟩
    · have := h d
      rw [hcen] at this
      rw [if_pos (by linarith)] at this
      exact this
    · have := h d
      rw [hcen] at this
      rw [if_neg (by linarith)] at this
      exact this

/-- What lowering the wheel by `d` (raising it, for a negative `d`) does to a contact that stays below the rib centre, at height
`hub`, given the records `o` before and `o'` after: the contact is lost exactly when its depth would not be positive, otherwise the
point and the normal are the same and the depth has grown by `d`; lowering never reduces area or volume. -/
def Spec.Rides (hub d : ℝ) (o o' : Output ℝ) : Prop :=
  0 < o.depth → o.point.z ≤ hub → o.point.z ≤ hub - d →
    (0 < o'.depth ↔ 0 < o.depth + d) ∧
    (0 < o'.depth → o'.point = o.point ∧ o'.normal = o.normal ∧ o'.depth = o.depth + d) ∧
    (0 ≤ d → o.area ≤ o'.area ∧ o.volume ≤ o'.volume)

theorem Rib.lowered_zero (pose : Affine ℝ) : lowered pose 0 = pose := by
  simp [Spec.lowered]

theorem Rib.envelopSampling_rides {sample : Line ℝ → Option (V3 ℝ × ℝ)} (hv : Rib.Vertical sample) {r : Rib ℝ} (hr : IsRib r)
    (pose : Affine ℝ) (d : ℝ) :
    Rides (pose.apply ⟨0, r.y, 0⟩).z d (r.envelopSampling sample pose).2 (r.envelopSampling sample (lowered pose d)).2 ∧
    (0 < (r.envelopSampling sample pose).2.depth → 0 < (r.envelopSampling sample (lowered pose d)).2.depth →
      (r.envelopSampling sample (lowered pose d)).2.friction = (r.envelopSampling sample pose).2.friction) := by
  have hcen : r.centerGrd pose = pose.apply ⟨0, r.y, 0⟩ := by
    rw [Rib.centerGrd_eq, Spec.ribCentre, show r.center = ⟨0, r.y, 0⟩ from hr.center]
  have hnc : ∀ p : Affine ℝ, (r.noContact p).depth = 0 := fun p => by simp [Rib.noContact]
  rcases Rib.envelopSampling_heights hv r pose with h | ⟨z0, μ, q, n, hq, h⟩
  · have h0 := h 0
    rw [Rib.lowered_zero] at h0
    constructor
    · intro hd
      rw [h0] at hd
      simp [hnc] at hd
    · intro hd
      rw [h0] at hd
      simp [hnc] at hd
  · have h0 := h 0
    have h1 := h d
    rw [Rib.lowered_zero] at h0
    rw [h0, h1]
    clear h h0 h1
    rw [← hcen]
    by_cases c0 : 0 < r.radius * |q| - |(r.centerGrd pose).z - 0 - z0|
    swap
    · rw [if_neg c0]
      exact ⟨fun hd => absurd hd (by simp [hnc]), fun hd => absurd hd (by simp [hnc])⟩
    rw [if_pos c0]
    have hR := hr.radius_pos
    have hreach : r.radius * |q| ≤ r.radius := mul_le_of_le_one_right hR.le hq
    generalize r.radius * |q| = reach at *
    generalize (r.centerGrd pose) = c at *
    by_cases c1 : 0 < reach - |c.z - d - z0|
    · rw [if_pos c1]
      refine ⟨fun _ a1 a2 => ?_, fun _ _ => rfl⟩
      simp only [Spec.rideRecord] at a1 a2 ⊢
      have b1 : |c.z - 0 - z0| = c.z - z0 := by rw [sub_zero, abs_of_nonneg (by linarith)]
      have b2 : |c.z - d - z0| = c.z - z0 - d := by rw [abs_of_nonneg (by linarith)]; ring
      rw [b1] at c0
      rw [b2] at c1
      rw [b1, b2]
      refine ⟨⟨fun h => by linarith, fun h => by linarith⟩, fun _ => ⟨trivial, trivial, by ring⟩, fun hd => ⟨?_, ?_⟩⟩
      · exact Rib.depthArea_mono hr.width_nonneg (by linarith) (by linarith)
      · exact Rib.depthVolume_mono hR hr.width_nonneg (by linarith) (by linarith) (by linarith)
    · rw [if_neg c1]
      refine ⟨fun _ a1 a2 => ?_, fun _ h => absurd h (by simp [hnc])⟩
      simp only [Spec.rideRecord, hnc] at a1 a2 ⊢
      have b1 : |c.z - 0 - z0| = c.z - z0 := by rw [sub_zero, abs_of_nonneg (by linarith)]
      have b2 : |c.z - d - z0| = c.z - z0 - d := by rw [abs_of_nonneg (by linarith)]; ring
      rw [b1] at c0
      rw [b2] at c1
      rw [b1]
      exact ⟨⟨fun h => absurd h (lt_irrefl _), fun h => absurd (by linarith) c1⟩, fun h => absurd h (lt_irrefl _),
        fun hd => absurd (by linarith) c1⟩

/-- **C131, one rib over triangles.**  Lowering or raising the wheel only changes the depth, and changes it by the same amount. -/
theorem C131_mesh {r : Rib ℝ} (hr : IsRib r) (ground : List (TriangleGround ℝ)) (pose : Affine ℝ) (d : ℝ) :
    Rides (pose.apply ⟨0, r.y, 0⟩).z d (r.envelopSamplingMesh ground pose).2
      (r.envelopSamplingMesh ground (lowered pose d)).2 ∧
    (0 < (r.envelopSamplingMesh ground pose).2.depth → 0 < (r.envelopSamplingMesh ground (lowered pose d)).2.depth →
      (r.envelopSamplingMesh ground (lowered pose d)).2.friction = (r.envelopSamplingMesh ground pose).2.friction) :=
  Rib.envelopSampling_rides (Rib.vertical_mesh ground) hr pose d

/-- **C131, one rib over a flat ground.** -/
theorem C131_flat {r : Rib ℝ} (hr : IsRib r) (ground : Flat ℝ) (pose : Affine ℝ) (d : ℝ) :
    Rides (pose.apply ⟨0, r.y, 0⟩).z d (r.envelopSamplingFlat ground pose).2
      (r.envelopSamplingFlat ground (lowered pose d)).2 ∧
    (0 < (r.envelopSamplingFlat ground pose).2.depth → 0 < (r.envelopSamplingFlat ground (lowered pose d)).2.depth →
      (r.envelopSamplingFlat ground (lowered pose d)).2.friction = (r.envelopSamplingFlat ground pose).2.friction) :=
  Rib.envelopSampling_rides (Rib.vertical_flat ground) hr pose d

open Classical in
theorem Shell.near_filter {s : Shell ℝ} (hx : 0 ≤ s.shape.rx) (pose : Affine ℝ) {m : Mesh ℝ} (hm : BuiltMesh m) :
    (m.triangles.filter fun t => t.bbox.intersects (s.transform pose).updateBBox.bbox) =
      m.triangles.filter fun t => decide (Near (reach s pose) t) := by
  have hfollow := Shell.updateBBox_follows (s.transform pose) hx
  refine List.filter_congr fun t ht => ?_
  rw [Bool.eq_iff_iff, decide_eq_true_iff]
  obtain ⟨id, f, w0, w1, w2, hmk⟩ := hm.constructed t ht
  have h27 := C27_triangle_box id f w0 w1 w2 t hmk
  have hint := h27.2.2.2.1 _ (InTriangle.vertex0 w0 w1 w2)
  rw [C14_intersects_iff_common_point _ _
    ⟨hint.1.1.trans hint.1.2, hint.2.1.1.trans hint.2.1.2, hint.2.2.1.trans hint.2.2.2⟩
    (Shell.updateBBox_WF (s.transform pose)), hfollow.1, hfollow.2]
  exact Iff.rfl

/-- **C131, a tyre on a mesh.**  Two setups of a tyre on a mesh with the sampling method, the second with the wheel lowered by `d`, when
the same triangles are near the tyre at both heights: the records of every rib are related as `Rides` says. -/
theorem C131_tyre {pol : Policy} {s s1 s2 : Shell ℝ} (hs : s.Reachable pol) (hx : 0 ≤ s.shape.rx) {m : Mesh ℝ}
    (hm : BuiltMesh m) {pose : Affine ℝ} {d : ℝ}
    (hnear : ∀ t ∈ m.triangles, (Near (reach s pose) t ↔ Near (reach s (lowered pose d)) t)) {b1 b2 : Bool}
    (h1 : s.setupMesh pol m pose "sampling" = .ok s1 b1)
    (h2 : s.setupMesh pol m (lowered pose d) "sampling" = .ok s2 b2) :
    ∀ i < s.size, ∃ r o1 o2, s.ribs[i]? = some r ∧ s1.out.read pol i = .ok o1 ∧ s2.out.read pol i = .ok o2 ∧
      Rides (pose.apply ⟨0, r.y, 0⟩).z d o1 o2 := by
  classical
  obtain ⟨loc, hl1, q1⟩ := hm.query _ (Shell.updateBBox_WF (s.transform pose))
  obtain ⟨loc', hl2, q2⟩ := hm.query _ (Shell.updateBBox_WF (s.transform (lowered pose d)))
  rw [Shell.near_filter hx pose hm] at q1
  rw [Shell.near_filter hx (lowered pose d) hm] at q2
  have hfil : (m.triangles.filter fun t => decide (Near (reach s pose) t)) =
      m.triangles.filter fun t => decide (Near (reach s (lowered pose d)) t) :=
    List.filter_congr fun t ht => by rw [Bool.eq_iff_iff, decide_eq_true_iff, decide_eq_true_iff]; exact hnear t ht
  have hperm : loc'.Perm loc := q2.trans (hfil ▸ q1.symm)
  obtain ⟨f1, r1, a1, -⟩ := C38_mesh_flag pol s s1 hs m pose "sampling" loc b1 hl1 h1
  obtain ⟨f2, r2, a2, -⟩ := C38_mesh_flag pol s s2 hs m (lowered pose d) "sampling" loc' b2 hl2 h2
  have e1 := (Shell.setupMesh_rel (.inl ⟨b1, h1⟩)).ribs
  have e2 := (Shell.setupMesh_rel (.inl ⟨b2, h2⟩)).ribs
  have hcand : ∀ (p : Affine ℝ) (l : List (TriangleGround ℝ)) (r : Rib ℝ), Shell.ribCandidates p "sampling" l r = l := by
    intro p l r
    unfold Shell.ribCandidates
    rw [List.filter_eq_self]
    intro t _
    simp [Shell.refines, Shell.isCandidate]
  intro i hi
  obtain ⟨r, g1, g2, g3⟩ := a1 i hi
  obtain ⟨r', g1', g2', g3'⟩ := a2 i hi
  rw [e1] at g1
  rw [e2, ← e1, e1, g1] at g1'
  cases g1'
  refine ⟨r, _, _, g1, g3, g3', ?_⟩
  have hr : IsRib r := hs.isRib r (List.mem_of_getElem? g1)
  have hen : ∀ (p : Affine ℝ) (l : List (TriangleGround ℝ)),
      r.envelopMesh l p "sampling" = .ok (r.envelopSamplingMesh l p) := by
    intro p l; simp [Rib.envelopMesh]
  have g2 : (if loc = [] then Res.ok (false, r.noContact pose) else
    r.envelopMesh (Shell.ribCandidates pose "sampling" loc r) pose "sampling") = .ok (f1 i, r1 i) := g2
  have g2' : (if loc' = [] then Res.ok (false, r.noContact (lowered pose d)) else
    r.envelopMesh (Shell.ribCandidates (lowered pose d) "sampling" loc' r) (lowered pose d) "sampling") = .ok (f2 i, r2 i) := g2'
  rw [hcand, hen] at g2 g2'
  by_cases hnil : loc = []
  · rw [if_pos hnil] at g2
    rw [← (Prod.mk.inj (Res.ok.inj g2)).2]
    intro hd
    simp [Rib.noContact] at hd
  · have hnil' : loc' ≠ [] := by
      intro hc; rw [hc] at hperm; exact hnil hperm.symm.eq_nil
    rw [if_neg hnil] at g2
    rw [if_neg hnil'] at g2'
    have key := (C131_mesh hr loc pose d).1
    have ho := C29_order_independent r (lowered pose d) hperm
    dsimp only at ho
    rw [Res.ok.inj g2'] at ho
    rw [Res.ok.inj g2] at key
    obtain ⟨-, k1, k2, k3, k4, k5, -⟩ := ho
    unfold Spec.Rides at key ⊢
    rw [k1, k2, k3, k4, k5]
    exact key

theorem Demo.field_over {x y : ℝ} (hx : |x| ≤ 1) (hy : |y| ≤ 1) : OnMesh [Demo.field] ⟨x, y, 0⟩ := by
  have h1 := abs_le.1 hx
  have h2 := abs_le.1 hy
  refine ⟨Demo.field, List.mem_singleton.2 rfl, (y + 10) / 20, ((10 - y) / 20 - x / 30) / 2, ((10 - y) / 20 + x / 30) / 2,
    by linarith [h2.1], by linarith [h1.2, h2.2], by linarith [h1.1, h2.2], by ring, ?_⟩
  simp only [Demo.field, TriangleGround.updateBBox, TriangleGround.updateNormal]
  ext <;> dsimp only <;> ring

/-- A wheel standing half a unit deep in the field, by sampling. -/
theorem Demo.field_sampled : (Demo.rib.envelopSamplingMesh [Demo.field] (Demo.upright (1 / 2))).2.depth = 1 / 2 ∧
    (Demo.rib.envelopSamplingMesh [Demo.field] (Demo.upright (1 / 2))).2.point = ⟨0, 0, 0⟩ := by
  obtain ⟨a0, a1, a2, a3, -⟩ := Accurate.lines_exact Demo.rib_isRib.center (Demo.upright (1 / 2))
  have hup : Scalar.eps < Demo.road.plane.normal.z := by simpa [Demo.road] using real_eps_lt_one
  have hfl : Demo.rib.envelopSamplingMesh [Demo.field] (Demo.upright (1 / 2)) =
      Demo.rib.envelopSamplingFlat Demo.road (Demo.upright (1 / 2)) := by
    apply C107_plane_partial hup
    · rintro p ⟨t, ht, a, b, c, -, -, -, -, rfl⟩
      rw [List.mem_singleton] at ht
      subst ht
      simp [OnPlane, dot3, minus, Demo.road, Demo.field, TriangleGround.updateBBox, TriangleGround.updateNormal]
    · intro t ht
      rw [List.mem_singleton] at ht
      subst ht; rfl
    · intro t ht
      rw [List.mem_singleton] at ht
      subst ht
      have := real_eps_lt_one
      simp only [Demo.field, TriangleGround.updateBBox, TriangleGround.updateNormal, plan2]
      norm_num
      linarith
    · intro l hl
      refine ⟨⟨l.origin.x, l.origin.y, 0⟩, Demo.field_over ?_ ?_, rfl, rfl⟩ <;>
      · simp only [List.mem_cons, List.not_mem_nil, or_false] at hl
        rcases hl with rfl | rfl | rfl | rfl
        · rw [a0]; simp only [Demo.upright, Demo.rib, Rib.make, Rib.radius, Rib.y, Rib.width]; v3; norm_num [abs_le]
        · rw [a1]; simp only [Demo.upright, Demo.rib, Rib.make, Rib.radius, Rib.y, Rib.width]; v3; norm_num [abs_le]
        · rw [a2]; simp only [Demo.upright, Demo.rib, Rib.make, Rib.radius, Rib.y, Rib.width]; v3; norm_num [abs_le]
        · rw [a3]; simp only [Demo.upright, Demo.rib, Rib.make, Rib.radius, Rib.y, Rib.width]; v3; norm_num [abs_le]
  have hc : (Demo.upright (1 / 2)).apply ⟨0, Demo.rib.y, 0⟩ = ⟨0, 0, 1 / 2⟩ := by
    simp [Demo.upright, Affine.apply, M3.mulVec, V3.add, Demo.rib, Rib.make]
  have hR : Demo.rib.radius = 1 := by simp [Demo.rib, Rib.make, Rib.radius]
  obtain ⟨-, -, h1, h2⟩ := C60_sampling_flat Demo.rib_isRib one_pos (Demo.upright_rigid (1 / 2)) rfl Demo.road_make rfl rfl
    (by rw [hc]; norm_num)
  rw [hfl]
  obtain ⟨k1, k2, -⟩ := h2 (h1.2 (by rw [hc, hR]; norm_num))
  rw [hc] at k1 k2
  rw [hR] at k1
  exact ⟨by rw [k1]; norm_num, k2⟩

/-- The wheel lowered by a quarter, and lifted out of the field. -/
example : (Demo.rib.envelopSamplingMesh [Demo.field] (lowered (Demo.upright (1 / 2)) (1 / 4))).2.depth = 3 / 4 ∧
    ¬ 0 < (Demo.rib.envelopSamplingMesh [Demo.field] (lowered (Demo.upright (1 / 2)) (-1))).2.depth := by
  obtain ⟨hd, hp⟩ := Demo.field_sampled
  have hz : ((Demo.upright (1 / 2)).apply ⟨0, Demo.rib.y, 0⟩).z = 1 / 2 := by rw [Demo.upright_z]; norm_num
  constructor
  · obtain ⟨k1, k2, -⟩ := (C131_mesh Demo.rib_isRib [Demo.field] (Demo.upright (1 / 2)) (1 / 4)).1 (by rw [hd]; norm_num)
      (by rw [hp, hz]; norm_num) (by rw [hp, hz]; norm_num)
    rw [(k2 (k1.2 (by rw [hd]; norm_num))).2.2, hd]; norm_num
  · obtain ⟨k1, -, -⟩ := (C131_mesh Demo.rib_isRib [Demo.field] (Demo.upright (1 / 2)) (-1)).1 (by rw [hd]; norm_num)
      (by rw [hp, hz]; norm_num) (by rw [hp, hz]; norm_num)
    rw [k1, hd]; norm_num

/-- A tyre of 25 ribs on the field at two heights. -/
example (fresh : Nat → Output ℝ) : ∃ (s s1 s2 : Shell ℝ) (b1 b2 : Bool), s.Reachable .raw ∧ 0 ≤ s.shape.rx ∧ s.size = 25 ∧
    s.setupMesh .raw (Mesh.ofTriangles [Demo.field]) (Demo.upright (1 / 4)) "sampling" = .ok s1 b1 ∧
    s.setupMesh .raw (Mesh.ofTriangles [Demo.field]) (lowered (Demo.upright (1 / 4)) (1 / 8)) "sampling" = .ok s2 b2 ∧
    ∀ t ∈ (Mesh.ofTriangles [Demo.field]).triangles, (Near (reach s (Demo.upright (1 / 4))) t ↔
      Near (reach s (lowered (Demo.upright (1 / 4)) (1 / 8))) t) := by
  have hv : ValidProfile (1/2 : ℝ) 4 (1/4) 2 (1/8) :=
    ⟨by norm_num, by norm_num, by norm_num, by norm_num, by norm_num, by norm_num⟩
  obtain ⟨s, h1, h2, -, hsh, -⟩ := C04_construct fresh 25 (by norm_num) (1/2) 4 (1/4) 2 (1/8) hv
  have hreach : s.Reachable .raw := .make h1
  obtain ⟨sA, b, hA⟩ := Shell.setupMesh_sampling_total hreach (by omega) Demo.field_built (Demo.upright (1 / 4))
  obtain ⟨sB, b', hB⟩ := Shell.setupMesh_sampling_total hreach (by omega) Demo.field_built (lowered (Demo.upright (1 / 4)) (1 / 8))
  refine ⟨s, sA, sB, b, b', hreach, by rw [hsh]; norm_num, h2, hA, hB, fun t ht => ?_⟩
  rw [show (Mesh.ofTriangles [Demo.field]).triangles = [Demo.field] from rfl, List.mem_singleton] at ht
  subst ht
  have hin : InBox Demo.field.bbox.min Demo.field.bbox.max ⟨0, 0, 0⟩ := by
    have h27 := C27_triangle_box _ _ _ _ _ _ Demo.field_make
    obtain ⟨t, ht, h⟩ := Demo.field_over (x := 0) (y := 0) (by norm_num) (by norm_num)
    rw [List.mem_singleton] at ht
    subst ht
    exact h27.2.2.2.1 _ h
  constructor <;> intro _ <;> refine ⟨⟨0, 0, 0⟩, hin, ?_⟩ <;> rw [reach, hsh] <;>
    norm_num [InBox, Demo.upright, lowered]

end Enve
