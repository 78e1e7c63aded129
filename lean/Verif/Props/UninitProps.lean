import Verif.Model.Uninit
import Verif.Props.MeshWitness

/-! # C110: which evaluations read variables that have no value -/

namespace Enve
open Scalar Spec

variable {α : Type} [Scalar α]

/-- The section `seg` is run through clockwise, seen along the axis of the wheel: the second end has the smaller angle. -/
def Spec.RunsBack (r : Rib α) (pose : Affine α) (seg : Segment α) : Prop :=
  let pa := M3.mulVec (M3.transpose pose.linear) (V3.sub seg.v0 (r.centerGrd pose))
  let pb := M3.mulVec (M3.transpose pose.linear) (V3.sub seg.v1 (r.centerGrd pose))
  (Scalar.atan2 pb.z pb.x <. Scalar.atan2 pa.z pa.x) = true

namespace Uninit

theorem lineTriangleSeg_no_ub (l : Line α) (t : Triangle α) (tol : α) (w : String) : Inter.lineTriangleSeg l t tol ≠ .ub w := by
  unfold Inter.lineTriangleSeg
  split <;> try simp
  split
  · simp
  · split
    · simp
    · split <;> simp

theorem triangleDisk_no_ub (t : Triangle α) (d : Disk α) (tol : α) (w : String) : Inter.triangleDisk t d tol ≠ .ub w := by
  unfold Inter.triangleDisk Inter.planeTriangle
  split
  · rename_i l hl
    have := lineTriangleSeg_no_ub l t tol
    rcases h : Inter.lineTriangleSeg l t tol with o | m | m
    · rcases o with _ | s <;> simp
    · simp
    · exact absurd h (this m)
  · simp

theorem swap_some (r : Rib α) (pose : Affine α) (seg : Segment α) (x y : α) :
    ∃ v, r.swapRadii pose seg ⟨some x, some y⟩ = .ok v := by
  unfold Rib.swapRadii
  dsimp only
  split <;> simp [Rib.read]

theorem swap_none (r : Rib α) (pose : Affine α) (seg : Segment α) :
    (RunsBack r pose seg ∧ ∃ w, r.swapRadii pose seg ⟨none, none⟩ = .ub w) ∨
    (¬ RunsBack r pose seg ∧ r.swapRadii pose seg ⟨none, none⟩ = .ok ⟨none, none⟩) := by
  unfold Rib.swapRadii RunsBack
  dsimp only
  split
  · rename_i h; exact .inl ⟨h, by simp [Rib.read]⟩
  · rename_i h; exact .inr ⟨h, rfl⟩

/-- Once the variables have values, the loop is that of the model. -/
theorem loop_some (r : Rib α) (pose : Affine α) (ts : List (TriangleGround α)) (acc : Rib.Acc α) (x y : α) :
    r.geomLoopStd pose ts acc ⟨some x, some y⟩ = r.geomLoop pose ts acc := by
  induction ts generalizing acc x y with
  | nil => rfl
  | cons t ts ih =>
    unfold Rib.geomLoopStd Rib.geomLoop
    rcases h : Inter.triangleDisk t.tri (r.diskGrd pose) Scalar.eps with o | m | m
    · rcases o with _ | seg
      · simp only [Res.bind_ok, ih]
      · obtain ⟨v, hv⟩ := swap_some r pose seg x y
        simp only [Res.bind_ok, hv]
        rcases r.contrib pose t seg with _ | c
        · rfl
        · exact ih _ _ _
    · rfl
    · rfl

/-- The first section that the loop meets decides. -/
theorem loop_none (r : Rib α) (pose : Affine α) (ts : List (TriangleGround α)) (acc : Rib.Acc α) :
    ((∃ w, r.geomLoopStd pose ts acc ⟨none, none⟩ = .ub w) ↔
      ∃ pre t post seg, ts = pre ++ t :: post ∧
        (∀ u ∈ pre, Inter.triangleDisk u.tri (r.diskGrd pose) Scalar.eps = .ok none) ∧
        Inter.triangleDisk t.tri (r.diskGrd pose) Scalar.eps = .ok (some seg) ∧ RunsBack r pose seg) ∧
    ((¬ ∃ w, r.geomLoopStd pose ts acc ⟨none, none⟩ = .ub w) →
      r.geomLoopStd pose ts acc ⟨none, none⟩ = r.geomLoop pose ts acc) := by
  induction ts with
  | nil => refine ⟨⟨?_, ?_⟩, fun _ => rfl⟩ <;> simp [Rib.geomLoopStd]
  | cons t ts ih =>
    have hno : ∀ {seg seg' : Segment α} {pre post u}, ¬ RunsBack r pose seg →
        Inter.triangleDisk t.tri (r.diskGrd pose) Scalar.eps = .ok (some seg) → t :: ts = pre ++ u :: post →
        (∀ u ∈ pre, Inter.triangleDisk u.tri (r.diskGrd pose) Scalar.eps = .ok none) →
        Inter.triangleDisk u.tri (r.diskGrd pose) Scalar.eps = .ok (some seg') → ¬ RunsBack r pose seg' := by
      intro seg seg' pre post u hb h e h1 h2
      rcases pre with _ | ⟨v, pre⟩
      · obtain ⟨rfl, rfl⟩ := List.cons.inj e
        rw [h] at h2
        have := Option.some.inj (Res.ok.inj h2)
        subst this
        exact hb
      · obtain ⟨rfl, rfl⟩ := List.cons.inj e
        have := h1 _ (List.mem_cons_self ..)
        rw [h] at this; cases this
    unfold Rib.geomLoopStd Rib.geomLoop
    rcases h : Inter.triangleDisk t.tri (r.diskGrd pose) Scalar.eps with o | m | m
    · rcases o with _ | seg
      · simp only [Res.bind_ok]
        refine ⟨ih.1.trans ⟨?_, ?_⟩, ih.2⟩
        · rintro ⟨pre, u, post, seg, rfl, h1, h2⟩
          refine ⟨t :: pre, u, post, seg, rfl, ?_, h2⟩
          intro v hv
          rcases List.mem_cons.1 hv with rfl | hv
          · exact h
          · exact h1 v hv
        · rintro ⟨pre, u, post, seg, e, h1, h2, h3⟩
          rcases pre with _ | ⟨v, pre⟩
          · obtain ⟨rfl, rfl⟩ := List.cons.inj e
            rw [h] at h2; cases h2
          · obtain ⟨rfl, rfl⟩ := List.cons.inj e
            exact ⟨pre, u, post, seg, rfl, fun w hw => h1 w (List.mem_cons_of_mem _ hw), h2, h3⟩
      · simp only [Res.bind_ok]
        rcases swap_none r pose seg with ⟨hb, w, hw⟩ | ⟨hb, hw⟩
        · simp only [hw, Res.bind_ub]
          exact ⟨⟨fun _ => ⟨[], t, ts, seg, rfl, by simp, h, hb⟩, fun _ => ⟨_, rfl⟩⟩, fun hn => absurd ⟨_, rfl⟩ hn⟩
        · simp only [hw, Res.bind_ok]
          rcases hcon : r.contrib pose t seg with _ | c
          all_goals
            dsimp only
            refine ⟨⟨?_, ?_⟩, ?_⟩
          · rintro ⟨w, hw'⟩; cases hw'
          · rintro ⟨pre, u, post, seg', e, h1, h2, h3⟩
            exact absurd h3 (hno hb h e h1 h2)
          · exact fun _ => rfl
          · rintro ⟨w, hw'⟩
            rw [show r.newRadii pose seg = ⟨some _, some _⟩ from rfl, loop_some] at hw'
            exact absurd hw' (loop_no_ub r pose ts _ w)
          · rintro ⟨pre, u, post, seg', e, h1, h2, h3⟩
            exact absurd h3 (hno hb h e h1 h2)
          · exact fun _ => loop_some r pose ts _ _ _
    · refine ⟨⟨?_, ?_⟩, fun _ => rfl⟩
      · rintro ⟨w, hw⟩; cases hw
      · rintro ⟨pre, u, post, seg, e, h1, h2, h3⟩
        exfalso
        rcases pre with _ | ⟨v, pre⟩
        · obtain ⟨rfl, rfl⟩ := List.cons.inj e
          rw [h] at h2; cases h2
        · obtain ⟨rfl, rfl⟩ := List.cons.inj e
          have := h1 _ (List.mem_cons_self ..)
          rw [h] at this; cases this
    · exact absurd h (triangleDisk_no_ub _ _ _ _)
where
  loop_no_ub (r : Rib α) (pose : Affine α) (ts : List (TriangleGround α)) (acc : Rib.Acc α) (w : String) :
      r.geomLoop pose ts acc ≠ .ub w := by
    induction ts generalizing acc with
    | nil => simp [Rib.geomLoop]
    | cons t ts ih =>
      unfold Rib.geomLoop
      rcases h : Inter.triangleDisk t.tri (r.diskGrd pose) Scalar.eps with o | m | m
      · rcases o with _ | seg
        · simpa only [Res.bind_ok] using ih acc
        · simp only [Res.bind_ok]
          rcases r.contrib pose t seg with _ | c
          · simp
          · exact ih _
      · simp
      · exact absurd h (triangleDisk_no_ub _ _ _ _)

end Uninit

/-- **C110 (geometric method on a mesh), in any arithmetic.**  The evaluation has undefined behaviour exactly when the first
triangle that is cut is run through clockwise.  Otherwise it is what `Model/Rib.lean` says. -/
theorem C110_geometric_partial (r : Rib α) (ground : List (TriangleGround α)) (pose : Affine α) :
    ((∃ w, r.envelopGeometricMeshStd ground pose = .ub w) ↔
      ∃ pre t post seg, ground = pre ++ t :: post ∧
        (∀ u ∈ pre, Inter.triangleDisk u.tri (r.diskGrd pose) Scalar.eps = .ok none) ∧
        Inter.triangleDisk t.tri (r.diskGrd pose) Scalar.eps = .ok (some seg) ∧ RunsBack r pose seg) ∧
    ((¬ ∃ w, r.envelopGeometricMeshStd ground pose = .ub w) →
      r.envelopGeometricMeshStd ground pose = r.envelopGeometricMesh ground pose) := by
  obtain ⟨h1, h2⟩ := Uninit.loop_none r pose ground Rib.Acc.init
  have e : (∃ w, r.envelopGeometricMeshStd ground pose = .ub w) ↔
      ∃ w, r.geomLoopStd pose ground Rib.Acc.init ⟨none, none⟩ = .ub w := by
    unfold Rib.envelopGeometricMeshStd
    rcases r.geomLoopStd pose ground Rib.Acc.init ⟨none, none⟩ with o | m | m <;> simp
  refine ⟨e.trans h1, fun hn => ?_⟩
  have := h2 (fun hu => hn (e.2 hu))
  unfold Rib.envelopGeometricMeshStd Rib.envelopGeometricMesh
  rw [this]

/-- **C110 (sampling method), in any arithmetic.**  The evaluation is what `Model/Rib.lean` says when all four sampling lines meet the
ground; when one of them misses it has undefined behaviour. -/
theorem C110_sampling_partial (r : Rib α) (sample : Line α → Option (V3 α × α)) (pose : Affine α) :
    ((∀ l ∈ [r.lineXp pose, r.lineXm pose, r.lineYp pose, r.lineYm pose], sample l ≠ none) →
      r.envelopSamplingStd sample pose = .ok (r.envelopSampling sample pose)) ∧
    ((∃ l ∈ [r.lineXp pose, r.lineXm pose, r.lineYp pose, r.lineYm pose], sample l = none) →
      ∃ w, r.envelopSamplingStd sample pose = .ub w) := by
  unfold Rib.envelopSamplingStd Rib.envelopSampling
  simp only [Rib.sampleLines, List.mem_cons, List.not_mem_nil, or_false, forall_eq_or_imp, forall_eq, exists_eq_or_imp, exists_eq_left,
    if_true]
  rcases sample (r.lineXp pose) with _ | ⟨p0, f0⟩ <;> rcases sample (r.lineXm pose) with _ | ⟨p1, f1⟩ <;>
    rcases sample (r.lineYp pose) with _ | ⟨p2, f2⟩ <;> rcases sample (r.lineYm pose) with _ | ⟨p3, f3⟩ <;>
    simp [Rib.read]
  split <;> rfl

/-- **C110 (flat ground), in any arithmetic.**  The geometric method reads nothing that has no value.  The sampling method does so
exactly when the ground is so steep that vertical lines are reported parallel to it. -/
theorem C110_flat_partial (r : Rib α) (g : Flat α) (pose : Affine α) :
    r.envelopFlatStd g pose "geometric" = r.envelopFlat g pose "geometric" ∧
    ((Scalar.eps <. Scalar.abs (V3.dot g.plane.normal (V3.neg V3.ez))) = true →
      r.envelopFlatStd g pose "sampling" = r.envelopFlat g pose "sampling") ∧
    ((Scalar.eps <. Scalar.abs (V3.dot g.plane.normal (V3.neg V3.ez))) = false →
      ∃ w, r.envelopFlatStd g pose "sampling" = .ub w) := by
  obtain ⟨h1, h2⟩ := C110_sampling_partial r (Rib.samplingLineFlat g) pose
  have hd : ∀ l ∈ [r.lineXp pose, r.lineXm pose, r.lineYp pose, r.lineYm pose], l.direction = V3.neg V3.ez := by
    simp [Rib.lineXp, Rib.lineXm, Rib.lineYp, Rib.lineYm]
  refine ⟨rfl, fun h => ?_, fun h => ?_⟩
  · have := h1 (fun l hl => by simp [Rib.samplingLineFlat, Inter.linePlane, hd l hl, h])
    simpa [Rib.envelopFlatStd, Rib.envelopFlat, Rib.envelopSamplingFlat] using this
  · obtain ⟨w, hw⟩ := h2 ⟨r.lineXp pose, by simp, by
      simp [Rib.samplingLineFlat, Inter.linePlane, hd _ (List.mem_cons_self ..), h]⟩
    exact ⟨w, by simpa [Rib.envelopFlatStd] using hw⟩

/-- Every flat ground less steep than 89 degrees, exactly. -/
example : (Scalar.eps <. Scalar.abs (V3.dot (⟨⟨0, 0, 0⟩, ⟨3 / 5, 0, 4 / 5⟩⟩ : Plane ℝ).normal (V3.neg V3.ez))) = true := by
  have := real_eps_lt_one
  have h2 : (Scalar.eps : ℝ) < 4 / 5 := by rw [real_eps]; norm_num
  simpa [V3.dot, V3.neg, V3.ez, abs_of_pos] using h2

/-- **C110 is false for the geometric method.**  A wheel of radius 1 with its centre 50 cm above an ordinary triangle that faces upwards:
the evaluation exchanges two variables that have no value. -/
theorem C110_geometric_refuted :
    ∃ (r : Rib ℝ) (pose : Affine ℝ) (t : TriangleGround ℝ), IsRib r ∧ IsRigid pose ∧
      TriangleGround.make 0 1 ⟨0, 1, 0⟩ ⟨-1, -1, 0⟩ ⟨1, -1, 0⟩ = .ok t ∧ t.normal = ⟨0, 0, 1⟩ ∧
      ∃ w, r.envelopMeshStd [t] pose "geometric" = .ub w := by
  have hr := Demo.ribOf_isRib (w := 1) zero_le_one
  have hc : (Demo.ribOf 1).center = ⟨0, 0, 0⟩ := by simp [Demo.ribOf, Rib.center, Rib.make, Disk.center]
  have hR : (Demo.ribOf 1).radius = 1 := rfl
  have heps0 : (Scalar.eps : ℝ) ≤ 1 / 10 := by rw [real_eps]; norm_num
  have hpos := real_eps_pos
  have hcross : Crosses (Scalar.eps : ℝ) 0 1 (-1) (-1) 1 (-1) := by
    have e : ∀ x : ℝ, x ≤ 9 → Real.sqrt x ≤ 3 := fun x hx => by
      rw [show (3 : ℝ) = Real.sqrt (3 ^ 2) by rw [Real.sqrt_sq (by norm_num)]]
      exact Real.sqrt_le_sqrt (by norm_num; exact hx)
    refine ⟨by norm_num, by norm_num, ?_, ?_, ?_, ?_⟩
    · have := e ((0 - -1) ^ 2 + (1 - -1) ^ 2) (by norm_num)
      have := Real.sqrt_nonneg ((0 - -1 : ℝ) ^ 2 + (1 - -1) ^ 2)
      rw [show |(1 : ℝ) - -1| = 2 by norm_num]
      nlinarith
    · have := e ((0 - 1) ^ 2 + (1 - -1) ^ 2) (by norm_num)
      have := Real.sqrt_nonneg ((0 - 1 : ℝ) ^ 2 + (1 - -1) ^ 2)
      rw [show |(1 : ℝ) - -1| = 2 by norm_num]
      nlinarith
    · norm_num
    · norm_num
  have hseg := hcross.seg0 (levelFrame_rigid 0) hpos
  have c1 : crossX 0 1 1 (-1) = 1 / 2 := by norm_num [crossX]
  have c2 : crossX 0 1 (-1) (-1) = -1 / 2 := by norm_num [crossX]
  rw [c1, c2] at hseg
  have hin := Inter.segmentDisk_inside (levelFrame_rigid 0) (tol := (Scalar.eps : ℝ)) (a := 1 / 2) (b := -1 / 2)
    (k := 0) (h := 1 / 2 - 0) (R := 1) hpos real_eps_lt_one.le real_eps_lt_one.le
    (by rw [show |(-1 / 2 : ℝ) - 1 / 2| = 1 by norm_num]; linarith) (by norm_num; linarith) (by norm_num) (by norm_num)
  have hdisk := level_disk hr hc (1 / 2) (x0 := 0) (y0 := 1) (x1 := -1) (y1 := -1) (x2 := 1) (y2 := -1) (z := 0) (by norm_num)
  rw [hseg, Res.bind_ok] at hdisk
  rw [Option.bind_some, hR, hin, levelFrame_apply, levelFrame_apply, Res.pure_eq] at hdisk
  have hcg : (Demo.ribOf 1).centerGrd (Demo.upright (1 / 2)) = ⟨0, 0, 1 / 2⟩ := by
    unfold Rib.centerGrd
    rw [hc]
    simp only [Demo.upright]
    v3
    congr 1 <;> ring
  have hloc : ∀ x : ℝ, M3.mulVec (M3.transpose (Demo.upright (1 / 2)).linear) (V3.sub ⟨x, 0, 0⟩ ⟨0, 0, 1 / 2⟩) = ⟨x, 0, -1 / 2⟩ := by
    intro x
    simp only [Demo.upright]
    v3
    congr 1 <;> ring
  have hback : RunsBack (Demo.ribOf 1) (Demo.upright (1 / 2)) ⟨⟨1 / 2, 0, 0⟩, ⟨-1 / 2, 0, 0⟩⟩ := by
    unfold RunsBack
    dsimp only
    rw [hcg, hloc, hloc, real_lt]
    simp only [real_atan2, decide_eq_true_eq]
    have a1 : -(Real.pi / 2) ≤ Complex.arg ⟨1 / 2, -1 / 2⟩ := Complex.neg_pi_div_two_le_arg_iff.2 (.inl (by norm_num))
    have a2 : ¬ -(Real.pi / 2) ≤ Complex.arg ⟨-1 / 2, -1 / 2⟩ := by
      rw [Complex.neg_pi_div_two_le_arg_iff]; norm_num
    linarith [not_le.1 a2]
  let t : TriangleGround ℝ := TriangleGround.updateBBox (TriangleGround.updateNormal
    ⟨⟨⟨0, 1, 0⟩, ⟨-1, -1, 0⟩, ⟨1, -1, 0⟩⟩, 0, 1, V3.nan, Box.default⟩)
  refine ⟨Demo.ribOf 1, Demo.upright (1 / 2), t, hr, Demo.upright_rigid _, by simp [TriangleGround.make, t], ?_, ?_⟩
  · have hn : Triangle.normal ⟨⟨0, 1, 0⟩, ⟨-1, -1, 0⟩, ⟨1, -1, 0⟩⟩ = (⟨0, 0, 1⟩ : V3 ℝ) := level_normal (by norm_num)
    simp [t, TriangleGround.updateBBox, TriangleGround.updateNormal, hn]
  · have := (C110_geometric_partial (Demo.ribOf 1) [t] (Demo.upright (1 / 2))).1.2
      ⟨[], t, [], ⟨⟨1 / 2, 0, 0⟩, ⟨-1 / 2, 0, 0⟩⟩, rfl, by simp, hdisk, hback⟩
    simpa [Rib.envelopMeshStd] using this

/-- **C110 is false for the sampling method.**  A wheel next to a triangle: a sampling line misses it, and four points, of which some
have no value, are added. -/
theorem C110_sampling_refuted :
    ∃ (r : Rib ℝ) (pose : Affine ℝ) (t : TriangleGround ℝ), IsRib r ∧ IsRigid pose ∧
      TriangleGround.make 0 1 ⟨1 / 5, 1, 0⟩ ⟨1 / 5, -1, 0⟩ ⟨7 / 5, -1, 0⟩ = .ok t ∧
      ∃ w, r.envelopMeshStd [t] pose "sampling" = .ub w := by
  have hr := Demo.ribOf_isRib (w := 1) zero_le_one
  have hpos := real_eps_pos
  have heps0 : (Scalar.eps : ℝ) < 1 / 100 := by rw [real_eps]; norm_num
  refine ⟨Demo.ribOf 1, Demo.upright (1 / 2), Demo.radial, hr, Demo.upright_rigid _, Demo.radial_make, ?_⟩
  have := (C110_sampling_partial (Demo.ribOf 1) (Rib.samplingLineMesh [Demo.radial]) (Demo.upright (1 / 2))).2
    ⟨_, List.mem_cons_self .., ?_⟩
  · simpa [Rib.envelopMeshStd] using this
  · have : Rib.lineXp (Demo.ribOf 1) (Demo.upright (1 / 2)) = ⟨⟨1 / 10, 0, 1 / 2⟩, ⟨0, 0, -1⟩⟩ := by
      norm_num [Rib.lineXp, Demo.ribOf, Rib.make, Rib.center, Disk.center, Rib.radius, Demo.upright, V3.add, V3.smul, V3.neg, V3.ez,
        V3.ex, M3.mulVec]
    rw [this]
    have hm : Inter.lineTriangle (⟨⟨1 / 10, 0, 1 / 2⟩, ⟨0, 0, -1⟩⟩ : Line ℝ) Demo.radial.tri Scalar.eps = none := by
      rw [show Demo.radial.tri = ⟨⟨1 / 5, 1, 0⟩, ⟨1 / 5, -1, 0⟩, ⟨7 / 5, -1, 0⟩⟩ from rfl]
      unfold Inter.lineTriangle
      have h1 : ¬ (12 / 5 : ℝ) < Scalar.eps := by linarith
      have h2 : (-(1 / 12) : ℝ) < -Scalar.eps := by linarith
      have h3 : ¬ (7 / 12 : ℝ) < -Scalar.eps := by linarith
      have h4 : ¬ (1 + Scalar.eps : ℝ) < 7 / 12 := by linarith
      norm_num [V3.sub, V3.cross, V3.dot, h1, h2, h3, h4]
    rw [Rib.samplingLineMesh, Rib.samplingHits, List.filterMap_cons, hm]
    rfl

end Enve
