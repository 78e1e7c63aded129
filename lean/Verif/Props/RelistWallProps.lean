import Verif.Props.RelistMeshProps
import Verif.Props.RoadCutProps

/-! # The order in which the vertices of a face are listed: C134, vertical faces -/

namespace Enve
open Scalar Spec

/-- A unit vector across a unit axis, tilted by `k` along the axis and brought to length 1 again. -/
theorem Relist.tilt {nt ng : V3 ℝ} (h0 : dot3 nt ng = 0) (h1 : nt.x ^ 2 + nt.y ^ 2 + nt.z ^ 2 = 1)
    (h2 : ng.x ^ 2 + ng.y ^ 2 + ng.z ^ 2 = 1) (tn : V3 ℝ) :
    dot3 (V3.normalized (V3.add nt (V3.smul (V3.dot (V3.sub tn nt) ng) ng))) ng = dot3 tn ng / √(1 + dot3 tn ng ^ 2) := by
  have hk : V3.dot (V3.sub tn nt) ng = dot3 tn ng := by
    simp only [dot3] at *; v3; linear_combination -h0
  rw [hk]
  generalize dot3 tn ng = k
  have hsq : (V3.add nt (V3.smul k ng)).x ^ 2 + (V3.add nt (V3.smul k ng)).y ^ 2 + (V3.add nt (V3.smul k ng)).z ^ 2 = 1 + k ^ 2 := by
    simp only [dot3] at *; v3; linear_combination h1 + k ^ 2 * h2 + 2 * k * h0
  have hd : dot3 (V3.add nt (V3.smul k ng)) ng = k := by
    simp only [dot3] at *; v3; linear_combination h0 + k * h2
  have hne : V3.add nt (V3.smul k ng) ≠ ⟨0, 0, 0⟩ := by
    intro h; rw [h] at hsq; nlinarith [sq_nonneg k]
  have hn : V3.norm (V3.add nt (V3.smul k ng)) = √(1 + k ^ 2) := by rw [V3.norm_eq, length3, hsq]
  rw [V3.normalized_of_ne hne, hn]
  calc _ = dot3 (V3.add nt (V3.smul k ng)) ng / √(1 + k ^ 2) := by simp only [dot3]; ring
    _ = _ := by rw [hd]

/-- The contributions of two triangles cut in the same segment differ only in the normals, and the part of the normal along the axis of the
wheel is a function of that of the face. -/
theorem Relist.contribs {r : Rib ℝ} (hr : IsRib r) {pose : Affine ℝ} (hp : IsRigid pose) (t t' : TriangleGround ℝ)
    (hf : t'.friction = t.friction) (seg : Segment ℝ) :
    (r.contrib pose t seg = none ∧ r.contrib pose t' seg = none) ∨
    ∃ c c', r.contrib pose t seg = some c ∧ r.contrib pose t' seg = some c' ∧ c'.area = c.area ∧ c'.volume = c.volume ∧ c'.point = c.point ∧
      c'.friction = c.friction ∧ V3.normalized c.normal = c.normal ∧ V3.normalized c'.normal = c'.normal ∧
      dot3 c.normal pose.linear.c1 = dot3 t.normal pose.linear.c1 / √(1 + dot3 t.normal pose.linear.c1 ^ 2) ∧
      dot3 c'.normal pose.linear.c1 = dot3 t'.normal pose.linear.c1 / √(1 + dot3 t'.normal pose.linear.c1 ^ 2) := by
  have hRot : IsRotation pose.linear := hp
  have hnt : ∀ x : ℝ, dot3 (M3.mulVec pose.linear (⟨-. Scalar.cos x, zero, -. Scalar.sin x⟩ : V3 ℝ)) pose.linear.c1 = 0 := by
    intro x
    have e1 := hRot.orth01
    have e2 := hRot.orth12
    simp only [dot3]
    v3
    linear_combination (-Real.cos x) * e1 - Real.sin x * e2
  have hunit : ∀ x : ℝ, (M3.mulVec pose.linear (⟨-. Scalar.cos x, zero, -. Scalar.sin x⟩ : V3 ℝ)).x ^ 2 +
      (M3.mulVec pose.linear (⟨-. Scalar.cos x, zero, -. Scalar.sin x⟩ : V3 ℝ)).y ^ 2 +
      (M3.mulVec pose.linear (⟨-. Scalar.cos x, zero, -. Scalar.sin x⟩ : V3 ℝ)).z ^ 2 = 1 := by
    intro x
    have := hRot.dot_mulVec (⟨-. Scalar.cos x, zero, -. Scalar.sin x⟩ : V3 ℝ) ⟨-. Scalar.cos x, zero, -. Scalar.sin x⟩
    have hcs := Real.cos_sq_add_sin_sq x
    simp only [dot3] at this
    have e : ∀ a b c d : ℝ, a * a + b * b + c * c = d → a ^ 2 + b ^ 2 + c ^ 2 = d := by intro a b c d h; rw [← h]; ring
    rw [e _ _ _ _ this]
    v3
    linear_combination hcs
  unfold Rib.contrib
  dsimp only
  rw [Rib.normalGrd_eq hr]
  generalize (if Scalar.atan2 (α := ℝ) _ _ <. Scalar.atan2 _ _ then Scalar.atan2 (α := ℝ) _ _ else Scalar.atan2 _ _) = u
  generalize (if Scalar.atan2 (α := ℝ) _ _ <. Scalar.atan2 _ _ then Scalar.atan2 (α := ℝ) _ _ else Scalar.atan2 _ _) = v
  split
  · exact .inl ⟨rfl, rfl⟩
  · refine .inr ⟨_, _, rfl, rfl, rfl, rfl, rfl, hf, ?_, ?_, ?_, ?_⟩
    · exact V3.normalized_idem _
    · exact V3.normalized_idem _
    · exact Relist.tilt (hnt _) (hunit _) hRot.unit1 _
    · exact Relist.tilt (hnt _) (hunit _) hRot.unit1 _

/-- What the geometric method does with a single face. -/
theorem Relist.single {r : Rib ℝ} {pose : Affine ℝ} {t : TriangleGround ℝ} {o : Output ℝ}
    (h : r.envelopGeometricMesh [t] pose = .ok (true, o)) :
    ∃ seg c, Inter.triangleDisk t.tri (r.diskGrd pose) Scalar.eps = .ok (some seg) ∧ r.contrib pose t seg = some c := by
  rw [Rib.envelopGeometricMesh, Rib.geomLoop] at h
  cases hd : Inter.triangleDisk t.tri (r.diskGrd pose) Scalar.eps with
  | throw w => rw [hd] at h; cases h
  | ub w => rw [hd] at h; cases h
  | ok x =>
    rw [hd, Res.bind_ok] at h
    cases x with
    | none =>
      simp only [Rib.geomLoop, Res.bind_ok, Res.pure_eq] at h
      have := congrArg Prod.fst (Res.ok.inj h)
      simp [Rib.geomFinish, Rib.Acc.init] at this
    | some seg =>
      dsimp only at h
      cases hc : r.contrib pose t seg with
      | none =>
        rw [hc] at h
        simp only [Res.bind_ok, Res.pure_eq] at h
        have := congrArg Prod.fst (Res.ok.inj h)
        simp [Rib.geomFinish, Rib.Acc.init] at this
      | some c => exact ⟨seg, c, rfl, hc⟩

/-- The record of a single face with a volume. -/
theorem Relist.record {r : Rib ℝ} {pose : Affine ℝ} {t : TriangleGround ℝ} {seg : Segment ℝ} {c : Rib.Contrib ℝ}
    (hd : Inter.triangleDisk t.tri (r.diskGrd pose) Scalar.eps = .ok (some seg)) (hc : r.contrib pose t seg = some c) (hv : c.volume ≠ 0)
    (hn : V3.normalized c.normal = c.normal) :
    r.envelopGeometricMesh [t] pose = .ok (if Scalar.eps < c.area ∨ Scalar.eps < c.volume then
      (true, ⟨c.point, c.normal, c.friction, r.radius - V3.norm (V3.sub c.point (r.centerGrd pose)), c.area, c.volume⟩)
      else (false, r.noContact pose)) := by
  have h1 : ∀ v : V3 ℝ, V3.sdiv (V3.add V3.zeros (V3.smul c.volume v)) c.volume = v := by
    intro v; unfold V3.zeros; v3; simp [hv]
  rw [Rib.envelopGeometricMesh, Rib.geomLoop, hd, Res.bind_ok]
  dsimp only
  rw [hc]
  dsimp only
  rw [Rib.geomLoop, Res.bind_ok, Res.pure_eq]
  simp only [Rib.geomFinish, Rib.Acc.add, Rib.Acc.init, real_zero, real_add, real_mul, real_div, real_sub, zero_add, real_lt, Bool.true_and,
    Bool.or_eq_true, decide_eq_true_eq]
  rw [h1, h1, hn, mul_div_cancel_left₀ _ hv]

/-- **C134, vertical faces**: two constructed triangles with the same vertices in orders that give opposite normals — possible for vertical
faces only.  A contact with a volume on one is a contact on the other, with the same point, friction, depth, area and volume; but the part of
its normal along the axis of the wheel changes its sign with the order. -/
theorem C134_wall {r : Rib ℝ} (hr : IsRib r) {pose : Affine ℝ} (hp : IsRigid pose) {t t' : TriangleGround ℝ} (h : Relisted t t')
    (hopp : t'.normal = V3.neg t.normal) (hoff : OffRib pose r t.tri) {o : Output ℝ}
    (ho : r.envelopGeometricMesh [t] pose = .ok (true, o)) (hv : o.volume ≠ 0) :
    ∃ o', r.envelopGeometricMesh [t'] pose = .ok (true, o') ∧ o'.point = o.point ∧ o'.friction = o.friction ∧ o'.depth = o.depth ∧
      o'.area = o.area ∧ o'.volume = o.volume ∧
      dot3 o.normal pose.linear.c1 = dot3 t.normal pose.linear.c1 / √(1 + dot3 t.normal pose.linear.c1 ^ 2) ∧
      dot3 o'.normal pose.linear.c1 = -dot3 o.normal pose.linear.c1 := by
  obtain ⟨seg, c, hd, hc⟩ := Relist.single ho
  obtain ⟨seg', hd', hseg⟩ : ∃ seg', Inter.triangleDisk t'.tri (r.diskGrd pose) Scalar.eps = .ok (some seg') ∧
      r.contrib pose t' seg' = r.contrib pose t' seg := by
    rcases Relist.section_ hr hp h hoff with e | ⟨s, e1, e2⟩
    · exact ⟨seg, e.trans hd, rfl⟩
    · rw [hd] at e1
      cases e1
      exact ⟨_, e2, Relist.contrib r pose rfl rfl seg⟩
  rcases Relist.contribs hr hp t t' h.friction seg with ⟨e, -⟩ | ⟨d, d', e1, e2, g1, g2, g3, g4, g5, g6, g7, g8⟩
  · rw [hc] at e; cases e
  rw [hc] at e1
  cases e1
  rw [e2] at hseg
  have hvol : c.volume ≠ 0 := by
    rw [Rib.envelopGeometricMesh, Rib.geomLoop, hd, Res.bind_ok] at ho
    dsimp only at ho
    rw [hc] at ho
    dsimp only at ho
    rw [Rib.geomLoop, Res.bind_ok, Res.pure_eq] at ho
    have ho := Res.ok.inj ho
    unfold Rib.geomFinish at ho
    split at ho
    · have := congrArg (fun x => x.2.volume) ho
      simp only [Rib.Acc.add, Rib.Acc.init, real_zero, real_add, zero_add] at this
      rwa [this]
    · have := congrArg (fun x => x.1) ho
      cases this
  have hrec := Relist.record hd hc hvol g5
  have hrec' := Relist.record hd' hseg (by rw [g2]; exact hvol) g6
  rw [ho] at hrec
  rw [g1, g2, g3, g4] at hrec'
  split at hrec
  · rename_i hlt
    rw [if_pos hlt] at hrec'
    have e := congrArg Prod.snd (Res.ok.inj hrec)
    dsimp only at e
    refine ⟨_, hrec', ?_⟩
    rw [e]
    refine ⟨rfl, rfl, rfl, rfl, rfl, g7, ?_⟩
    dsimp only
    rw [g7, g8, hopp]
    have e : dot3 (V3.neg t.normal) pose.linear.c1 = -dot3 t.normal pose.linear.c1 := by
      simp only [dot3]; v3; ring
    rw [e, neg_sq, neg_div]
  · have := congrArg Prod.fst (Res.ok.inj hrec)
    cases this

/-! ## A wheel against a wall -/

/-- A wheel after a quarter of a turn, its axis turned away from the direction of a wall. -/
noncomputable def Demo.askew : Affine ℝ := ⟨⟨⟨0, 0, 1⟩, ⟨-(3 / 5), 4 / 5, 0⟩, ⟨-(4 / 5), -(3 / 5), 0⟩⟩, ⟨0, 0, 0⟩⟩

theorem Demo.askew_rigid : IsRigid Demo.askew := by
  constructor <;> (simp only [Demo.askew]; norm_num)

/-- A vertical face 2/5 in front of the wheel. -/
noncomputable def Demo.wall : TriangleGround ℝ :=
  TriangleGround.updateBBox (TriangleGround.updateNormal
    ⟨⟨⟨2 / 5, 14 / 5, 0⟩, ⟨2 / 5, -(11 / 5), -2⟩, ⟨2 / 5, -(11 / 5), 2⟩⟩, 0, 1, V3.nan, Box.default⟩)

/-- The same with two vertices exchanged. -/
noncomputable def Demo.wall' : TriangleGround ℝ :=
  TriangleGround.updateBBox (TriangleGround.updateNormal
    ⟨⟨⟨2 / 5, 14 / 5, 0⟩, ⟨2 / 5, -(11 / 5), 2⟩, ⟨2 / 5, -(11 / 5), -2⟩⟩, 0, 1, V3.nan, Box.default⟩)

theorem Demo.wall_make :
    TriangleGround.make 0 (1 : ℝ) ⟨2 / 5, 14 / 5, 0⟩ ⟨2 / 5, -(11 / 5), -2⟩ ⟨2 / 5, -(11 / 5), 2⟩ = .ok Demo.wall ∧
    TriangleGround.make 0 (1 : ℝ) ⟨2 / 5, 14 / 5, 0⟩ ⟨2 / 5, -(11 / 5), 2⟩ ⟨2 / 5, -(11 / 5), -2⟩ = .ok Demo.wall' := by
  constructor
  · simp [TriangleGround.make, Demo.wall]
  · simp [TriangleGround.make, Demo.wall']

theorem Demo.wall_triNormal : Demo.wall.tri.normal = ⟨-1, 0, 0⟩ := by
  have hx : V3.cross (V3.sub Demo.wall.tri.v1 Demo.wall.tri.v0) (V3.sub Demo.wall.tri.v2 Demo.wall.tri.v0) = ⟨-20, 0, 0⟩ := by
    show V3.cross (V3.sub ⟨2 / 5, -(11 / 5), -2⟩ ⟨2 / 5, 14 / 5, 0⟩) (V3.sub ⟨2 / 5, -(11 / 5), 2⟩ ⟨2 / 5, 14 / 5, 0⟩) = (⟨-20, 0, 0⟩ : V3 ℝ)
    v3; norm_num
  have hn : V3.norm (⟨-20, 0, 0⟩ : V3 ℝ) = 20 := by
    rw [V3.norm_eq, length3, show ((-20 : ℝ)) ^ 2 + 0 ^ 2 + 0 ^ 2 = 20 ^ 2 by norm_num, Real.sqrt_sq (by norm_num)]
  unfold Triangle.normal
  rw [hx, V3.normalized_of_ne (by simp), hn]
  norm_num

theorem Demo.wall_normal : Demo.wall.normal = ⟨-1, 0, 0⟩ := by
  have h := Demo.wall_triNormal
  have e : Demo.wall.normal = if Demo.wall.tri.normal.z < 0 then V3.neg Demo.wall.tri.normal else Demo.wall.tri.normal := by
    simp only [Demo.wall, TriangleGround.updateBBox, TriangleGround.updateNormal, real_lt, real_zero, decide_eq_true_eq]
    split
    · v3; congr 1 <;> ring
    · rfl
  rw [e, h]
  simp

theorem Demo.wall'_normal : Demo.wall'.normal = ⟨1, 0, 0⟩ := by
  have hx : V3.cross (V3.sub Demo.wall'.tri.v1 Demo.wall'.tri.v0) (V3.sub Demo.wall'.tri.v2 Demo.wall'.tri.v0) = ⟨20, 0, 0⟩ := by
    show V3.cross (V3.sub ⟨2 / 5, -(11 / 5), 2⟩ ⟨2 / 5, 14 / 5, 0⟩) (V3.sub ⟨2 / 5, -(11 / 5), -2⟩ ⟨2 / 5, 14 / 5, 0⟩) = (⟨20, 0, 0⟩ : V3 ℝ)
    v3; norm_num
  have hn : V3.norm (⟨20, 0, 0⟩ : V3 ℝ) = 20 := by
    rw [V3.norm_eq, length3, show ((20 : ℝ)) ^ 2 + 0 ^ 2 + 0 ^ 2 = 20 ^ 2 by norm_num, Real.sqrt_sq (by norm_num)]
  have h : Demo.wall'.tri.normal = ⟨1, 0, 0⟩ := by
    unfold Triangle.normal
    rw [hx, V3.normalized_of_ne (by simp), hn]
    norm_num
  have e : Demo.wall'.normal = if Demo.wall'.tri.normal.z < 0 then V3.neg Demo.wall'.tri.normal else Demo.wall'.tri.normal := by
    simp only [Demo.wall', TriangleGround.updateBBox, TriangleGround.updateNormal, real_lt, real_zero, decide_eq_true_eq]
    split
    · v3; congr 1 <;> ring
    · rfl
  rw [e, h]
  simp

theorem Demo.wall_side (p : V3 ℝ) : side Demo.askew (Demo.ribOf 1) p = -(3 / 5) * p.x + 4 / 5 * p.y := by
  simp only [side, dot3, minus, ribCentre, Demo.ribOf, Rib.center, Disk.center, Rib.make, Demo.askew]
  v3
  ring

theorem Demo.wall_point (x z : ℝ) : ribPoint Demo.askew (Demo.ribOf 1) x z = ⟨-(4 / 5) * z, -(3 / 5) * z, x⟩ := by
  simp only [ribPoint, Demo.ribOf, Rib.center, Disk.center, Rib.make, Demo.askew, Affine.apply]
  v3
  congr 1 <;> ring

theorem Demo.wall_tri : Demo.wall.tri = ⟨⟨2 / 5, 14 / 5, 0⟩, ⟨2 / 5, -(11 / 5), -2⟩, ⟨2 / 5, -(11 / 5), 2⟩⟩ := rfl

theorem Demo.wall_cutOver : CutOver Demo.askew (Demo.ribOf 1) (fun _ => -(1 / 2)) Demo.wall.tri (-1) 1 := by
  refine ⟨by norm_num, fun X => ?_⟩
  rw [Demo.wall_tri, Demo.wall_side]
  constructor
  · rintro ⟨⟨a, b, c, ha, hb, hc, hsum, rfl⟩, hy⟩
    dsimp only at hy ⊢
    have e1 : a = 1 / 2 := by linarith
    have e2 : b = 1 / 2 - c := by linarith
    refine ⟨4 * c - 1, by linarith, by linarith, ?_⟩
    rw [Demo.wall_point, e1, e2]; congr 1 <;> ring
  · rintro ⟨x, h1, h2, rfl⟩
    rw [Demo.wall_point]
    refine ⟨⟨1 / 2, (1 - x) / 4, (1 + x) / 4, by norm_num, by linarith, by linarith, by ring, ?_⟩, by norm_num⟩
    congr 1 <;> ring

theorem Demo.wall_cleanCut : CleanCut Demo.askew (Demo.ribOf 1) Demo.wall.tri := by
  have hdist : ∀ A B : V3 ℝ, dist3 A B ^ 2 ≤ 100 → (Scalar.eps : ℝ) * dist3 A B ≤ 2 := by
    intro A B hd
    have h10 : dist3 A B ≤ 10 := by
      refine le_of_sq_le_sq ?_ (by norm_num)
      linarith
    have : (Scalar.eps : ℝ) ≤ 1 / 10 := by rw [real_eps]; norm_num
    nlinarith [dist3_nonneg A B, real_eps_pos]
  refine ⟨?_, ?_, .inl ⟨?_, ?_, ?_, ?_, ?_, ?_⟩⟩
  · rw [Demo.wall_tri]
    intro h
    simp only [minus] at h
    rw [V3.real_cross, V3.mk.injEq] at h
    norm_num at h
  · rw [Demo.wall_triNormal]
    have := real_eps_le_half
    simp only [sinSq, dot3, Demo.askew]
    norm_num
    linarith
  all_goals simp only [Demo.wall_side, Demo.wall_tri]
  · norm_num
  · norm_num
  · refine (hdist _ _ ?_).trans (by norm_num)
    rw [dist3_sq]; norm_num
  · refine (hdist _ _ ?_).trans (by norm_num)
    rw [dist3_sq]; norm_num
  · norm_num
  · norm_num

theorem Demo.wall_clear : ClearPiece (Demo.ribOf 1).radius (fun _ => -(1 / 2)) (-1) 1 := by
  rw [show (Demo.ribOf 1).radius = 1 from rfl]
  have := real_eps_le_half
  refine ⟨.inl (by norm_num; linarith), fun _ => ⟨by norm_num, -(1 / 2), 1 / 2, by norm_num, by norm_num, by norm_num, by norm_num,
    by norm_num, ?_⟩⟩
  rw [show ((1 / 2 : ℝ) - -(1 / 2)) ^ 2 + (-(1 / 2) - -(1 / 2)) ^ 2 = 1 ^ 2 by norm_num, Real.sqrt_sq zero_le_one]
  linarith

theorem Demo.wall_offRib : OffRib Demo.askew (Demo.ribOf 1) Demo.wall.tri := by
  rw [Demo.wall_tri]
  constructor
  · intro u hu v hv
    simp only [List.mem_cons, List.not_mem_nil, or_false] at hu hv
    rcases hu with rfl | rfl | rfl <;> rcases hv with rfl | rfl | rfl <;> simp only [Demo.wall_side] <;> norm_num
  · intro v hv
    simp only [List.mem_cons, List.not_mem_nil, or_false] at hv
    rcases hv with rfl | rfl | rfl <;> simp only [Demo.wall_side] <;> norm_num

theorem Demo.wall_relisted : Relisted Demo.wall Demo.wall' :=
  ⟨List.Perm.cons _ (List.Perm.swap _ _ _), rfl⟩

/-- **C134**, counterexample for vertical faces: a wheel against a wall of one vertical triangle.  Exchanging two vertices of the triangle
changes the contact normal that the geometric method reports: its part along the axis of the wheel is `3 / √34` or `-3 / √34`. -/
theorem C134_wall_refuted : ∃ (r : Rib ℝ) (pose : Affine ℝ) (t t' : TriangleGround ℝ) (o o' : Output ℝ), IsRib r ∧ IsRigid pose ∧
    t.Constructed ∧ t'.Constructed ∧ Relisted t t' ∧ OffRib pose r t.tri ∧ shadow t.tri = 0 ∧
    r.envelopGeometricMesh [t] pose = .ok (true, o) ∧ r.envelopGeometricMesh [t'] pose = .ok (true, o') ∧ 1 / 4 ≤ o.volume ∧
    dot3 o.normal pose.linear.c1 = 3 / √34 ∧ dot3 o'.normal pose.linear.c1 = -(3 / √34) := by
  have hrib : IsRib (Demo.ribOf 1) := Demo.ribOf_isRib zero_le_one
  have hrad : (Demo.ribOf 1).radius = 1 := rfl
  have hwid : (Demo.ribOf 1).width = 1 := rfl
  have hbox := RoadCut.box_le (R := 1) (road := fun _ => -(1 / 2)) (a := -(1 / 2)) (b := 1 / 2) (c := -(13 / 16)) (d := -(9 / 16)) (by norm_num)
    (by norm_num) (fun x z h1 h2 h3 h4 => ⟨by nlinarith, by linarith⟩)
  have he := real_eps_le_half
  have he' : (Scalar.eps : ℝ) < 1 / 8 := by rw [real_eps]; norm_num
  obtain ⟨b, o, ho, hb, hvol, -⟩ := C122_volume_partial hrib (by rw [hwid]; norm_num) (by rw [hrad]; linarith) Demo.askew_rigid
    (road := fun _ => -(1 / 2)) continuous_const (fun _ _ _ => by norm_num) (n := 1) (x := fun i => if i = 0 then -1 else 1)
    (by rw [hrad]; norm_num) (by rw [hrad]; norm_num) (T := fun _ => Demo.wall)
    (by
      intro i hi
      obtain rfl : i = 0 := by omega
      exact ⟨Demo.wall_cutOver, Demo.wall_cleanCut, Demo.wall_clear⟩)
    (ts := [Demo.wall]) (others := []) (by simp) (by simp)
  have hbt : b = true := hb (by rw [hrad, hwid, one_mul]; linarith)
  have hv := hvol hbt (by
    intro i hi _
    obtain rfl : i = 0 := by omega
    unfold Overhead
    norm_num)
  rw [hrad, hwid, one_mul] at hv
  rw [hbt] at ho
  have hpos : 1 / 4 ≤ o.volume := by rw [hv]; linarith
  obtain ⟨o', h1, -, -, -, -, -, h2, h3⟩ := C134_wall hrib Demo.askew_rigid Demo.wall_relisted
    (by rw [Demo.wall_normal, Demo.wall'_normal]; v3; norm_num) Demo.wall_offRib ho (by linarith)
  have hlat : dot3 o.normal Demo.askew.linear.c1 = 3 / √34 := by
    have e1 : dot3 Demo.wall.normal Demo.askew.linear.c1 = 3 / 5 := by
      rw [Demo.wall_normal]; simp only [dot3, Demo.askew]; norm_num
    rw [h2, e1, show 1 + (3 / 5 : ℝ) ^ 2 = 34 / 5 ^ 2 by norm_num, Real.sqrt_div (by norm_num), Real.sqrt_sq (by norm_num)]
    field_simp
  exact ⟨_, _, _, _, o, o', hrib, Demo.askew_rigid, ⟨_, _, _, _, _, Demo.wall_make.1⟩, ⟨_, _, _, _, _, Demo.wall_make.2⟩,
    Demo.wall_relisted, Demo.wall_offRib, by rw [Demo.wall_tri]; simp only [shadow]; norm_num, ho, h1, hpos, hlat, by rw [h3, hlat]⟩

/-! ## A field listed in another order -/

/-- `Demo.field` with its vertices in another order. -/
noncomputable def Demo.field' : TriangleGround ℝ :=
  TriangleGround.updateBBox (TriangleGround.updateNormal
    ⟨⟨⟨-30, -10, 0⟩, ⟨0, 10, 0⟩, ⟨30, -10, 0⟩⟩, 0, 1, V3.nan, Box.default⟩)

theorem Demo.field'_make :
    TriangleGround.make 0 (1 : ℝ) ⟨-30, -10, 0⟩ ⟨0, 10, 0⟩ ⟨30, -10, 0⟩ = .ok Demo.field' := by
  simp [TriangleGround.make, Demo.field']

theorem Demo.field_relisted : Relisted Demo.field Demo.field' := ⟨List.Perm.swap _ _ _, rfl⟩

theorem Demo.field_tri : Demo.field.tri = ⟨⟨0, 10, 0⟩, ⟨-30, -10, 0⟩, ⟨30, -10, 0⟩⟩ := rfl

theorem Demo.field_offRib (h : ℝ) : OffRib (Demo.upright h) (Demo.ribOf 1) Demo.field.tri := by
  have he := real_eps_lt_one
  rw [Demo.field_tri]
  constructor
  · intro u hu v hv
    simp only [List.mem_cons, List.not_mem_nil, or_false] at hu hv
    rcases hu with rfl | rfl | rfl <;> rcases hv with rfl | rfl | rfl <;> simp only [Demo.side_eq] <;> norm_num
  · intro v hv
    simp only [List.mem_cons, List.not_mem_nil, or_false] at hv
    rcases hv with rfl | rfl | rfl <;> simp only [Demo.side_eq] <;> norm_num

theorem Demo.field_offCorners (o : V3 ℝ) (h1 : |o.x| ≤ 1) (h2 : |o.y| ≤ 1) : OffCorners o Demo.field.tri := by
  have he := real_eps_pos
  rw [Demo.field_tri]
  intro w0 w1 w2 hs hx hy
  dsimp only at hx hy
  obtain ⟨x1, x2⟩ := abs_le.1 h1
  obtain ⟨y1, y2⟩ := abs_le.1 h2
  left
  refine ⟨?_, ?_, ?_⟩ <;> linarith

theorem Demo.field_lines (h : ℝ) : ∀ l ∈ [(Demo.ribOf 1).lineXp (Demo.upright h), (Demo.ribOf 1).lineXm (Demo.upright h),
    (Demo.ribOf 1).lineYp (Demo.upright h), (Demo.ribOf 1).lineYm (Demo.upright h)], OffCorners l.origin Demo.field.tri := by
  intro l hl
  simp only [List.mem_cons, List.not_mem_nil, or_false] at hl
  rcases hl with rfl | rfl | rfl | rfl <;> refine Demo.field_offCorners _ ?_ ?_ <;>
    simp only [Rib.lineXp, Rib.lineXm, Rib.lineYp, Rib.lineYm, Demo.upright, Demo.ribOf, Rib.make, Rib.center, Rib.radius, Disk.center,
      Disk.radius] <;> v3 <;> norm_num [abs_le, Scalar.lit]

/-- The hypotheses of `C134_sampling_partial` and `C134_geometric_partial` can be met, with a contact. -/
example : List.Forall₂ Relisted [Demo.field] [Demo.field'] ∧ Demo.field.Constructed ∧ Demo.field'.Constructed ∧ shadow Demo.field.tri ≠ 0 ∧
    (Demo.ribOf 1).envelopSamplingMesh [Demo.field'] (Demo.upright (1 / 2)) =
      (Demo.ribOf 1).envelopSamplingMesh [Demo.field] (Demo.upright (1 / 2)) ∧
    (Demo.ribOf 1).envelopGeometricMesh [Demo.field'] (Demo.upright (1 / 2)) =
      (Demo.ribOf 1).envelopGeometricMesh [Demo.field] (Demo.upright (1 / 2)) := by
  have h : List.Forall₂ Relisted [Demo.field] [Demo.field'] := .cons Demo.field_relisted .nil
  have hc : Demo.field.Constructed := ⟨_, _, _, _, _, Demo.field_make⟩
  have hc' : Demo.field'.Constructed := ⟨_, _, _, _, _, Demo.field'_make⟩
  have hs : shadow Demo.field.tri ≠ 0 := by rw [Demo.field_tri]; simp only [shadow]; norm_num
  refine ⟨h, hc, hc', hs, C134_sampling_partial _ _ h ?_, C134_geometric_partial (Demo.ribOf_isRib zero_le_one) (Demo.upright_rigid _) h ?_ ?_ ?_ ?_⟩
  · intro t ht; rw [List.mem_singleton] at ht; subst ht; exact Demo.field_lines _
  · intro t ht; rw [List.mem_singleton] at ht; subst ht; exact hc
  · intro t ht; rw [List.mem_singleton] at ht; subst ht; exact hc'
  · intro t ht; rw [List.mem_singleton] at ht; subst ht; exact hs
  · intro t ht; rw [List.mem_singleton] at ht; subst ht; exact Demo.field_offRib _

end Enve
