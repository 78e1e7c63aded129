import Verif.Props.UntouchedProps
import Verif.Props.RoadContactProps
import Verif.Props.OrderProps
import Verif.Props.RunProps
import Verif.Props.RideProps

/-!
# C135: a bridge that a tyre does not touch

The sampling method takes the highest hit of each vertical line as the road, also above the tyre.  A deck over the road
that no rib touches hides the road from it.
-/

namespace Enve
open Scalar Spec

/-- The flag a sampling setup of a tyre with one rib returns. -/
theorem Shell.sampled_flag {s : Shell ℝ} (hs : s.Reachable .raw) {a : Rib ℝ} (ha : s.ribs = [a]) {m : Mesh ℝ} (hm : BuiltMesh m)
    (pose : Affine ℝ) : ∃ s', s.setupMesh .raw m pose "sampling" = .ok s'
      (a.envelopSamplingMesh (m.triangles.filter fun t => t.bbox.intersects (s.transform pose).updateBBox.bbox) pose).1 := by
  have hsz : s.size = 1 := by simp [Shell.size, ha]
  obtain ⟨s', b, e⟩ := Shell.setupMesh_sampling_total hs (by omega) hm pose
  obtain ⟨loc, hloc, hperm⟩ := hm.query _ (Shell.updateBBox_WF (s.transform pose))
  obtain ⟨f, r, k1, k2⟩ := C38_mesh_flag .raw s s' hs _ _ _ _ b hloc e
  obtain ⟨rib, g1, g2, -⟩ := k1 0 (by omega)
  rw [(Shell.setupMesh_rel (.inl ⟨b, e⟩)).ribs] at g1
  have g1 : s.ribs[0]? = some rib := g1
  rw [ha] at g1
  cases g1
  have hb : b = f 0 := by
    rw [Bool.eq_iff_iff, k2]
    constructor
    · rintro ⟨i, hi, h⟩
      obtain rfl : i = 0 := by omega
      exact h
    · exact fun h => ⟨0, by omega, h⟩
  have hf : f 0 = (a.envelopSamplingMesh loc pose).1 := by
    dsimp only at g2
    split at g2
    · rename_i h
      subst h
      have := (Prod.mk.inj (Res.ok.inj g2)).1
      rw [← this]
      rfl
    · have hc : Shell.ribCandidates pose "sampling" loc a = loc := by
        rw [Shell.ribCandidates, List.filter_eq_self]
        intro t _
        simp [Shell.isCandidate, Shell.refines]
      rw [hc, Rib.envelopMesh, if_neg (by decide), if_pos rfl] at g2
      rw [Res.ok.inj g2]
  refine ⟨s', ?_⟩
  rw [e, hb, hf, (C29_order_independent a pose hperm).1]

/-- A deck through the bounding box of the tyre of `Demo.oneRib`, over the road and over the wheel. -/
noncomputable def Demo.deck : TriangleGround ℝ :=
  TriangleGround.updateBBox (TriangleGround.updateNormal
    ⟨⟨⟨0, 10, 5 / 2⟩, ⟨-30, -10, -55 / 2⟩, ⟨30, -10, 65 / 2⟩⟩, 1, 1, V3.nan, Box.default⟩)

theorem Demo.deck_make : TriangleGround.make 1 (1 : ℝ) ⟨0, 10, 5 / 2⟩ ⟨-30, -10, -55 / 2⟩ ⟨30, -10, 65 / 2⟩ = .ok Demo.deck := by
  simp [TriangleGround.make, Demo.deck]

theorem Demo.deck_tri : Demo.deck.tri = ⟨⟨0, 10, 5 / 2⟩, ⟨-30, -10, -55 / 2⟩, ⟨30, -10, 65 / 2⟩⟩ := rfl

theorem Demo.bridge_built : BuiltMesh (Mesh.ofTriangles [Demo.field, Demo.deck]) := by
  refine .inr ⟨_, by simp, ?_, ?_, rfl⟩
  · simp only [List.mem_cons, List.not_mem_nil, or_false, forall_eq_or_imp, forall_eq]
    exact ⟨⟨_, _, _, _, _, Demo.field_make⟩, ⟨_, _, _, _, _, Demo.deck_make⟩⟩
  · intro i t ht
    match i, ht with
    | 0, ht => simp at ht; subst ht; rfl
    | 1, ht => simp at ht; subst ht; rfl
    | n + 2, ht => simp at ht

theorem Demo.deck_box : Demo.deck.bbox = ⟨⟨-30, -10, -55 / 2⟩, ⟨30, 10, 65 / 2⟩, 1, 0⟩ := by
  norm_num [Demo.deck, TriangleGround.updateBBox, TriangleGround.updateNormal, Box.clamp, Box.default]

/-- Where the sampling lines of the tyre go down. -/
theorem Demo.oneRib_lines {a : Rib ℝ} (hac : a.center = ⟨0, 0, 0⟩) (haR : a.radius = 1) (haw : a.width = 2) (h : ℝ) :
    a.lineXp (Demo.upright h) = ⟨⟨1 / 10, 0, h⟩, V3.neg V3.ez⟩ ∧ a.lineXm (Demo.upright h) = ⟨⟨-(1 / 10), 0, h⟩, V3.neg V3.ez⟩ ∧
    a.lineYp (Demo.upright h) = ⟨⟨0, 3 / 5, h⟩, V3.neg V3.ez⟩ ∧ a.lineYm (Demo.upright h) = ⟨⟨0, -(3 / 5), h⟩, V3.neg V3.ez⟩ := by
  obtain ⟨a0, a1, a2, a3, -⟩ := Accurate.lines_exact hac (Demo.upright h)
  rw [haR] at a0 a1
  rw [haw] at a2 a3
  refine ⟨?_, ?_, ?_, ?_⟩
  · rw [show a.lineXp (Demo.upright h) = ⟨(a.lineXp (Demo.upright h)).origin, V3.neg V3.ez⟩ from rfl, a0]
    congr 1; simp only [Demo.upright]; v3; norm_num
  · rw [show a.lineXm (Demo.upright h) = ⟨(a.lineXm (Demo.upright h)).origin, V3.neg V3.ez⟩ from rfl, a1]
    congr 1; simp only [Demo.upright]; v3; norm_num
  · rw [show a.lineYp (Demo.upright h) = ⟨(a.lineYp (Demo.upright h)).origin, V3.neg V3.ez⟩ from rfl, a2]
    congr 1; simp only [Demo.upright]; v3; norm_num
  · rw [show a.lineYm (Demo.upright h) = ⟨(a.lineYm (Demo.upright h)).origin, V3.neg V3.ez⟩ from rfl, a3]
    congr 1; simp only [Demo.upright]; v3; norm_num

/-- The tyre of `Demo.oneRib` half a radius above the field, by sampling. -/
theorem Demo.oneRib_sampled {a : Rib ℝ} (ha : IsRib a) (hac : a.center = ⟨0, 0, 0⟩) (haR : a.radius = 1) (haw : a.width = 2) :
    (a.envelopSamplingMesh [Demo.field] (Demo.upright (1 / 2))).1 = true := by
  obtain ⟨l0, l1, l2, l3⟩ := Demo.oneRib_lines hac haR haw (1 / 2)
  have hup : Scalar.eps < Demo.road.plane.normal.z := by simpa [Demo.road] using real_eps_lt_one
  have hfl : a.envelopSamplingMesh [Demo.field] (Demo.upright (1 / 2)) = a.envelopSamplingFlat Demo.road (Demo.upright (1 / 2)) := by
    apply C107_plane_partial hup
    · rintro p ⟨t, ht, x, y, z, -, -, -, -, rfl⟩
      rw [List.mem_singleton] at ht
      subst ht
      simp [OnPlane, dot3, minus, Demo.road, Demo.field, TriangleGround.updateBBox, TriangleGround.updateNormal]
    · intro t ht
      rw [List.mem_singleton] at ht
      subst ht; rfl
    · intro t ht
      rw [List.mem_singleton] at ht
      subst ht
      have := real_eps_lt_one
      simp only [Demo.field, TriangleGround.updateBBox, TriangleGround.updateNormal, plan2]
      norm_num
      linarith
    · intro l hl
      rw [l0, l1, l2, l3] at hl
      refine ⟨⟨l.origin.x, l.origin.y, 0⟩, Demo.field_over ?_ ?_, rfl, rfl⟩ <;>
      · simp only [List.mem_cons, List.not_mem_nil, or_false] at hl
        rcases hl with rfl | rfl | rfl | rfl <;> norm_num [abs_le]
  have hy : a.y = 0 := by
    have := ha.center
    rw [show a.disk.plane.origin = ⟨0, 0, 0⟩ from hac] at this
    exact (congrArg V3.y this).symm
  have hc : (Demo.upright (1 / 2)).apply ⟨0, a.y, 0⟩ = ⟨0, 0, 1 / 2⟩ := by
    simp [Demo.upright, Affine.apply, M3.mulVec, V3.add, hy]
  obtain ⟨-, -, h1, -⟩ := C60_sampling_flat ha (by rw [haw]; norm_num) (Demo.upright_rigid (1 / 2)) rfl Demo.road_make rfl rfl
    (by rw [hc]; norm_num)
  rw [hfl, h1, hc, haR]
  norm_num

/-- The deck covers the field on the sampling lines, and where they meet it. -/
theorem Demo.deck_hit {x y : ℝ} (h : ℝ) (hx : |x| ≤ 3 / 5) (hy : |y| ≤ 3 / 5) :
    Rib.samplingLineMesh [Demo.deck] ⟨⟨x, y, h⟩, V3.neg V3.ez⟩ = some (⟨x, y, x + 5 / 2⟩, 1) ∧
      CoveredAt (fun t => decide (t.id ≠ 0)) [Demo.field, Demo.deck] ⟨x, y, h⟩ := by
  have h1 := abs_le.1 hx
  have h2 := abs_le.1 hy
  have he := real_eps_lt_one
  have hv : Scalar.eps ≤ plan2 Demo.deck.tri := by
    rw [Demo.deck_tri]
    simp only [plan2]
    norm_num
    linarith
  have hin : InTriangle Demo.deck.tri.v0 Demo.deck.tri.v1 Demo.deck.tri.v2 ⟨x, y, x + 5 / 2⟩ := by
    refine ⟨(y + 10) / 20, ((10 - y) / 20 - x / 30) / 2, ((10 - y) / 20 + x / 30) / 2, by linarith, by linarith, by linarith, by ring, ?_⟩
    rw [Demo.deck_tri]
    ext <;> dsimp only <;> ring
  constructor
  · have hhit := ((C50_line_triangle_tolerance ⟨⟨x, y, h⟩, V3.neg V3.ez⟩ Demo.deck.tri Scalar.eps real_eps_pos).2
      (by rw [Road.box_down]; exact hv)).1 (⟨x, y, x + 5 / 2⟩ : V3 ℝ) (Road.on_down.2 ⟨rfl, rfl⟩) hin
    rw [Untouched.line_pick, Rib.samplingHits]
    simp only [List.filterMap_cons, List.filterMap_nil, hhit, Option.map_some]
    rfl
  · refine ⟨Demo.deck, by simp, by simp [Demo.deck, TriangleGround.updateBBox, TriangleGround.updateNormal], hv, _, hin, rfl, rfl, ?_⟩
    intro u hu hk q hq _ _
    simp only [List.mem_cons, List.not_mem_nil, or_false] at hu
    rcases hu with rfl | rfl
    · obtain ⟨a, b, c, -, -, -, -, rfl⟩ := hq
      simp only [Demo.field, TriangleGround.updateBBox, TriangleGround.updateNormal]
      linarith
    · simp [Demo.deck, TriangleGround.updateBBox, TriangleGround.updateNormal] at hk

/-- The tyre of `Demo.oneRib` under the deck, by sampling. -/
theorem Demo.oneRib_under {a : Rib ℝ} (hac : a.center = ⟨0, 0, 0⟩) (haR : a.radius = 1) (haw : a.width = 2) :
    (a.envelopSamplingMesh [Demo.field, Demo.deck] (Demo.upright (1 / 2))).1 = false := by
  obtain ⟨l0, l1, l2, l3⟩ := Demo.oneRib_lines hac haR haw (1 / 2)
  have hk := C135_sampling_partial a (Demo.upright (1 / 2)) (fun t => decide (t.id ≠ 0)) [Demo.field, Demo.deck] (by
    intro l hl
    rw [l0, l1, l2, l3] at hl
    simp only [List.mem_cons, List.not_mem_nil, or_false] at hl
    rcases hl with rfl | rfl | rfl | rfl <;> exact (Demo.deck_hit _ (by norm_num [abs_le]) (by norm_num [abs_le])).2)
  have hf : [Demo.field, Demo.deck].filter (fun t => decide (t.id ≠ 0)) = [Demo.deck] := by
    simp [Demo.field, Demo.deck, TriangleGround.updateBBox, TriangleGround.updateNormal]
  rw [hf] at hk
  rw [← hk]
  unfold Rib.envelopSamplingMesh Rib.envelopSampling
  rw [l0, l1, l2, l3, (Demo.deck_hit _ (by norm_num [abs_le]) (by norm_num [abs_le])).1, (Demo.deck_hit _ (by norm_num [abs_le]) (by norm_num [abs_le])).1,
    (Demo.deck_hit _ (by norm_num [abs_le]) (by norm_num [abs_le])).1, (Demo.deck_hit _ (by norm_num [abs_le]) (by norm_num [abs_le])).1]
  dsimp only
  rw [if_neg]
  rw [haR]
  set n := V3.cross (V3.sub (⟨1 / 10, 0, 1 / 10 + 5 / 2⟩ : V3 ℝ) ⟨-(1 / 10), 0, -(1 / 10) + 5 / 2⟩)
    (V3.sub ⟨0, 3 / 5, 0 + 5 / 2⟩ ⟨0, -(3 / 5), 0 + 5 / 2⟩)
  have hd := V3.abs_dot_normalized_le n (V3.cross (V3.normalized (Demo.upright (1 / 2)).linear.c1)
    (V3.normalized (V3.cross (V3.normalized n) (V3.normalized (Demo.upright (1 / 2)).linear.c1))))
  have hn : V3.norm (V3.sub (V3.sdiv (V3.add (V3.add (V3.add (⟨1 / 10, 0, 1 / 10 + 5 / 2⟩ : V3 ℝ) ⟨-(1 / 10), 0, -(1 / 10) + 5 / 2⟩)
      ⟨0, 3 / 5, 0 + 5 / 2⟩) ⟨0, -(3 / 5), 0 + 5 / 2⟩) (lit 4 1)) (a.centerGrd (Demo.upright (1 / 2)))) = 2 := by
    have hcg : a.centerGrd (Demo.upright (1 / 2)) = ⟨0, 0, 1 / 2⟩ := by
      rw [Rib.centerGrd, hac]
      simp only [Demo.upright]; v3; norm_num
    rw [hcg, V3.norm_eq, length3, Real.sqrt_eq_iff_mul_self_eq_of_pos (by norm_num)]
    v3
    simp only [real_lit]
    norm_num
  rw [hn]
  simp only [real_lt, real_zero, real_sub, real_mul, real_abs, decide_eq_true_eq, not_lt]
  linarith

theorem Demo.deck_untouched {a : Rib ℝ} (hac : a.center = ⟨0, 0, 0⟩) (haR : a.radius = 1) : ¬ MeetsRib (Demo.upright (1 / 2)) a Demo.deck.tri := by
  rintro ⟨X, ⟨p, q, w, -, -, -, hs, hX⟩, x, z, hxz, rfl⟩
  rw [haR] at hxz
  rw [hac, Demo.deck_tri] at hX
  simp only [Demo.upright, Affine.apply, M3.mulVec, V3.real_add, real_add, real_mul, V3.mk.injEq] at hX
  obtain ⟨e1, e2, e3⟩ := hX
  nlinarith [sq_nonneg (x + 1)]

/-- **C135 is false for the sampling method.**  A tyre of radius 1 stands half a radius deep on a field.  A deck is added over it,
which passes through the bounding box of the tyre but touches no rib: the contact is lost, because on each sampling line the deck is
the highest hit and is taken for the road. -/
theorem C135_bridge_refuted (fresh : Nat → Output ℝ) :
    ∃ (s s1 s2 : Shell ℝ) (field deck : TriangleGround ℝ) (pose : Affine ℝ), s.Reachable .raw ∧ IsRigid pose ∧
      TriangleGround.make 0 1 ⟨0, 10, 0⟩ ⟨-30, -10, 0⟩ ⟨30, -10, 0⟩ = .ok field ∧
      TriangleGround.make 1 1 ⟨0, 10, 5 / 2⟩ ⟨-30, -10, -55 / 2⟩ ⟨30, -10, 65 / 2⟩ = .ok deck ∧
      (∀ r ∈ s.ribs, ¬ MeetsRib pose r deck.tri) ∧
      s.setupMesh .raw (Mesh.ofTriangles [field]) pose "sampling" = .ok s1 true ∧
      s.setupMesh .raw (Mesh.ofTriangles [field, deck]) pose "sampling" = .ok s2 false := by
  obtain ⟨s, a, h1, hshape, hab, ha, hac, haR, haw⟩ := Demo.oneRib fresh
  have hreach : s.Reachable .raw := .make h1
  have hrx : s.shape.rx = 1 := by rw [hshape]
  obtain ⟨hb1, hb2⟩ := Demo.tyre_box hrx
  obtain ⟨s1, e1⟩ := Shell.sampled_flag hreach hab Demo.field_built (Demo.upright (1 / 2))
  obtain ⟨s2, e2⟩ := Shell.sampled_flag hreach hab Demo.bridge_built (Demo.upright (1 / 2))
  have hi : Demo.field.bbox.intersects (s.transform (Demo.upright (1 / 2))).updateBBox.bbox = true := by
    rw [Demo.field_box]
    norm_num [Box.intersects, hb1, hb2, Demo.slab]
  have hj : Demo.deck.bbox.intersects (s.transform (Demo.upright (1 / 2))).updateBBox.bbox = true := by
    rw [Demo.deck_box]
    norm_num [Box.intersects, hb1, hb2]
  have f1 : (Mesh.ofTriangles [Demo.field]).triangles.filter
      (fun t => t.bbox.intersects (s.transform (Demo.upright (1 / 2))).updateBBox.bbox) = [Demo.field] := by
    show [Demo.field].filter _ = _
    rw [List.filter_eq_self]
    intro t ht
    rw [List.mem_singleton] at ht
    subst ht
    exact hi
  have f2 : (Mesh.ofTriangles [Demo.field, Demo.deck]).triangles.filter
      (fun t => t.bbox.intersects (s.transform (Demo.upright (1 / 2))).updateBBox.bbox) = [Demo.field, Demo.deck] := by
    show [Demo.field, Demo.deck].filter _ = _
    rw [List.filter_eq_self]
    intro t ht
    simp only [List.mem_cons, List.not_mem_nil, or_false] at ht
    rcases ht with rfl | rfl
    · exact hi
    · exact hj
  rw [f1, Demo.oneRib_sampled ha hac haR haw] at e1
  rw [f2, Demo.oneRib_under hac haR haw] at e2
  refine ⟨s, s1, s2, _, _, _, hreach, Demo.upright_rigid (1 / 2), Demo.field_make, Demo.deck_make, ?_, e1, e2⟩
  intro r hr
  rw [hab, List.mem_singleton] at hr
  subst hr
  exact Demo.deck_untouched hac haR

/-- A face beside the rib, within reach of the tyre. -/
noncomputable def Demo.beside : TriangleGround ℝ :=
  TriangleGround.updateBBox (TriangleGround.updateNormal
    ⟨⟨⟨0, 1 / 4, 1 / 4⟩, ⟨1, 1, 1 / 4⟩, ⟨-1, 1, 1 / 4⟩⟩, 1, 1, V3.nan, Box.default⟩)

theorem Demo.beside_make : TriangleGround.make 1 (1 : ℝ) ⟨0, 1 / 4, 1 / 4⟩ ⟨1, 1, 1 / 4⟩ ⟨-1, 1, 1 / 4⟩ = .ok Demo.beside := by
  simp [TriangleGround.make, Demo.beside]

theorem Demo.beside_tri : Demo.beside.tri = ⟨⟨0, 1 / 4, 1 / 4⟩, ⟨1, 1, 1 / 4⟩, ⟨-1, 1, 1 / 4⟩⟩ := rfl

/-- The hypotheses of `C135_geometric_partial` are met by a face beside the rib, with a contact on the field. -/
example (fresh : Nat → Output ℝ) : ∃ (s : Shell ℝ) (a : Rib ℝ) (o : Output ℝ), s.Reachable .raw ∧ s.ribs = [a] ∧ Demo.beside.Constructed ∧
    ¬ MeetsRib (Demo.upright (1 / 2)) a Demo.beside.tri ∧
    a.envelopGeometricMesh [Demo.field, Demo.beside] (Demo.upright (1 / 2)) = .ok (true, o) := by
  obtain ⟨s, a, h1, hshape, hab, ha, hac, haR, haw⟩ := Demo.oneRib fresh
  obtain ⟨om, hom⟩ := Demo.field_contact (w := 2) (by norm_num)
  rw [← Rib.envelopGeometricMesh_congr (Rib.disk_ribOf ha hac haR 2) haw] at hom
  have hside : ∀ p : V3 ℝ, side (Demo.upright (1 / 2)) a p = p.y := by
    intro p
    simp only [side, dot3, minus, ribCentre, hac, Demo.upright]
    v3
    ring
  have hoff : ∀ X, InTriangle Demo.beside.tri.v0 Demo.beside.tri.v1 Demo.beside.tri.v2 X → side (Demo.upright (1 / 2)) a X ≠ 0 := by
    rintro X ⟨p, q, w, hp, hq, hw, hs, rfl⟩
    rw [hside, Demo.beside_tri]
    dsimp only
    intro h
    linarith
  have hun : ¬ MeetsRib (Demo.upright (1 / 2)) a Demo.beside.tri := by
    rintro ⟨X, hX, x, z, -, rfl⟩
    refine hoff _ hX ?_
    rw [hside, hac]
    simp only [Demo.upright, Affine.apply, M3.mulVec, V3.real_add, real_add, real_mul]
    ring
  have hclear : ClearOfRib (Demo.upright (1 / 2)) a Demo.beside.tri := by
    have he := real_eps_pos
    have he' : (Scalar.eps : ℝ) < 1 / 8 := by rw [real_eps]; norm_num
    rw [Demo.beside_tri]
    intro u hu v hv huv
    rw [hside, hside]
    simp only [List.mem_cons, List.not_mem_nil, or_false] at hu hv
    rcases hu with rfl | rfl | rfl <;> rcases hv with rfl | rfl | rfl <;> norm_num [abs_of_pos, abs_of_neg] <;> linarith
  refine ⟨s, a, om, .make h1, hab, ⟨_, _, _, _, _, Demo.beside_make⟩, hun, ?_⟩
  have hu : Unit3 (a.diskGrd (Demo.upright (1 / 2))).plane.normal := Rib.normalGrd_unit ha (Demo.upright_rigid (1 / 2))
  have h := C135_geometric_partial ha (Demo.upright_rigid (1 / 2)) (fun t => decide (t.id = 0)) [Demo.field, Demo.beside]
    (by
      intro t ht hk
      simp only [List.mem_cons, List.not_mem_nil, or_false] at ht
      rcases ht with rfl | rfl
      · simp [Demo.field, TriangleGround.updateBBox, TriangleGround.updateNormal] at hk
      · exact hun)
    (by
      intro t ht hk
      simp only [List.mem_cons, List.not_mem_nil, or_false] at ht
      rcases ht with rfl | rfl
      · simp [Demo.field, TriangleGround.updateBBox, TriangleGround.updateNormal] at hk
      · exact hclear)
    (by
      intro t ht hk seg hseg
      simp only [List.mem_cons, List.not_mem_nil, or_false] at ht
      rcases ht with rfl | rfl
      · simp [Demo.field, TriangleGround.updateBBox, TriangleGround.updateNormal] at hk
      · exfalso
        obtain ⟨hi0, -⟩ := Inter.triangleDisk_inside _ _ hu ha.radius_pos.le _ real_eps_pos (by
          intro u hu' v hv huv
          simp only [Rib.side_eq ha] at huv ⊢
          exact hclear u hu' v hv huv) seg hseg
        obtain ⟨-, ⟨hon, -⟩, -, -⟩ := C53_triangle_disk _ _ hu ha.radius_pos.le _ real_eps_pos seg hseg
        refine hoff _ hi0 ?_
        rw [← Rib.side_eq ha]
        exact hon)
  rw [← h]
  have hf : [Demo.field, Demo.beside].filter (fun t => decide (t.id = 0)) = [Demo.field] := by
    simp [Demo.field, Demo.beside, TriangleGround.updateBBox, TriangleGround.updateNormal]
  rw [hf, hom]

end Enve
