import Verif.Props.SearchProps

/-! # A triangle far below the tyre changes the contact (C62, geometric method) -/

namespace Enve
open Scalar Spec

/-- A triangle one kilometre below the road. -/
noncomputable def Demo.deep : TriangleGround ℝ :=
  TriangleGround.updateBBox (TriangleGround.updateNormal
    ⟨⟨⟨0, 10, -1000⟩, ⟨-30, -10, -1000⟩, ⟨30, -10, -1000⟩⟩, 2, 1, V3.nan, Box.default⟩)

theorem Demo.deep_make :
    TriangleGround.make 2 (1 : ℝ) ⟨0, 10, -1000⟩ ⟨-30, -10, -1000⟩ ⟨30, -10, -1000⟩ = .ok Demo.deep := by
  simp [TriangleGround.make, Demo.deep]

/-- A box with the extents of the triangles in x and y. -/
def Demo.slab (z : ℝ) (id : Int) : Box ℝ := ⟨⟨-30, -10, z⟩, ⟨30, 10, z⟩, id, 0⟩

theorem Demo.field_box : Demo.field.bbox = Demo.slab 0 0 := by
  norm_num [Demo.field, TriangleGround.updateBBox, TriangleGround.updateNormal, Box.clamp, Demo.slab, Box.default]
theorem Demo.low_box : Demo.low.bbox = Demo.slab (-1 / 2) 1 := by
  norm_num [Demo.low, TriangleGround.updateBBox, TriangleGround.updateNormal, Box.clamp, Demo.slab, Box.default]
theorem Demo.deep_box : Demo.deep.bbox = Demo.slab (-1000) 2 := by
  norm_num [Demo.deep, TriangleGround.updateBBox, TriangleGround.updateNormal, Box.clamp, Demo.slab, Box.default]

theorem Demo.tree2 : Tree.build [Demo.slab 0 0, Demo.slab (-1 / 2) 1] =
    .mk (some ⟨⟨-30, -10, -1 / 2⟩, ⟨30, 10, 0⟩, 0, 0⟩) [.mk (some (Demo.slab 0 0)) [], .mk (some (Demo.slab (-1 / 2) 1)) []] := by
  rw [Tree.build]
  norm_num [Tree.partition, Tree.rebalance, Box.ofBoxes, Box.merged, Box.mergeStep, Box.updateMaxMin, Box.order1,
    Demo.slab, Tree.build, Tree.isEmpty]

theorem Demo.tree3 : Tree.build [Demo.slab 0 0, Demo.slab (-1 / 2) 1, Demo.slab (-1000) 2] =
    .mk (some ⟨⟨-30, -10, -1000⟩, ⟨30, 10, 0⟩, 0, 0⟩)
      [.mk (some ⟨⟨-30, -10, -1000⟩, ⟨30, 10, -1 / 2⟩, 0, 0⟩)
        [.mk (some (Demo.slab (-1000) 2)) [], .mk (some (Demo.slab (-1 / 2) 1)) []],
       .mk (some (Demo.slab 0 0)) []] := by
  rw [Tree.build]
  norm_num [Tree.partition, Tree.rebalance, Box.ofBoxes, Box.merged, Box.mergeStep, Box.updateMaxMin, Box.order1,
    Demo.slab, Tree.build, Tree.isEmpty]

/-- The box of the tyre. -/
theorem Demo.tyre_box {s : Shell ℝ} (hs : s.shape.rx = 1) :
    ((s.transform (Demo.upright (1 / 2))).updateBBox.bbox).min = ⟨-1, -1, -1 / 2⟩ ∧
    ((s.transform (Demo.upright (1 / 2))).updateBBox.bbox).max = ⟨1, 1, 3 / 2⟩ := by
  have h := Shell.updateBBox_follows (s.transform (Demo.upright (1 / 2))) (by
    show 0 ≤ s.shape.rx; rw [hs]; norm_num)
  rw [h.1, h.2]
  have : (s.transform (Demo.upright (1 / 2))).updateBBox.shape.rx = 1 := hs
  rw [this]
  have : (s.transform (Demo.upright (1 / 2))).updateBBox.pose.trans = ⟨0, 0, 1 / 2⟩ := rfl
  rw [this]
  constructor <;> norm_num

theorem Demo.query2 {q : Box ℝ} (h1 : q.min = ⟨-1, -1, -1 / 2⟩) (h2 : q.max = ⟨1, 1, 3 / 2⟩) :
    (Mesh.ofTriangles [Demo.field, Demo.low]).intersection q = .ok [Demo.field, Demo.low] := by
  have ht : (Mesh.ofTriangles [Demo.field, Demo.low]).tree = Tree.build [Demo.slab 0 0, Demo.slab (-1 / 2) 1] := by
    show Tree.build [Demo.field.bbox, Demo.low.bbox] = _
    rw [Demo.field_box, Demo.low_box]
  unfold Mesh.intersection
  rw [ht, Demo.tree2]
  have hq : Tree.build [q] = .mk (some q) [] := by rw [Tree.build]
  rw [hq]
  have e : Tree.inter (.mk (some (⟨⟨-30, -10, -1 / 2⟩, ⟨30, 10, 0⟩, 0, 0⟩ : Box ℝ))
      [.mk (some (Demo.slab 0 0)) [], .mk (some (Demo.slab (-1 / 2) 1)) []]) (.mk (some q) []) false =
      .ok [(Demo.slab 0 0, q), (Demo.slab (-1 / 2) 1, q)] := by
    norm_num [Tree.inter, Tree.interList, Box.intersects, h1, h2, Demo.slab]
  rw [e]
  rfl

theorem Demo.query3 {q : Box ℝ} (h1 : q.min = ⟨-1, -1, -1 / 2⟩) (h2 : q.max = ⟨1, 1, 3 / 2⟩) :
    (Mesh.ofTriangles [Demo.field, Demo.low, Demo.deep]).intersection q = .ok [Demo.low, Demo.field] := by
  have ht : (Mesh.ofTriangles [Demo.field, Demo.low, Demo.deep]).tree =
      Tree.build [Demo.slab 0 0, Demo.slab (-1 / 2) 1, Demo.slab (-1000) 2] := by
    show Tree.build [Demo.field.bbox, Demo.low.bbox, Demo.deep.bbox] = _
    rw [Demo.field_box, Demo.low_box, Demo.deep_box]
  unfold Mesh.intersection
  rw [ht, Demo.tree3]
  have hq : Tree.build [q] = .mk (some q) [] := by rw [Tree.build]
  rw [hq]
  have e : Tree.inter (.mk (some (⟨⟨-30, -10, -1000⟩, ⟨30, 10, 0⟩, 0, 0⟩ : Box ℝ))
      [.mk (some ⟨⟨-30, -10, -1000⟩, ⟨30, 10, -1 / 2⟩, 0, 0⟩)
        [.mk (some (Demo.slab (-1000) 2)) [], .mk (some (Demo.slab (-1 / 2) 1)) []],
       .mk (some (Demo.slab 0 0)) []]) (.mk (some q) []) false =
      .ok [(Demo.slab (-1 / 2) 1, q), (Demo.slab 0 0, q)] := by
    norm_num [Tree.inter, Tree.interList, Box.intersects, h1, h2, Demo.slab]
  rw [e]
  rfl

theorem Demo.level_clear {r : Rib ℝ} (hc : r.center = ⟨0, 0, 0⟩) (h z : ℝ) :
    ClearOfRib (Demo.upright h) r ⟨⟨0, 10, z⟩, ⟨-30, -10, z⟩, ⟨30, -10, z⟩⟩ := by
  have hside : ∀ p : V3 ℝ, side (Demo.upright h) r p = p.y := by
    intro p
    simp only [side, dot3, minus, ribCentre, hc, Demo.upright]
    v3
    ring
  have hpos := real_eps_pos
  have heps := real_eps_le_half
  intro u hu v hv huv
  rw [hside, hside] at huv ⊢
  simp only [List.mem_cons, List.not_mem_nil, or_false] at hu hv
  rcases hu with rfl | rfl | rfl <;> rcases hv with rfl | rfl | rfl <;> first | (norm_num at huv; done) | norm_num

/-- The mesh of the three triangles, with and without the deep one. -/
theorem Demo.two_built : BuiltMesh (Mesh.ofTriangles [Demo.field, Demo.low]) := by
  refine .inr ⟨_, by simp, ?_, ?_, rfl⟩
  · simp only [List.mem_cons, List.not_mem_nil, or_false, forall_eq_or_imp, forall_eq]
    exact ⟨⟨_, _, _, _, _, Demo.field_make⟩, ⟨_, _, _, _, _, Demo.low_make⟩⟩
  · intro i t ht
    match i, ht with
    | 0, ht => simp at ht; subst ht; rfl
    | 1, ht => simp at ht; subst ht; rfl
    | n + 2, ht => simp at ht

theorem Demo.three_built : BuiltMesh (Mesh.ofTriangles [Demo.field, Demo.low, Demo.deep]) := by
  refine .inr ⟨_, by simp, ?_, ?_, rfl⟩
  · simp only [List.mem_cons, List.not_mem_nil, or_false, forall_eq_or_imp, forall_eq]
    exact ⟨⟨_, _, _, _, _, Demo.field_make⟩, ⟨_, _, _, _, _, Demo.low_make⟩, ⟨_, _, _, _, _, Demo.deep_make⟩⟩
  · intro i t ht
    match i, ht with
    | 0, ht => simp at ht; subst ht; rfl
    | 1, ht => simp at ht; subst ht; rfl
    | 2, ht => simp at ht; subst ht; rfl
    | n + 3, ht => simp at ht

/-- A touched triangle ends the loop. -/
theorem Demo.low_stops (a : Rib ℝ) (hd : a.disk = (Demo.ribOf 1).disk) (acc : Rib.Acc ℝ) (ts : List (TriangleGround ℝ)) :
    a.geomLoop (Demo.upright (1 / 2)) (Demo.low :: ts) acc = .ok acc := by
  have hpos := real_eps_pos
  have hbreak : a.contrib (Demo.upright (1 / 2)) Demo.low ⟨⟨0, 0, -1 / 2⟩, ⟨0, 0, -1 / 2⟩⟩ = none := by
    unfold Rib.contrib
    dsimp only
    rw [if_pos]
    have : Segment.length (⟨⟨0, 0, -1 / 2⟩, ⟨0, 0, -1 / 2⟩⟩ : Segment ℝ) = 0 := by
      rw [Segment.length, V3.norm_sub]; simp [dist3]
    rw [this]
    simp [hpos]
  rw [Rib.geomLoop, Rib.diskGrd_congr hd, Demo.low_touch, Res.bind_ok]
  simp only [hbreak, Res.pure_eq]

open Classical in
/-- **C62 is false for the geometric method.**  A tyre of radius 1 half a metre above a road whose lower layer it just
touches: with the two triangles of the road the setup reports contact; with a third one added a kilometre below, far
from the tyre and numbered after the others, it reports none.  The triangle changes the shape of the bounding box
tree, hence the order of the triangles found, and the touched triangle, now first, ends the evaluation. -/
theorem C62_far_triangle_refuted (fresh : Nat → Output ℝ) :
    ∃ (s s1 s2 : Shell ℝ) (t u far : TriangleGround ℝ), s.Reachable .raw ∧ s.shape.rx = 1 ∧
      TriangleGround.make 0 1 ⟨0, 10, 0⟩ ⟨-30, -10, 0⟩ ⟨30, -10, 0⟩ = .ok t ∧
      TriangleGround.make 1 1 ⟨0, 10, -1 / 2⟩ ⟨-30, -10, -1 / 2⟩ ⟨30, -10, -1 / 2⟩ = .ok u ∧
      TriangleGround.make 2 1 ⟨0, 10, -1000⟩ ⟨-30, -10, -1000⟩ ⟨30, -10, -1000⟩ = .ok far ∧
      SameNear (reach s (levelFrame (1 / 2))) (Mesh.ofTriangles [t, u]) (Mesh.ofTriangles [t, u, far]) ∧
      s.setupMesh .raw (Mesh.ofTriangles [t, u]) (levelFrame (1 / 2)) "geometric" = .ok s1 true ∧
      s.setupMesh .raw (Mesh.ofTriangles [t, u, far]) (levelFrame (1 / 2)) "geometric" = .ok s2 false := by
  obtain ⟨s, a, h1, hshape, hab, ha, hac, haR, haw⟩ := Demo.oneRib fresh
  have hreach : s.Reachable .raw := .make h1
  have hsz : s.size = 1 := by simp [Shell.size, hab]
  have hrx : s.shape.rx = 1 := by rw [hshape]
  have hdisk := Rib.disk_ribOf ha hac haR 1
  obtain ⟨hb1, hb2⟩ := Demo.tyre_box hrx
  have hclear : ∀ t ∈ [Demo.field, Demo.low, Demo.deep], ∀ r ∈ s.ribs, ClearOfRib (Demo.upright (1 / 2)) r t.tri := by
    intro t ht r hr
    rw [hab, List.mem_singleton] at hr
    subst hr
    simp only [List.mem_cons, List.not_mem_nil, or_false] at ht
    rcases ht with rfl | rfl | rfl <;> exact Demo.level_clear hac _ _
  obtain ⟨s1, b1, e1⟩ := C37_setup_partial s hreach (by omega) _ Demo.two_built _ (Demo.upright_rigid (1 / 2))
    (fun t ht _ => hclear t (by
      have : t ∈ [Demo.field, Demo.low] := ht
      simp only [List.mem_cons, List.not_mem_nil, or_false] at this ⊢
      tauto))
  obtain ⟨s2, b2, e2⟩ := C37_setup_partial s hreach (by omega) _ Demo.three_built _ (Demo.upright_rigid (1 / 2))
    (fun t ht _ => hclear t ht)
  have hcand : ∀ loc : List (TriangleGround ℝ), loc.length ≤ 3 → ∀ r,
      Shell.ribCandidates (Demo.upright (1 / 2)) "geometric" loc r = loc := by
    intro loc hl r
    have hr : Shell.refines "geometric" loc = false := by simp [Shell.refines, hl]
    rw [Shell.ribCandidates, hr, List.filter_eq_self]
    intro t _
    rfl
  have hone : ∀ ts, a.envelopMesh ts (Demo.upright (1 / 2)) "geometric" = a.envelopGeometricMesh ts (Demo.upright (1 / 2)) :=
    fun ts => by simp [Rib.envelopMesh]
  -- with the two triangles
  have hb : b1 = true := by
    obtain ⟨f, r, k1, k2⟩ := C38_mesh_flag .raw s s1 hreach _ _ _ _ b1 (Demo.query2 hb1 hb2) e1
    refine k2.2 ⟨0, by omega, ?_⟩
    obtain ⟨rib, g1, g2, -⟩ := k1 0 (by omega)
    rw [(Shell.setupMesh_rel (.inl ⟨b1, e1⟩)).ribs, hab] at g1
    have g1 : [a][0]? = some rib := g1
    cases g1
    dsimp only at g2
    rw [if_neg (by simp), hcand _ (by simp), hone] at g2
    obtain ⟨om, hom⟩ := Demo.field_contact (w := 2) (by norm_num)
    rw [← Rib.envelopGeometricMesh_congr (Rib.disk_ribOf ha hac haR 2) haw] at hom
    have : a.envelopGeometricMesh [Demo.field, Demo.low] (Demo.upright (1 / 2)) = .ok (true, om) := by
      rw [← hom]
      unfold Rib.envelopGeometricMesh
      congr 1
      conv_lhs => rw [Rib.geomLoop]
      conv_rhs => rw [Rib.geomLoop]
      congr 1
      funext o
      cases o with
      | none => dsimp only; rw [Demo.low_stops a hdisk, Rib.geomLoop]
      | some seg =>
        dsimp only
        cases a.contrib (Demo.upright (1 / 2)) Demo.field seg with
        | none => rfl
        | some c => dsimp only; rw [Demo.low_stops a hdisk, Rib.geomLoop]
    rw [this] at g2
    exact (Prod.mk.inj (Res.ok.inj g2)).1.symm
  -- with the third one
  have hb' : b2 = false := by
    obtain ⟨f, r, k1, k2⟩ := C38_mesh_flag .raw s s2 hreach _ _ _ _ b2 (Demo.query3 hb1 hb2) e2
    rw [← Bool.not_eq_true, k2]
    rintro ⟨i, hi, hf⟩
    obtain ⟨rib, g1, g2, -⟩ := k1 i hi
    have hi0 : i = 0 := by omega
    subst hi0
    rw [(Shell.setupMesh_rel (.inl ⟨b2, e2⟩)).ribs, hab] at g1
    have g1 : [a][0]? = some rib := g1
    cases g1
    dsimp only at g2
    rw [if_neg (by simp), hcand _ (by simp), hone] at g2
    have : a.envelopGeometricMesh [Demo.low, Demo.field] (Demo.upright (1 / 2)) =
        .ok (false, a.noContact (Demo.upright (1 / 2))) := by
      unfold Rib.envelopGeometricMesh
      rw [Demo.low_stops a hdisk, Res.bind_ok]
      simp [Rib.geomFinish, Rib.Acc.init]
    rw [this] at g2
    rw [← (Prod.mk.inj (Res.ok.inj g2)).1] at hf
    cases hf
  subst hb hb'
  refine ⟨s, s1, s2, Demo.field, Demo.low, Demo.deep, hreach, hrx, Demo.field_make, Demo.low_make, Demo.deep_make, ?_,
    e1, e2⟩
  have hfar : ¬ Near (reach s (levelFrame (1 / 2))) Demo.deep := by
    rintro ⟨p, hp, hq⟩
    rw [Demo.deep_box] at hp
    have h1 := hp.2.2.2
    have h2 := hq.2.2.1
    simp only [reach, levelFrame, hrx, Demo.slab] at h1 h2
    linarith
  show (List.filter _ [Demo.field, Demo.low]).Perm (List.filter _ ([Demo.field, Demo.low] ++ [Demo.deep]))
  rw [List.filter_append, List.filter_cons_of_neg (a := Demo.deep) (by rw [decide_eq_true_iff]; exact hfar),
    List.filter_nil, List.append_nil]

end Enve
