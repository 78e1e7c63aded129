import Verif.Model.Mesh
import Verif.Lemmas.Tree

/-! # Ground triangles and mesh queries -/

namespace Enve
open Scalar
variable {α : Type} [Scalar α] {P : α → Prop}

theorem Box.clamp_WF (ho : OrderOn P) (b : Box α) {p q r : V3 α} (hp : p.All P) (hq : q.All P)
    (hr : r.All P) : (b.clamp p q r).WF P := by
  have h : ∀ {a b c : α}, P a → P b → P c →
      P (Scalar.min a (Scalar.min b c)) ∧ P (Scalar.max a (Scalar.max b c)) ∧
      (Scalar.min a (Scalar.min b c) <=. Scalar.max a (Scalar.max b c)) = true := by
    intro a b c ha hb hc
    have h1 := OrderOn.min_P ha (OrderOn.min_P hb hc)
    have h2 := OrderOn.max_P ha (OrderOn.max_P hb hc)
    exact ⟨h1, h2, ho.trans h1 ha h2 (ho.min_le_left ha (OrderOn.min_P hb hc))
      (ho.le_max_left ha (OrderOn.max_P hb hc))⟩
  exact ⟨⟨(h hp.1 hq.1 hr.1).1, (h hp.2.1 hq.2.1 hr.2.1).1, (h hp.2.2 hq.2.2 hr.2.2).1⟩,
    ⟨(h hp.1 hq.1 hr.1).2.1, (h hp.2.1 hq.2.1 hr.2.1).2.1, (h hp.2.2 hq.2.2 hr.2.2).2.1⟩,
    ⟨(h hp.1 hq.1 hr.1).2.2, (h hp.2.1 hq.2.1 hr.2.1).2.2, (h hp.2.2 hq.2.2 hr.2.2).2.2⟩⟩

namespace TriangleGround

/-- `t` came out of a constructor with the given vertices. -/
def Constructed (t : TriangleGround α) : Prop :=
  ∃ id f p q r, make id f p q r = .ok t

theorem make_ok {id : Int} {f : α} {p q r : V3 α} {t : TriangleGround α}
    (h : make id f p q r = .ok t) : (zero <=. f) = true ∧
    t = updateBBox (updateNormal ⟨⟨p, q, r⟩, id, f, V3.nan, Box.default⟩) := by
  unfold make at h
  cases hf : (zero <=. f) <;> simp [hf] at h ⊢
  exact h.symm

theorem Constructed.bbox_eq {t : TriangleGround α} (h : t.Constructed) :
    t.bbox = Box.clamp { (Box.default : Box α) with id := t.id } t.tri.v0 t.tri.v1 t.tri.v2 := by
  obtain ⟨id, f, p, q, r, h⟩ := h
  obtain ⟨-, rfl⟩ := make_ok h
  rfl

theorem Constructed.bbox_id {t : TriangleGround α} (h : t.Constructed) : t.bbox.id = t.id := by
  rw [h.bbox_eq]; rfl

theorem Constructed.bbox_WF (ho : OrderOn P) {t : TriangleGround α} (h : t.Constructed)
    (h0 : t.tri.v0.All P) (h1 : t.tri.v1.All P) (h2 : t.tri.v2.All P) : t.bbox.WF P := by
  rw [h.bbox_eq]; exact Box.clamp_WF ho _ h0 h1 h2

end TriangleGround

namespace Mesh

/-- Every triangle was constructed and carries its own position as id, and boxes and tree are
those of the triangles.  This is what loading from a file establishes (`C19`, `C20`). -/
structure Consistent (m : Mesh α) : Prop where
  built : m = ofTriangles m.triangles
  constructed : ∀ t ∈ m.triangles, t.Constructed
  ids : ∀ (i : Nat) t, m.triangles[i]? = some t → t.id = i

/-- All vertices of the mesh satisfy `P`. -/
def VerticesIn (P : α → Prop) (m : Mesh α) : Prop :=
  ∀ t ∈ m.triangles, t.tri.v0.All P ∧ t.tri.v1.All P ∧ t.tri.v2.All P

omit [Scalar α] in
theorem lookupAll_ok (m : Mesh α) (f : Box α → TriangleGround α) (ps : List (Box α × Box α))
    (h : ∀ p ∈ ps, m.ptrTriangleground p.1.id = .ok (f p.1)) :
    m.lookupAll ps = .ok (ps.map fun p => f p.1) := by
  induction ps with
  | nil => rfl
  | cons p ps ih =>
    simp [lookupAll, h p (by simp), ih (fun q hq => h q (by simp [hq]))]

theorem brute_single (l : List (Box α)) (q : Box α) :
    Tree.brute false l [q] = (l.filter fun b => b.intersects q).map fun b => (b, q) := by
  induction l with
  | nil => simp [Tree.brute]
  | cons b l ih =>
    simp only [Tree.brute, List.flatMap_cons] at ih ⊢
    rw [ih]
    cases h : b.intersects q <;> simp [h, Tree.pair]

omit [Scalar α] in
theorem lookupAll_ub (m : Mesh α) (ps : List (Box α × Box α))
    (h : ∃ p ∈ ps, (m.ptrTriangleground p.1.id).isUb = true) : (m.lookupAll ps).isUb = true := by
  induction ps with
  | nil => simp at h
  | cons p ps ih =>
    rw [lookupAll]
    cases hp : m.ptrTriangleground p.1.id with
    | ub w => rfl
    | throw e =>
      unfold ptrTriangleground at hp
      split at hp
      · split at hp <;> simp at hp
      · simp at hp
    | ok t =>
      have := ih (by
        obtain ⟨q, hq, hu⟩ := h
        rcases List.mem_cons.1 hq with rfl | hq
        · rw [hp] at hu; simp [Res.isUb] at hu
        · exact ⟨q, hq, hu⟩)
      cases hl : m.lookupAll ps with
      | ub w => simp [Res.isUb]
      | throw e => rw [hl] at this; simp [Res.isUb] at this
      | ok t => rw [hl] at this; simp [Res.isUb] at this

/-- A query looks up the ids of exactly the stored boxes that meet the query box, where `ts` are the
triangles the tree was built from (not necessarily those the mesh holds now). -/
theorem intersection_lookups (ho : OrderOn P) (m : Mesh α) (ts : List (TriangleGround α))
    (htree : m.tree = Tree.build (ts.map (·.bbox))) (hne : ts ≠ [])
    (hwf : ∀ t ∈ ts, t.bbox.WF P) (q : Box α) (hq : q.WF P) :
    ∃ pairs, m.intersection q = m.lookupAll pairs ∧
      pairs.Perm ((ts.filter fun t => t.bbox.intersects q).map fun t => (t.bbox, q)) := by
  have hh : m.tree.IsHierarchy P := by
    rw [htree]
    apply Tree.build_isHierarchy ho _ (by simpa using hne)
    simpa using hwf
  have hq' : (Tree.build [q]).IsHierarchy P := by rw [Tree.build]; exact .leaf q hq
  obtain ⟨pairs, h1, h2⟩ := Tree.inter_spec ho m.tree (Tree.build [q]) false hh hq'
  have hl : (Tree.build [q]).leaves = [q] := by simp [Tree.build, Tree.leaves]
  rw [hl, brute_single] at h2
  have hleaves : m.tree.leaves.Perm (ts.map (·.bbox)) := by
    rw [htree]; exact Tree.leaves_build _
  refine ⟨pairs, by simp [intersection, h1], h2.trans ?_⟩
  refine ((hleaves.filter fun b => b.intersects q).map fun b => (b, q)).trans ?_
  rw [List.filter_map, List.map_map]
  exact List.Perm.refl _

/-- The query of a consistent, non-empty mesh. -/
theorem intersection_spec (ho : OrderOn P) (m : Mesh α) (hm : m.Consistent)
    (hv : m.VerticesIn P) (hne : m.triangles ≠ []) (q : Box α) (hq : q.WF P) :
    ∃ out, m.intersection q = .ok out ∧
      out.Perm (m.triangles.filter fun t => t.bbox.intersects q) := by
  have hwf : ∀ t ∈ m.triangles, t.bbox.WF P := fun t ht =>
    (hm.constructed t ht).bbox_WF ho (hv t ht).1 (hv t ht).2.1 (hv t ht).2.2
  have htree : m.tree = Tree.build (m.triangles.map (·.bbox)) := by
    conv_lhs => rw [hm.built]
    rfl
  have hh : m.tree.IsHierarchy P := by
    rw [htree]
    apply Tree.build_isHierarchy ho _ (by simpa using hne)
    simpa using hwf
  have hq' : (Tree.build [q]).IsHierarchy P := by rw [Tree.build]; exact .leaf q hq
  obtain ⟨pairs, h1, h2⟩ := Tree.inter_spec ho m.tree (Tree.build [q]) false hh hq'
  have hl : (Tree.build [q]).leaves = [q] := by simp [Tree.build, Tree.leaves]
  rw [hl, brute_single] at h2
  have hleaves : m.tree.leaves.Perm (m.triangles.map (·.bbox)) := by
    rw [htree]; exact Tree.leaves_build _
  -- the lookup of a box of the mesh finds its triangle
  obtain ⟨t0, ht0⟩ := List.exists_mem_of_ne_nil _ hne
  let f : Box α → TriangleGround α := fun b => (m.triangles[b.id.toNat]?).getD t0
  have hf : ∀ t ∈ m.triangles, m.ptrTriangleground t.bbox.id = .ok t ∧ f t.bbox = t := by
    intro t ht
    obtain ⟨i, hi, rfl⟩ := List.getElem_of_mem ht
    have hi' : m.triangles[i]? = some m.triangles[i] := List.getElem?_eq_getElem hi
    have hid := hm.ids i _ hi'
    rw [(hm.constructed _ ht).bbox_id, hid]
    refine ⟨?_, ?_⟩
    · simp only [ptrTriangleground, Int.natCast_nonneg, if_true, Int.toNat_natCast, hi']
    · simp only [f, (hm.constructed _ ht).bbox_id, hid, Int.toNat_natCast, hi', Option.getD_some]
  have hlook : ∀ p ∈ pairs, m.ptrTriangleground p.1.id = .ok (f p.1) := by
    intro p hp
    have := h2.subset hp
    simp only [List.mem_map, List.mem_filter] at this
    obtain ⟨b, ⟨hb, -⟩, rfl⟩ := this
    have hb' := hleaves.subset hb
    simp only [List.mem_map] at hb'
    obtain ⟨t, ht, rfl⟩ := hb'
    rw [(hf t ht).1, (hf t ht).2]
  refine ⟨pairs.map fun p => f p.1, ?_, ?_⟩
  · simp [intersection, h1, lookupAll_ok m f pairs hlook]
  · have e1 := h2.map fun p => f p.1
    refine e1.trans ?_
    have e2 := ((hleaves.filter fun b => b.intersects q).map fun b => (b, q)).map fun p => f p.1
    refine e2.trans ?_
    rw [List.filter_map, List.map_map, List.map_map]
    have : List.map (((fun p : Box α × Box α => f p.1) ∘ fun b => (b, q)) ∘ fun t => t.bbox)
        (List.filter ((fun b => b.intersects q) ∘ fun t => t.bbox) m.triangles) =
        List.filter ((fun b => b.intersects q) ∘ fun t => t.bbox) m.triangles := by
      refine (List.map_congr_left (g := id) fun t ht => ?_).trans (List.map_id _)
      exact (hf t (List.mem_filter.mp ht).1).2
    rw [this]
    rfl

end Mesh
end Enve
