import Verif.Props.LoaderProps
import Verif.Props.BoxProps
import Verif.Model.Shell

/-! # Mesh queries: C11, C13, C15, C16, C17; ground objects: C25, C26, C27 -/

namespace Enve
open Scalar Spec
variable {α : Type} [Scalar α] {P : α → Prop}

/-- `m` is the result of loading a file into a new mesh. -/
def Mesh.Loaded (np : NumParse α) (m : Mesh α) : Prop :=
  (∃ path file pose, Mesh.ofRdf np path file pose = .ok m) ∨
  (∃ path file friction pose, Mesh.ofObj np path file friction pose = .ok m)

omit [Scalar α] in
theorem Mesh.constructed_ok {r : MRes (Mesh α) Bool} {m : Mesh α}
    (h : Mesh.constructed r = .ok m) : r = .ok m true := by
  rcases r with ⟨m', _ | _⟩ | _ | _ <;> simp [Mesh.constructed] at h
  subst h; rfl

theorem Mesh.Loaded.consistent {np : NumParse α} {m : Mesh α} (h : m.Loaded np) :
    m.Consistent ∧ m.triangles ≠ [] := by
  rcases h with ⟨path, file, pose, h⟩ | ⟨path, file, friction, pose, h⟩
  · exact Mesh.loadRdf_consistent rfl (Mesh.constructed_ok h)
  · exact Mesh.loadObj_consistent rfl (Mesh.constructed_ok h)

/-- C11: on a mesh loaded from a file whose vertices are not NaN, a query with a box with ordered
corners leaves in the caller's vector (whatever it held before) exactly the triangles whose bounding
box overlaps the query box, each exactly once, and returns whether there are any. -/
theorem C11_box_query_exact (ho : OrderOn P) (np : NumParse α) (m : Mesh α) (hm : m.Loaded np)
    (hv : m.VerticesIn P) (q : Box α) (hq : q.WF P) (old : List (TriangleGround α)) :
    ∃ flag out, m.query q old = .ok (flag, out) ∧
      out.Perm (m.triangles.filter fun t => t.bbox.intersects q) ∧
      (flag = true ↔ ∃ t ∈ m.triangles, t.bbox.intersects q = true) := by
  obtain ⟨out, h1, h2⟩ := Mesh.intersection_spec ho m hm.consistent.1 hv hm.consistent.2 q hq
  refine ⟨decide (0 < out.length), out, by simp [Mesh.query, h1], h2, ?_⟩
  rw [decide_eq_true_eq, List.length_pos_iff_exists_mem]
  simp only [h2.mem_iff, List.mem_filter]

/-- C11 in real 3-space: a triangle is returned exactly when its bounding box and the query box have
a common point. -/
theorem C11_box_query_exact_real (np : NumParse ℝ) (m : Mesh ℝ) (hm : m.Loaded np) (q : Box ℝ)
    (hq : q.min.x ≤ q.max.x ∧ q.min.y ≤ q.max.y ∧ q.min.z ≤ q.max.z)
    (old : List (TriangleGround ℝ)) :
    ∃ flag out, m.query q old = .ok (flag, out) ∧
      ∀ t, t ∈ out ↔ t ∈ m.triangles ∧
        ∃ p, Spec.InBox t.bbox.min t.bbox.max p ∧ Spec.InBox q.min q.max p := by
  have hv : m.VerticesIn fun _ => True := fun t _ => ⟨⟨trivial, trivial, trivial⟩,
    ⟨trivial, trivial, trivial⟩, ⟨trivial, trivial, trivial⟩⟩
  obtain ⟨flag, out, h1, h2, -⟩ :=
    C11_box_query_exact OrderOn.real np m hm hv q ((Box.real_WF q).2 hq) old
  refine ⟨flag, out, h1, fun t => ?_⟩
  rw [h2.mem_iff, List.mem_filter]
  refine and_congr_right fun ht => C14_intersects_iff_common_point _ _ ?_ hq
  have := (hm.consistent.1.constructed t ht).bbox_WF OrderOn.real (hv t ht).1 (hv t ht).2.1
    (hv t ht).2.2
  exact (Box.real_WF _).1 this

/-! ## C27: the box of a ground triangle -/

theorem real_min3 (a b c x y z : ℝ) (hx : 0 ≤ x) (hy : 0 ≤ y) (hz : 0 ≤ z) (h : x + y + z = 1) :
    Min.min a (Min.min b c) ≤ x * a + y * b + z * c := by
  have h1 : Min.min a (Min.min b c) ≤ a := min_le_left _ _
  have h2 : Min.min a (Min.min b c) ≤ b := (min_le_right _ _).trans (min_le_left _ _)
  have h3 : Min.min a (Min.min b c) ≤ c := (min_le_right _ _).trans (min_le_right _ _)
  calc Min.min a (Min.min b c) = (x + y + z) * Min.min a (Min.min b c) := by rw [h, one_mul]
    _ = x * Min.min a (Min.min b c) + y * Min.min a (Min.min b c) + z * Min.min a (Min.min b c) := by
      ring
    _ ≤ _ := by gcongr

theorem real_max3 (a b c x y z : ℝ) (hx : 0 ≤ x) (hy : 0 ≤ y) (hz : 0 ≤ z) (h : x + y + z = 1) :
    x * a + y * b + z * c ≤ Max.max a (Max.max b c) := by
  have h1 : a ≤ Max.max a (Max.max b c) := le_max_left _ _
  have h2 : b ≤ Max.max a (Max.max b c) := (le_max_left _ _).trans (le_max_right _ _)
  have h3 : c ≤ Max.max a (Max.max b c) := (le_max_right _ _).trans (le_max_right _ _)
  calc _ ≤ x * Max.max a (Max.max b c) + y * Max.max a (Max.max b c) +
        z * Max.max a (Max.max b c) := by gcongr
    _ = (x + y + z) * Max.max a (Max.max b c) := by ring
    _ = _ := by rw [h, one_mul]

/-- C27: the box of a constructed ground triangle carries the triangle's id, contains every convex
combination of the vertices, and each of its six face coordinates is a coordinate of a vertex. -/
theorem C27_triangle_box (id : Int) (friction : ℝ) (v0 v1 v2 : V3 ℝ) (t : TriangleGround ℝ)
    (h : TriangleGround.make id friction v0 v1 v2 = .ok t) :
    t.bbox.id = id ∧ t.id = id ∧ t.tri = ⟨v0, v1, v2⟩ ∧
    (∀ p, Spec.InTriangle v0 v1 v2 p → Spec.InBox t.bbox.min t.bbox.max p) ∧
    (∃ v ∈ [v0, v1, v2], t.bbox.min.x = v.x) ∧ (∃ v ∈ [v0, v1, v2], t.bbox.max.x = v.x) ∧
    (∃ v ∈ [v0, v1, v2], t.bbox.min.y = v.y) ∧ (∃ v ∈ [v0, v1, v2], t.bbox.max.y = v.y) ∧
    (∃ v ∈ [v0, v1, v2], t.bbox.min.z = v.z) ∧ (∃ v ∈ [v0, v1, v2], t.bbox.max.z = v.z) := by
  have hc : t.Constructed := ⟨id, friction, v0, v1, v2, h⟩
  obtain ⟨-, rfl⟩ := TriangleGround.make_ok h
  refine ⟨rfl, rfl, rfl, ?_, ?_⟩
  · rintro p ⟨a, b, c, ha, hb, hc, hs, rfl⟩
    simp only [TriangleGround.updateBBox, TriangleGround.updateNormal, Box.clamp, Spec.InBox,
      real_min, real_max]
    exact ⟨⟨real_min3 _ _ _ _ _ _ ha hb hc hs, real_max3 _ _ _ _ _ _ ha hb hc hs⟩,
      ⟨real_min3 _ _ _ _ _ _ ha hb hc hs, real_max3 _ _ _ _ _ _ ha hb hc hs⟩,
      real_min3 _ _ _ _ _ _ ha hb hc hs, real_max3 _ _ _ _ _ _ ha hb hc hs⟩
  · have k1 : ∀ f : V3 ℝ → ℝ,
        ∃ v ∈ [v0, v1, v2], Min.min (f v0) (Min.min (f v1) (f v2)) = f v := by
      intro f
      rcases min_choice (f v0) (Min.min (f v1) (f v2)) with e | e
      · exact ⟨v0, by simp, e⟩
      · rcases min_choice (f v1) (f v2) with e' | e'
        · exact ⟨v1, by simp, e.trans e'⟩
        · exact ⟨v2, by simp, e.trans e'⟩
    have k2 : ∀ f : V3 ℝ → ℝ,
        ∃ v ∈ [v0, v1, v2], Max.max (f v0) (Max.max (f v1) (f v2)) = f v := by
      intro f
      rcases max_choice (f v0) (Max.max (f v1) (f v2)) with e | e
      · exact ⟨v0, by simp, e⟩
      · rcases max_choice (f v1) (f v2) with e' | e'
        · exact ⟨v1, by simp, e.trans e'⟩
        · exact ⟨v2, by simp, e.trans e'⟩
    simp only [TriangleGround.updateBBox, TriangleGround.updateNormal, Box.clamp, real_min, real_max]
    exact ⟨k1 (·.x), k2 (·.x), k1 (·.y), k2 (·.y), k1 (·.z), k2 (·.z)⟩

/-! ## C13: nothing touching the box is missed -/

/-- C13: if a point of a triangle of a loaded mesh lies in the query box, the query returns that
triangle. -/
theorem C13_touching_triangle_found (np : NumParse ℝ) (m : Mesh ℝ) (hm : m.Loaded np) (q : Box ℝ)
    (old : List (TriangleGround ℝ)) (t : TriangleGround ℝ) (ht : t ∈ m.triangles) (p : V3 ℝ)
    (hp : Spec.InTriangle t.tri.v0 t.tri.v1 t.tri.v2 p) (hq : Spec.InBox q.min q.max p) :
    ∃ out, m.query q old = .ok (true, out) ∧ t ∈ out := by
  have hq' : q.min.x ≤ q.max.x ∧ q.min.y ≤ q.max.y ∧ q.min.z ≤ q.max.z :=
    ⟨hq.1.1.trans hq.1.2, hq.2.1.1.trans hq.2.1.2, hq.2.2.1.trans hq.2.2.2⟩
  obtain ⟨flag, out, h1, h2⟩ := C11_box_query_exact_real np m hm q hq' old
  obtain ⟨id, f, v0, v1, v2, hmk⟩ := hm.consistent.1.constructed t ht
  have h27 := C27_triangle_box id f v0 v1 v2 t hmk
  have hmem : t ∈ out := (h2 t).2 ⟨ht, p, h27.2.2.2.1 p (by rw [h27.2.2.1] at hp; exact hp), hq⟩
  refine ⟨out, ?_, hmem⟩
  have : flag = true := by
    simp only [Mesh.query] at h1
    cases hi : m.intersection q with
    | ok o =>
      simp only [hi, Res.bind_ok, Res.pure_eq, Res.ok.injEq, Prod.mk.injEq] at h1
      obtain ⟨rfl, rfl⟩ := h1
      simpa using List.length_pos_of_mem hmem
    | throw e => simp [hi] at h1
    | ub w => simp [hi] at h1
  rw [h1, this]

/-! ## C15: a mesh without triangles -/

/-- C15 is false: a query on a default constructed mesh dereferences the null box of its empty tree,
for every query box and in any arithmetic; so does `shell::setup` on such a mesh, for every shell,
pose and method. -/
theorem C15_empty_mesh_refuted (q : Box α) (old : List (TriangleGround α)) (pol : Policy)
    (s : Shell α) (pose : Affine α) (method : String) :
    (∃ w, (Mesh.empty : Mesh α).query q old = .ub w) ∧
    (∃ w, s.setupMesh pol Mesh.empty pose method = .ub w) := by
  have key : ∀ b : Box α, ∃ w, (Mesh.empty : Mesh α).intersection b = .ub w := by
    intro b
    refine ⟨"null m_ptrbox dereferenced", ?_⟩
    simp [Mesh.intersection, Mesh.empty, Tree.empty, Tree.build, Tree.inter]
  refine ⟨?_, ?_⟩
  · obtain ⟨w, h⟩ := key q
    exact ⟨w, by simp [Mesh.query, h]⟩
  · obtain ⟨w, h⟩ := key (s.transform pose).updateBBox.bbox
    exact ⟨w, by simp [Shell.setupMesh, h]⟩

/-- What does hold: a mesh that was loaded from a file is never empty, and querying it never
accesses invalid memory. -/
theorem C15_loaded_mesh_safe_partial (ho : OrderOn P) (np : NumParse α) (m : Mesh α)
    (hm : m.Loaded np) (hv : m.VerticesIn P) (q : Box α) (hq : q.WF P)
    (old : List (TriangleGround α)) :
    m.triangles ≠ [] ∧ (m.query q old).isOk = true := by
  obtain ⟨flag, out, h, -⟩ := C11_box_query_exact ho np m hm hv q hq old
  exact ⟨hm.consistent.2, by rw [h]; rfl⟩

/-! ## C16: clear and copy -/

/-- C16 is false for `clear`: the tree keeps the old boxes, so every query that meets one of the
triangles the mesh used to hold reads outside the (now empty) triangle vector. -/
theorem C16_clear_refuted (ho : OrderOn P) (m : Mesh α) (hm : m.Consistent)
    (hv : m.VerticesIn P) (q : Box α) (hq : q.WF P) (t : TriangleGround α) (ht : t ∈ m.triangles)
    (hi : t.bbox.intersects q = true) (old : List (TriangleGround α)) :
    (m.clear.query q old).isUb = true := by
  have htree : m.clear.tree = Tree.build (m.triangles.map (·.bbox)) := by
    show m.tree = _
    conv_lhs => rw [hm.built]
    rfl
  obtain ⟨pairs, h1, h2⟩ := Mesh.intersection_lookups ho m.clear m.triangles htree
    (List.ne_nil_of_mem ht)
    (fun t ht => (hm.constructed t ht).bbox_WF ho (hv t ht).1 (hv t ht).2.1 (hv t ht).2.2) q hq
  have := Mesh.lookupAll_ub m.clear pairs ⟨(t.bbox, q), h2.mem_iff.2 (List.mem_map.2
    ⟨t, List.mem_filter.2 ⟨ht, hi⟩, rfl⟩), by
      simp only [Mesh.ptrTriangleground, Mesh.clear, List.getElem?_nil]
      split <;> rfl⟩
  rw [← h1] at this
  cases h : m.clear.intersection q <;> simp [h, Res.isUb, Mesh.query] at this ⊢

/-- C16 is false for `copy`: copying into a default constructed mesh leaves its tree empty, so that
every query on the copy dereferences a null pointer. -/
theorem C16_copy_refuted (m : Mesh α) (q : Box α) (old : List (TriangleGround α)) :
    (((Mesh.empty : Mesh α).copy m).query q old).isUb = true := by
  simp [Mesh.query, Mesh.intersection, Mesh.copy, Mesh.empty, Tree.empty, Tree.build, Tree.inter,
    Res.isUb]

/-- What does hold of `clear`: the size is zero, a query that meets none of the former triangles
finds nothing, and after loading a file the mesh is as good as new (`C23_reload_partial`). -/
theorem C16_clear_partial (ho : OrderOn P) (m : Mesh α) (hm : m.Consistent)
    (hv : m.VerticesIn P) (hne : m.triangles ≠ []) (q : Box α) (hq : q.WF P)
    (hi : ∀ t ∈ m.triangles, t.bbox.intersects q = false) (old : List (TriangleGround α)) :
    m.clear.size = 0 ∧ m.clear.query q old = .ok (false, []) := by
  refine ⟨rfl, ?_⟩
  have htree : m.clear.tree = Tree.build (m.triangles.map (·.bbox)) := by
    show m.tree = _
    conv_lhs => rw [hm.built]
    rfl
  obtain ⟨pairs, h1, h2⟩ := Mesh.intersection_lookups ho m.clear m.triangles htree hne
    (fun t ht => (hm.constructed t ht).bbox_WF ho (hv t ht).1 (hv t ht).2.1 (hv t ht).2.2) q hq
  have : (m.triangles.filter fun t => t.bbox.intersects q) = [] := by
    rw [List.filter_eq_nil_iff]; intro t ht; simp [hi t ht]
  rw [this, List.map_nil, List.perm_nil] at h2
  simp [Mesh.query, h1, h2, Mesh.lookupAll]

/-- What does hold of `copy`, in any arithmetic: the triangles and their number are those of the
original, and if the target already had the same tree (for instance because it was loaded from the
same file) queries answer exactly as on the original. -/
theorem C16_copy_partial (m m' : Mesh α) :
    (m.copy m').size = m'.size ∧
    (∀ i, (m.copy m').ptrTriangleground i = m'.ptrTriangleground i) ∧
    (m.tree = m'.tree → ∀ q old, (m.copy m').query q old = m'.query q old) := by
  refine ⟨rfl, fun i => rfl, fun h q old => ?_⟩
  have hl : ∀ ps, (m.copy m').lookupAll ps = m'.lookupAll ps := by
    intro ps
    induction ps with
    | nil => rfl
    | cons p ps ih => rw [Mesh.lookupAll, Mesh.lookupAll, ih]; rfl
  have : (m.copy m').intersection q = m'.intersection q := by
    unfold Mesh.intersection
    rw [show (m.copy m').tree = m'.tree from h]
    congr 1
    funext ps
    exact hl ps
  rw [Mesh.query, this, Mesh.query]

/-! ## C17: meshes built from a vector of triangles -/

/-- What a query on a mesh built from user triangles really returns.  Every overlapping box is
answered with the triangle *at the position given by the box's id*: if all these ids are positions in
the vector, the answer consists of the triangles found there; if one of them is not, the query reads
outside the vector. -/
theorem C17_query_follows_ids (ho : OrderOn P) (ts : List (TriangleGround α)) (hne : ts ≠ [])
    (hc : ∀ t ∈ ts, t.Constructed)
    (hv : ∀ t ∈ ts, t.tri.v0.All P ∧ t.tri.v1.All P ∧ t.tri.v2.All P) (q : Box α) (hq : q.WF P)
    (old : List (TriangleGround α)) :
    (∀ g : TriangleGround α → TriangleGround α,
      (∀ t ∈ ts, t.bbox.intersects q = true → ∃ i : Nat, t.id = i ∧ ts[i]? = some (g t)) →
      ∃ flag out, (Mesh.ofTriangles ts).query q old = .ok (flag, out) ∧
        out.Perm ((ts.filter fun t => t.bbox.intersects q).map g)) ∧
    ((∃ t ∈ ts, t.bbox.intersects q = true ∧ (t.id < 0 ∨ (ts.length : Int) ≤ t.id)) →
      ((Mesh.ofTriangles ts).query q old).isUb = true) := by
  obtain ⟨pairs, h1, h2⟩ := Mesh.intersection_lookups ho (Mesh.ofTriangles ts) ts rfl hne
    (fun t ht => (hc t ht).bbox_WF ho (hv t ht).1 (hv t ht).2.1 (hv t ht).2.2) q hq
  refine ⟨fun g hg => ?_, fun ⟨t, ht, hi, hid⟩ => ?_⟩
  · -- a box of `ts` determines (through its id) the triangle looked up
    obtain ⟨t0, ht0⟩ := List.exists_mem_of_ne_nil _ hne
    let f : Box α → TriangleGround α := fun b => (ts[b.id.toNat]?).getD t0
    have hf : ∀ t ∈ ts, t.bbox.intersects q = true →
        (Mesh.ofTriangles ts).ptrTriangleground t.bbox.id = .ok (f t.bbox) ∧ f t.bbox = g t := by
      intro t ht hi
      obtain ⟨i, e1, e2⟩ := hg t ht hi
      have e3 : t.bbox.id = i := by rw [(hc t ht).bbox_id, e1]
      have e4 : f t.bbox = g t := by simp only [f, e3, Int.toNat_natCast, e2, Option.getD_some]
      refine ⟨?_, e4⟩
      rw [e4, e3]
      have : (Mesh.ofTriangles ts).triangles = ts := rfl
      simp only [Mesh.ptrTriangleground, Int.natCast_nonneg, if_true, Int.toNat_natCast, this, e2]
    have hlook := Mesh.lookupAll_ok (Mesh.ofTriangles ts) f pairs (by
      intro p hp
      obtain ⟨t, ht, rfl⟩ := List.mem_map.1 (h2.subset hp)
      obtain ⟨ht, hi⟩ := List.mem_filter.1 ht
      exact (hf t ht hi).1)
    refine ⟨_, pairs.map fun p => f p.1, by simp only [Mesh.query, h1, hlook, Res.bind_ok]; rfl, ?_⟩
    refine (h2.map fun p => f p.1).trans ?_
    rw [List.map_map]
    apply List.Perm.of_eq
    apply List.map_congr_left
    intro t ht
    obtain ⟨ht, hi⟩ := List.mem_filter.1 ht
    exact (hf t ht hi).2
  · have := Mesh.lookupAll_ub (Mesh.ofTriangles ts) pairs ⟨(t.bbox, q), h2.mem_iff.2 (List.mem_map.2
      ⟨t, List.mem_filter.2 ⟨ht, hi⟩, rfl⟩), by
        simp only [Mesh.ptrTriangleground, (hc t ht).bbox_id]
        have e : (Mesh.ofTriangles ts).triangles = ts := rfl
        rw [e]
        split
        · rw [List.getElem?_eq_none (by omega)]; rfl
        · rfl⟩
    rw [← h1] at this
    cases h : (Mesh.ofTriangles ts).intersection q <;> simp [h, Res.isUb, Mesh.query] at this ⊢

/-- What holds of C17: if the ids are the positions in the vector, a query returns exactly the
supplied triangles whose boxes overlap the query box. -/
theorem C17_vector_mesh_partial (ho : OrderOn P) (ts : List (TriangleGround α)) (hne : ts ≠ [])
    (hc : ∀ t ∈ ts, t.Constructed) (hids : ∀ (i : Nat) t, ts[i]? = some t → t.id = i)
    (hv : ∀ t ∈ ts, t.tri.v0.All P ∧ t.tri.v1.All P ∧ t.tri.v2.All P) (q : Box α) (hq : q.WF P)
    (old : List (TriangleGround α)) :
    ∃ flag out, (Mesh.ofTriangles ts).query q old = .ok (flag, out) ∧
      out.Perm (ts.filter fun t => t.bbox.intersects q) := by
  obtain ⟨flag, out, h1, h2⟩ := (C17_query_follows_ids ho ts hne hc hv q hq old).1 id (by
    intro t ht _
    obtain ⟨i, hi, rfl⟩ := List.getElem_of_mem ht
    exact ⟨i, hids i _ (List.getElem?_eq_getElem hi), by simp [List.getElem?_eq_getElem hi]⟩)
  exact ⟨flag, out, h1, by simpa using h2⟩

namespace Demo

/-- The triangle `(x,0,0), (x+1,0,0), (x,1,0)` with the given id and friction 1. -/
noncomputable def tri (id : Int) (x : ℝ) : TriangleGround ℝ :=
  TriangleGround.updateBBox (TriangleGround.updateNormal
    ⟨⟨⟨x, 0, 0⟩, ⟨x + 1, 0, 0⟩, ⟨x, 1, 0⟩⟩, id, 1, V3.nan, Box.default⟩)

theorem tri_make (id : Int) (x : ℝ) :
    TriangleGround.make id 1 ⟨x, 0, 0⟩ ⟨x + 1, 0, 0⟩ ⟨x, 1, 0⟩ = .ok (tri id x) := by
  simp [TriangleGround.make, tri]

theorem tri_bbox (id : Int) (x : ℝ) : (tri id x).bbox = ⟨⟨x, 0, 0⟩, ⟨x + 1, 1, 0⟩, id, 0⟩ := by
  simp [tri, TriangleGround.updateBBox, TriangleGround.updateNormal, Box.clamp, Box.default]

/-- A query box around `x`. -/
noncomputable def around (x : ℝ) : Box ℝ := ⟨⟨x, 0, 0⟩, ⟨x, 0, 0⟩, 0, 0⟩

theorem allTrue {t : TriangleGround ℝ} : t.tri.v0.All (fun _ => True) ∧
    t.tri.v1.All (fun _ => True) ∧ t.tri.v2.All (fun _ => True) :=
  ⟨⟨trivial, trivial, trivial⟩, ⟨trivial, trivial, trivial⟩, ⟨trivial, trivial, trivial⟩⟩

theorem around_WF (x : ℝ) : (around x).WF fun _ => True := by simp [Box.real_WF, around]

theorem hit (id : Int) (x y : ℝ) : (tri id x).bbox.intersects (around y) = decide (x ≤ y ∧ y ≤ x + 1) := by
  rw [Bool.eq_iff_iff, Box.intersects_iff]
  simp [tri_bbox, around, V3.Le]

end Demo

open Demo in
/-- C17 is false: (1) a single triangle that carries the id 5 makes every query that meets it read
outside the vector; (2) with two triangles whose ids are exchanged, the query that meets only the
first one returns only the second one, which it does not meet. -/
theorem C17_user_ids_refuted (old : List (TriangleGround ℝ)) :
    ((Mesh.ofTriangles [tri 5 0]).query (around 0) old).isUb = true ∧
    ((tri 1 0).bbox.intersects (around 0) = true ∧ (tri 0 10).bbox.intersects (around 0) = false ∧
      ∃ flag, (Mesh.ofTriangles [tri 1 0, tri 0 10]).query (around 0) old =
        .ok (flag, [tri 0 10])) := by
  refine ⟨?_, by rw [hit]; norm_num, by rw [hit]; norm_num, ?_⟩
  · refine (C17_query_follows_ids OrderOn.real [tri 5 0] (by simp) ?_ (fun _ _ => allTrue) (around 0)
      (around_WF 0) old).2 ⟨tri 5 0, by simp, by rw [hit]; norm_num, .inr (by simp [tri,
        TriangleGround.updateBBox, TriangleGround.updateNormal])⟩
    simp only [List.mem_singleton, forall_eq]
    exact ⟨_, _, _, _, _, tri_make 5 0⟩
  · obtain ⟨flag, out, h1, h2⟩ := (C17_query_follows_ids OrderOn.real [tri 1 0, tri 0 10] (by simp)
      (by
        simp only [List.mem_cons, List.not_mem_nil, or_false, forall_eq_or_imp, forall_eq]
        exact ⟨⟨_, _, _, _, _, tri_make 1 0⟩, ⟨_, _, _, _, _, tri_make 0 10⟩⟩)
      (fun _ _ => allTrue) (around 0) (around_WF 0) old).1 (fun _ => tri 0 10) (by
        simp only [List.mem_cons, List.not_mem_nil, or_false, forall_eq_or_imp, forall_eq]
        refine ⟨fun _ => ⟨1, rfl, rfl⟩, fun h => ?_⟩
        rw [hit] at h; norm_num at h)
    refine ⟨flag, ?_⟩
    have : ([tri 1 0, tri 0 10].filter fun t => t.bbox.intersects (around 0)).map (fun _ => tri 0 10) =
        [tri 0 10] := by
      have e1 : (tri 1 0).bbox.intersects (around 0) = true := by rw [hit]; norm_num
      have e2 : (tri 0 10).bbox.intersects (around 0) = false := by rw [hit]; norm_num
      simp [e1, e2]
    rw [this, List.perm_singleton] at h2
    rw [h1, h2]

/-! ## The hypotheses are met -/

/-- C11, C13, C15: a mesh loaded from a text with one triangle; the origin is a point of it, so that
every query box around the origin returns it. -/
example : ∃ m : Mesh ℝ, m.Loaded demoNum ∧ ∃ t ∈ m.triangles,
    InTriangle t.tri.v0 t.tri.v1 t.tri.v2 ⟨0, 0, 0⟩ ∧
    ∃ out, m.query (Demo.around 0) [] = .ok (true, out) ∧ t ∈ out := by
  obtain ⟨m, -, h1, -, h3⟩ := C19_rdf_load demoNum "a".toList _ Affine.id _ _ demo_rdfText
  have hl : m.Loaded demoNum := .inl ⟨_, _, _, h1⟩
  obtain ⟨t, p, q, r, e1, e2, e3, e4, -, -, e5, e6, e7⟩ := h3 0 0 1 2 1 rfl
  have ht : t ∈ m.triangles := List.mem_of_getElem? e1
  simp only [demoNodes, List.getElem?_cons_zero, Option.some.injEq] at e2
  subst e2
  have hp : InTriangle t.tri.v0 t.tri.v1 t.tri.v2 ⟨0, 0, 0⟩ :=
    ⟨1, 0, 0, by norm_num, by norm_num, by norm_num, by norm_num, by
      simp [e5, Affine.apply, Affine.id, M3.mulVec, M3.id, V3.ex, V3.ey, V3.ez, V3.real_add, V3.zeros]⟩
  exact ⟨m, hl, t, ht, hp, C13_touching_triangle_found demoNum m hl _ [] t ht _ hp
    (by simp [InBox, Demo.around])⟩

open Demo in
/-- C16, C17: two triangles carrying their positions as ids, built into a mesh. -/
example : (Mesh.ofTriangles [tri 0 0, tri 1 10]).Consistent ∧
    (tri 0 0).bbox.intersects (around 0) = true := by
  refine ⟨⟨rfl, ?_, ?_⟩, by rw [hit]; norm_num⟩
  · show ∀ t ∈ [tri 0 0, tri 1 10], _
    simp only [List.mem_cons, List.not_mem_nil, or_false, forall_eq_or_imp, forall_eq]
    exact ⟨⟨_, _, _, _, _, tri_make 0 0⟩, ⟨_, _, _, _, _, tri_make 1 10⟩⟩
  · show ∀ (i : Nat) t, [tri 0 0, tri 1 10][i]? = some t → _
    intro i t h
    match i, h with
    | 0, h => simp at h; subst h; rfl
    | 1, h => simp at h; subst h; rfl
    | n + 2, h => simp at h

end Enve
