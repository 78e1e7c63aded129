import Verif.Props.FiniteProps
import Verif.Props.MeshProps
import Verif.Props.DoubleSearchProps

/-! # A triangle with a vertex that is not a number -/

namespace Enve
open Scalar Spec Finite

namespace Spec

/-- The first vertex has a coordinate that is not a number. -/
def BadFirstVertex (t : TriangleGround B64) : Prop := ¬ All3 NotNaN t.tri.v0

end Spec

namespace NaNMesh

theorem nan_of {a : B64} (h : ¬ NotNaN a) : a = ⟨.nan⟩ := by
  obtain ⟨a⟩ := a
  exact congrArg B64.mk (not_not.1 h)

theorem min_left {a b : B64} (h : ¬ NotNaN a) : Scalar.min a b = a := by
  rw [Scalar.min, if_neg]
  exact fun hl => h (lt_notnan hl).2

theorem max_left {a b : B64} (h : ¬ NotNaN a) : Scalar.max a b = a := by
  rw [Scalar.max, if_neg]
  exact fun hl => h (lt_notnan hl).1

theorem min_notnan {a : B64} (b : B64) (h : NotNaN a) : NotNaN (Scalar.min a b) := by
  rw [Scalar.min]; split_ifs with hl
  · exact (lt_notnan hl).1
  · exact h

theorem max_notnan {a : B64} (b : B64) (h : NotNaN a) : NotNaN (Scalar.max a b) := by
  rw [Scalar.max]; split_ifs with hl
  · exact (lt_notnan hl).2
  · exact h

theorem le_refl' {a : B64} (h : NotNaN a) : (a <=. a) = true := by
  rcases OrderOn.b64.total h h with h | h <;> exact h

theorem min_le {a : B64} (b : B64) (h : NotNaN a) : (Scalar.min a b <=. a) = true := by
  rw [Scalar.min]; split_ifs with hl
  · exact Finite.le_of_lt hl
  · exact le_refl' h

theorem le_max {a : B64} (b : B64) (h : NotNaN a) : (a <=. Scalar.max a b) = true := by
  rw [Scalar.max]; split_ifs with hl
  · exact Finite.le_of_lt hl
  · exact le_refl' h

/-- A box with a coordinate of its lower corner that is not a number. -/
def Bad (b : Box B64) : Prop := ¬ All3 NotNaN b.min

theorem bad_intersects {b : Box B64} (h : Bad b) (c : Box B64) : c.intersects b = false := by
  rw [← Bool.not_eq_true, Box.intersects_iff]
  rintro ⟨-, h1, h2, h3⟩
  exact h ⟨le_notnan h1, le_notnan h2, le_notnan h3⟩

theorem bad_step {b : Box B64} (h : Bad b) (c : Box B64) : Bad (Box.mergeStep b c) := by
  have key : ∀ {x y : B64}, NotNaN (if y <. x then y else x) → NotNaN x := by
    intro x y hn
    split_ifs at hn with hl
    · exact (lt_notnan hl).2
    · exact hn
  exact fun hn => h ⟨key hn.x, key hn.y, key hn.z⟩

theorem bad_fold (bs : List (Box B64)) : ∀ {b : Box B64}, Bad b → Bad (bs.foldl Box.mergeStep b) := by
  induction bs with
  | nil => exact fun h => h
  | cons c bs ih => exact fun h => ih (bad_step h c)

theorem bad_update {b : Box B64} (h : Bad b) : Bad b.updateMaxMin := by
  have key : ∀ {x y : B64}, NotNaN (Box.order1 x y).1 → NotNaN x := by
    intro x y hn
    unfold Box.order1 at hn
    split_ifs at hn with hl
    · exact (lt_notnan hl).2
    · exact hn
  exact fun hn => h ⟨key hn.x, key hn.y, key hn.z⟩

theorem bad_tree {b : Box B64} (h : Bad b) (bs : List (Box B64)) :
    ∃ c cs, Tree.build (b :: bs) = .mk (some c) cs ∧ Bad c := by
  cases bs with
  | nil => exact ⟨b, [], by rw [Tree.build], h⟩
  | cons b1 bs =>
    rw [Tree.build]
    refine ⟨_, _, rfl, bad_update ?_⟩
    exact bad_fold (b1 :: bs) (b := ⟨b.min, b.max, 0, 0⟩) h

theorem bad_box {t : TriangleGround B64} (ht : t.Constructed) (h : BadFirstVertex t) : Bad t.bbox := by
  rw [ht.bbox_eq]
  have key : ∀ {x y : B64}, NotNaN (Scalar.min x y) → NotNaN x := by
    intro x y hn
    by_contra hx
    rw [min_left hx] at hn
    exact hx hn
  exact fun hn => h ⟨key hn.x, key hn.y, key hn.z⟩

theorem clamp_WF (b : Box B64) {p : V3 B64} (q r : V3 B64) (hp : All3 NotNaN p) :
    (b.clamp p q r).WF (fun a : B64 => a.val ≠ .nan) := by
  have h : ∀ {a : B64} (b : B64) (c : B64), NotNaN a → (Scalar.min a b <=. Scalar.max a c) = true := fun b c ha =>
    OrderOn.b64.trans (min_notnan b ha) ha (max_notnan c ha) (min_le b ha) (le_max c ha)
  exact ⟨⟨min_notnan _ hp.x, min_notnan _ hp.y, min_notnan _ hp.z⟩,
    ⟨max_notnan _ hp.x, max_notnan _ hp.y, max_notnan _ hp.z⟩, ⟨h _ _ hp.x, h _ _ hp.y, h _ _ hp.z⟩⟩

end NaNMesh

open NaNMesh

/-- **C119, refuted.**  One triangle hides all others: in a mesh read from a file whose first triangle has a first
vertex with a coordinate that is not a number, no query finds any triangle, and no setup finds contact: the outcome is
that of a ground that is not there. -/
theorem C119_first_refuted (np : NumParse B64) (m : Mesh B64) (hm : m.Loaded np) (t : TriangleGround B64)
    (h0 : m.triangles[0]? = some t) (hbad : BadFirstVertex t) :
    (∀ q old, m.query q old = .ok (false, [])) ∧
    ∀ (pol : Policy) (s s' : Shell B64) (pose : Affine B64) (method : String) (b : Bool),
      s.setupMesh pol m pose method = .ok s' b → b = false := by
  obtain ⟨hcons, hne⟩ := hm.consistent
  have htree : m.tree = Tree.build (m.triangles.map (·.bbox)) := by
    conv_lhs => rw [hcons.built]
    rfl
  obtain ⟨ts, hts⟩ : ∃ ts, m.triangles = t :: ts := by
    cases e : m.triangles with
    | nil => exact absurd e hne
    | cons a as => rw [e] at h0; simp at h0; exact ⟨as, by rw [h0]⟩
  have hc := hcons.constructed t (by rw [hts]; simp)
  obtain ⟨c, cs, e, hb⟩ := bad_tree (bad_box hc hbad) (ts.map (·.bbox))
  have hq : ∀ q, m.intersection q = .ok [] := by
    intro q
    rw [Mesh.intersection, htree, hts, List.map_cons, e, Tree.build, Tree.inter_disjoint (bad_intersects hb q)]
    rfl
  refine ⟨fun q old => by simp [Mesh.query, hq], ?_⟩
  intro pol s s' pose method b h
  unfold Shell.setupMesh at h
  dsimp only at h
  rw [hq] at h
  cases b with
  | false => rfl
  | true =>
    simp only [List.length_nil, Nat.lt_one_iff, if_true] at h
    unfold Shell.withOut at h
    split at h
    · rename_i out b' e'
      simp only [MRes.ok.injEq] at h
      obtain ⟨-, rfl⟩ := h
      rcases ribLoop_flag (by simp) _ _ _ _ _ e' with h | ⟨j, r, -, o, e⟩
      · simp at h
      · simp at e
    · simp at h
    · simp at h

/-- **C119, partial**: on a mesh read from a file in which the first vertex of every triangle has no NaN coordinate
the query is exact, whatever the other vertices are: a triangle with a second or third vertex that is not a number
hides no other triangle. -/
theorem C119_others_partial (np : NumParse B64) (m : Mesh B64) (hm : m.Loaded np)
    (hv : ∀ t ∈ m.triangles, ¬ BadFirstVertex t) (q : Box B64) (hq : q.WF (fun a : B64 => a.val ≠ .nan))
    (old : List (TriangleGround B64)) :
    ∃ flag out, m.query q old = .ok (flag, out) ∧ out.Perm (m.triangles.filter fun t => t.bbox.intersects q) := by
  obtain ⟨hcons, hne⟩ := hm.consistent
  have htree : m.tree = Tree.build (m.triangles.map (·.bbox)) := by
    conv_lhs => rw [hcons.built]
    rfl
  have hwf : ∀ t ∈ m.triangles, t.bbox.WF (fun a : B64 => a.val ≠ .nan) := by
    intro t ht
    rw [(hcons.constructed t ht).bbox_eq]
    exact clamp_WF _ _ _ (not_not.1 (hv t ht))
  obtain ⟨pairs, h1, h2⟩ := Mesh.intersection_lookups OrderOn.b64 m m.triangles htree hne hwf q hq
  obtain ⟨t0, ht0⟩ := List.exists_mem_of_ne_nil _ hne
  let f : Box B64 → TriangleGround B64 := fun b => (m.triangles[b.id.toNat]?).getD t0
  have hf : ∀ t ∈ m.triangles, m.ptrTriangleground t.bbox.id = .ok t ∧ f t.bbox = t := by
    intro t ht
    obtain ⟨i, hi, rfl⟩ := List.getElem_of_mem ht
    have hi' : m.triangles[i]? = some m.triangles[i] := List.getElem?_eq_getElem hi
    have hid := hcons.ids i _ hi'
    rw [(hcons.constructed _ ht).bbox_id, hid]
    refine ⟨?_, ?_⟩
    · simp only [Mesh.ptrTriangleground, Int.natCast_nonneg, if_true, Int.toNat_natCast, hi']
    · simp only [f, (hcons.constructed _ ht).bbox_id, hid, Int.toNat_natCast, hi', Option.getD_some]
  have hlook : ∀ p ∈ pairs, m.ptrTriangleground p.1.id = .ok (f p.1) := by
    intro p hp
    obtain ⟨t, ht, rfl⟩ := List.mem_map.1 (h2.subset hp)
    rw [(hf t (List.mem_filter.1 ht).1).1, (hf t (List.mem_filter.1 ht).1).2]
  refine ⟨decide (0 < pairs.length), pairs.map fun p => f p.1, by simp [Mesh.query, h1, Mesh.lookupAll_ok m f pairs hlook], ?_⟩
  refine (h2.map fun p => f p.1).trans ?_
  rw [List.map_map]
  refine List.Perm.of_eq ((List.map_congr_left (g := id) fun t ht => ?_).trans (List.map_id _))
  exact (hf t (List.mem_filter.mp ht).1).2

end Enve
