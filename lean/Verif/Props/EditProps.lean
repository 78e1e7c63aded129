import Verif.Props.MovedProps
import Verif.Spec.Edit

/-! # Ground objects changed after construction: C90, C91; access by index: C92 -/

namespace Enve
open Scalar Spec
variable {α : Type} [Scalar α]

/-! ## C90: ground triangles -/

/-- An operation other than `copy`. -/
def TriangleGround.Edit.IsCopy : TriangleGround.Edit α → Prop
  | .copy _ => True
  | _ => False

/-- **C90, what is never updated.**  For every scalar type: no sequence of operations without `copy` changes the
id, the friction, the normal or the box a ground triangle reports, whatever it does to the vertices. -/
theorem C90_frozen {t t' : TriangleGround α} {es : List (TriangleGround.Edit α)} (h : t.edits es = .ok t')
    (hes : ∀ e ∈ es, ¬ e.IsCopy) :
    t'.id = t.id ∧ t'.friction = t.friction ∧ t'.normal = t.normal ∧ t'.bbox = t.bbox := by
  induction es generalizing t with
  | nil => cases h; exact ⟨rfl, rfl, rfl, rfl⟩
  | cons e es ih =>
    rw [TriangleGround.edits, Res.bind_eq_ok] at h
    obtain ⟨u, hu, h⟩ := h
    obtain ⟨h1, h2, h3, h4⟩ := ih h fun e' he' => hes e' (List.mem_cons_of_mem _ he')
    rw [h1, h2, h3, h4]
    have hne := hes e (by simp)
    cases e with
    | copy o => exact absurd trivial hne
    | swap i j =>
      simp only [TriangleGround.edit, Res.bind_eq_ok] at hu
      obtain ⟨_, -, hu⟩ := hu
      cases hu; exact ⟨rfl, rfl, rfl, rfl⟩
    | write i p =>
      simp only [TriangleGround.edit, Res.bind_eq_ok] at hu
      obtain ⟨_, -, hu⟩ := hu
      cases hu; exact ⟨rfl, rfl, rfl, rfl⟩
    | _ => cases hu; exact ⟨rfl, rfl, rfl, rfl⟩

theorem Spec.NotCollinear.cross_ne {p q r : V3 ℝ} (h : NotCollinear p q r) :
    V3.cross (V3.sub q p) (V3.sub r p) ≠ ⟨0, 0, 0⟩ := by
  intro hc
  apply h
  rw [V3.real_sub, V3.real_sub, V3.real_cross, V3.mk.injEq] at hc
  obtain ⟨h1, h2, h3⟩ := hc
  by_cases hd : (q.x - p.x) ^ 2 + (q.y - p.y) ^ 2 + (q.z - p.z) ^ 2 = 0
  · have a1 : q.x = p.x := by nlinarith [sq_nonneg (q.x - p.x), sq_nonneg (q.y - p.y), sq_nonneg (q.z - p.z)]
    have a2 : q.y = p.y := by nlinarith [sq_nonneg (q.x - p.x), sq_nonneg (q.y - p.y), sq_nonneg (q.z - p.z)]
    have a3 : q.z = p.z := by nlinarith [sq_nonneg (q.x - p.x), sq_nonneg (q.y - p.y), sq_nonneg (q.z - p.z)]
    refine ⟨p, minus r p, 0, 0, 1, ?_, ?_, ?_⟩ <;> ext <;> simp [along, minus, a1, a2, a3]
  · refine ⟨p, minus q p, 0, 1, dot3 (minus r p) (minus q p) /
      ((q.x - p.x) ^ 2 + (q.y - p.y) ^ 2 + (q.z - p.z) ^ 2), ?_, ?_, ?_⟩
    · simp [along]
    · simp [along, minus]
    · ext <;> simp only [along, minus, dot3] <;> rw [← sub_eq_iff_eq_add', div_mul_eq_mul_div, eq_div_iff hd]
      · linear_combination (q.z - p.z) * h2 - (q.y - p.y) * h3
      · linear_combination (q.x - p.x) * h3 - (q.z - p.z) * h1
      · linear_combination (q.y - p.y) * h1 - (q.x - p.x) * h2

/-- **C90, construction.**  A ground triangle constructed from three points that are not on one line is consistent. -/
theorem C90_constructed {id : Int} {f : ℝ} {p q r : V3 ℝ} {t : TriangleGround ℝ}
    (h : TriangleGround.make id f p q r = .ok t) (hnc : NotCollinear p q r) : Consistent t := by
  obtain ⟨n1, n2, n3, n4, n5⟩ := C26_triangle_normal id f p q r t h hnc.cross_ne
  obtain ⟨-, -, htri, hin, b1, b2, b3, b4, b5, b6⟩ := C27_triangle_box id f p q r t h
  have e : corners t.tri = [p, q, r] := by rw [htri]; rfl
  refine ⟨⟨n1, ?_, n5⟩, ⟨?_, ?_, ?_, ?_, ?_, ?_, ?_⟩⟩
  · rw [V3.real_sub] at n2 n3 n4
    rw [e]
    simp only [List.mem_cons, List.not_mem_nil, or_false, dot3, minus] at n2 n3 n4 ⊢
    rintro u (rfl | rfl | rfl) v (rfl | rfl | rfl) <;> linarith
  · rw [e]
    intro v hv
    apply hin
    simp only [List.mem_cons, List.not_mem_nil, or_false] at hv
    rcases hv with rfl | rfl | rfl
    · exact ⟨1, 0, 0, by simp⟩
    · exact ⟨0, 1, 0, by simp⟩
    · exact ⟨0, 0, 1, by simp⟩
  all_goals rw [e]; assumption

theorem Spec.SmallestBox.perm {lo hi : V3 ℝ} {l l' : List (V3 ℝ)} (h : SmallestBox lo hi l) (hp : ∀ v, v ∈ l ↔ v ∈ l') :
    SmallestBox lo hi l' := by
  refine ⟨fun v hv => h.contains v ((hp v).2 hv), ?_, ?_, ?_, ?_, ?_, ?_⟩
  · obtain ⟨v, hv, e⟩ := h.minx; exact ⟨v, (hp v).1 hv, e⟩
  · obtain ⟨v, hv, e⟩ := h.miny; exact ⟨v, (hp v).1 hv, e⟩
  · obtain ⟨v, hv, e⟩ := h.minz; exact ⟨v, (hp v).1 hv, e⟩
  · obtain ⟨v, hv, e⟩ := h.maxx; exact ⟨v, (hp v).1 hv, e⟩
  · obtain ⟨v, hv, e⟩ := h.maxy; exact ⟨v, (hp v).1 hv, e⟩
  · obtain ⟨v, hv, e⟩ := h.maxz; exact ⟨v, (hp v).1 hv, e⟩

theorem Spec.Consistent.perm {t : TriangleGround ℝ} (h : Consistent t) {tri : Triangle ℝ}
    (hp : ∀ v, v ∈ corners t.tri ↔ v ∈ corners tri) : Consistent { t with tri := tri } :=
  ⟨⟨h.normal.unit, fun u hu v hv => h.normal.orth u ((hp u).2 hu) v ((hp v).2 hv), h.normal.up⟩, h.box.perm hp⟩

theorem index3 {i : Int} (h0 : 0 ≤ i) (h : i < 3) : i = 0 ∨ i = 1 ∨ i = 2 := by omega

/-- `swap` with two indices of the triangle exchanges these vertices. -/
theorem Triangle.swap_corners (t : Triangle ℝ) {i j : Int} (hi : 0 ≤ i ∧ i < 3) (hj : 0 ≤ j ∧ j < 3) :
    ∃ t', t.swap i j = .ok t' ∧ ∀ v, v ∈ corners t ↔ v ∈ corners t' := by
  rcases index3 hi.1 hi.2 with rfl | rfl | rfl <;> rcases index3 hj.1 hj.2 with rfl | rfl | rfl <;>
    refine ⟨_, by simp [Triangle.swap, Triangle.raw, Triangle.rawSet]; rfl, fun v => ?_⟩ <;>
    simp only [corners, List.mem_cons, List.not_mem_nil, or_false] <;> tauto

/-- **C90, translations.**  After a translation of a consistent ground triangle the reported normal still fits the
vertices; the reported box fits them only if the translation is by zero. -/
theorem C90_translate {t : TriangleGround ℝ} (h : Consistent t) (v : V3 ℝ) :
    ∃ t', t.edit (.translate v) = .ok t' ∧ t'.tri = t.tri.translate v ∧ UpNormal t'.normal t'.tri ∧
      (SmallestBox t'.bbox.min t'.bbox.max (corners t'.tri) ↔ v = ⟨0, 0, 0⟩) := by
  refine ⟨_, rfl, rfl, ⟨h.normal.unit, ?_, h.normal.up⟩, ?_⟩
  · have ho := h.normal.orth
    simp only [corners, List.mem_cons, List.not_mem_nil, or_false, Triangle.translate] at ho ⊢
    have key : ∀ a b : V3 ℝ, dot3 t.normal (minus (V3.add v a) (V3.add v b)) = dot3 t.normal (minus a b) := by
      intro a b
      rw [V3.real_add, V3.real_add]
      simp only [dot3, minus]; ring
    rintro a (rfl | rfl | rfl) b (rfl | rfl | rfl) <;> rw [key] <;> apply ho <;> simp
  · have hc : corners (t.tri.translate v) = (corners t.tri).map fun p => V3.add v p := rfl
    constructor
    · intro hb
      show v = ⟨0, 0, 0⟩
      have hb' : SmallestBox t.bbox.min t.bbox.max (corners (t.tri.translate v)) := hb
      rw [hc] at hb'
      have hin : ∀ p ∈ corners t.tri, InBox t.bbox.min t.bbox.max (V3.add v p) := fun p hp =>
        hb'.contains _ (List.mem_map_of_mem hp)
      simp only [V3.real_add, InBox] at hin
      obtain ⟨p1, m1, e1⟩ := h.box.minx
      obtain ⟨p2, m2, e2⟩ := h.box.miny
      obtain ⟨p3, m3, e3⟩ := h.box.minz
      obtain ⟨p4, m4, e4⟩ := h.box.maxx
      obtain ⟨p5, m5, e5⟩ := h.box.maxy
      obtain ⟨p6, m6, e6⟩ := h.box.maxz
      have := hin p1 m1
      have := hin p2 m2
      have := hin p3 m3
      have := hin p4 m4
      have := hin p5 m5
      have := hin p6 m6
      ext <;> dsimp only <;> linarith
    · rintro rfl
      show SmallestBox t.bbox.min t.bbox.max _
      rw [hc]
      have : ((corners t.tri).map fun p => V3.add ⟨0, 0, 0⟩ p) = corners t.tri := by
        simp [corners, V3.real_add]
      rw [this]
      exact h.box

/-- The operations that keep a ground triangle consistent: exchanging two of its vertices and copying a consistent
ground triangle into it. -/
def Spec.SafeEdit : TriangleGround.Edit ℝ → Prop
  | .swap i j => (0 ≤ i ∧ i < 3) ∧ (0 ≤ j ∧ j < 3)
  | .copy other => Consistent other
  | _ => False

/-- **C90 (partial).**  Any sequence of safe operations on a consistent ground triangle succeeds and leaves it
consistent.  Missing: the other operations, which change the vertices but neither normal nor box (`C90_frozen`,
`C90_translate`, `C90_search_refuted`, `C90_normal_refuted`). -/
theorem C90_safe_partial {t : TriangleGround ℝ} (h : Consistent t) (es : List (TriangleGround.Edit ℝ))
    (hes : ∀ e ∈ es, SafeEdit e) : ∃ t', t.edits es = .ok t' ∧ Consistent t' := by
  induction es generalizing t with
  | nil => exact ⟨t, rfl, h⟩
  | cons e es ih =>
    have hs := hes e (by simp)
    have hes' := fun e' he' => hes e' (List.mem_cons_of_mem _ he')
    obtain ⟨u, hu, hc⟩ : ∃ u, t.edit e = .ok u ∧ Consistent u := by
      cases e with
      | swap i j =>
        obtain ⟨tri, e1, e2⟩ := t.tri.swap_corners hs.1 hs.2
        exact ⟨{ t with tri := tri }, by simp [TriangleGround.edit, e1], h.perm e2⟩
      | copy o => exact ⟨_, rfl, ⟨hs.normal, hs.box⟩⟩
      | _ => exact hs.elim
    obtain ⟨t', e1, e2⟩ := ih hc hes'
    exact ⟨t', by rw [TriangleGround.edits, hu, Res.bind_ok]; exact e1, e2⟩

/-- The field of `Demo.field`, constructed 100 m higher. -/
noncomputable def Demo.highField : TriangleGround ℝ :=
  TriangleGround.updateBBox (TriangleGround.updateNormal
    ⟨⟨⟨0, 10, 100⟩, ⟨-30, -10, 100⟩, ⟨30, -10, 100⟩⟩, 0, 1, V3.nan, Box.default⟩)

theorem Demo.highField_make :
    TriangleGround.make 0 (1 : ℝ) ⟨0, 10, 100⟩ ⟨-30, -10, 100⟩ ⟨30, -10, 100⟩ = .ok Demo.highField := by
  simp [TriangleGround.make, Demo.highField]

theorem Demo.level_notCollinear (z : ℝ) : NotCollinear ⟨0, 10, z⟩ ⟨-30, -10, z⟩ ⟨30, -10, z⟩ := by
  rintro ⟨o, d, a, b, c, h1, h2, h3⟩
  simp only [along, V3.mk.injEq] at h1 h2 h3
  have e1 : (b - c) * d.x = -60 := by linarith [h2.1, h3.1]
  have e2 : (b - c) * d.y = 0 := by linarith [h2.2.1, h3.2.1]
  have e3 : (a - b) * d.y = 20 := by linarith [h1.2.1, h2.2.1]
  rcases mul_eq_zero.1 e2 with h | h
  · rw [h] at e1; norm_num at e1
  · rw [h] at e3; norm_num at e3

theorem Demo.highField_consistent : Consistent Demo.highField :=
  C90_constructed Demo.highField_make (Demo.level_notCollinear 100)

/-- The high field, lowered by 100 m. -/
noncomputable def Demo.loweredField : TriangleGround ℝ :=
  { Demo.highField with tri := Demo.highField.tri.translate ⟨0, 0, -100⟩ }

theorem Demo.loweredField_edits : Demo.highField.edits [.translate ⟨0, 0, -100⟩] = .ok Demo.loweredField := rfl

theorem Demo.loweredField_tri : Demo.loweredField.tri = Demo.field.tri := by
  show (Triangle.mk _ _ _).translate _ = Triangle.mk _ _ _
  simp only [Triangle.translate, V3.real_add]
  norm_num

/-- **C90 is false**, with its consequence for contacts: a ground triangle constructed away from the tyre and then
translated under it keeps its old box.  A mesh made of it is found empty around the tyre, and the setup reports no
contact, although the same setup on a triangle constructed from the same vertices, id and friction reports contact. -/
theorem C90_search_refuted (fresh : Nat → Output ℝ) : ∃ (built edited new : TriangleGround ℝ) (s sA sB : Shell ℝ),
    TriangleGround.make 0 (1 : ℝ) ⟨0, 10, 100⟩ ⟨-30, -10, 100⟩ ⟨30, -10, 100⟩ = .ok built ∧ Consistent built ∧
    built.edits [.translate ⟨0, 0, -100⟩] = .ok edited ∧ ¬ Consistent edited ∧
    TriangleGround.make edited.id edited.friction edited.tri.v0 edited.tri.v1 edited.tri.v2 = .ok new ∧
    s.Reachable .raw ∧
    s.setupMesh .raw (Mesh.ofTriangles [new]) (Demo.upright (1 / 2)) "geometric" = .ok sA true ∧
    s.setupMesh .raw (Mesh.ofTriangles [edited]) (Demo.upright (1 / 2)) "geometric" = .ok sB false := by
  obtain ⟨s, sA, a, o, hreach, hshape, hsz, hA, -⟩ := Demo.oneRib_on_field fresh
  have hmk : TriangleGround.make Demo.loweredField.id Demo.loweredField.friction Demo.loweredField.tri.v0
      Demo.loweredField.tri.v1 Demo.loweredField.tri.v2 = .ok Demo.field := by
    rw [Demo.loweredField_tri]; exact Demo.field_make
  have hlo : Demo.loweredField.bbox.min.z = 100 := by
    show Demo.highField.bbox.min.z = 100
    simp [Demo.highField, TriangleGround.updateBBox, TriangleGround.updateNormal, Box.clamp]
  have hhi : Demo.loweredField.bbox.max.z = 100 := by
    show Demo.highField.bbox.max.z = 100
    simp [Demo.highField, TriangleGround.updateBBox, TriangleGround.updateNormal, Box.clamp]
  have hwf := Shell.updateBBox_WF (s.transform (Demo.upright (1 / 2)))
  have hfollow := Shell.updateBBox_follows (s.transform (Demo.upright (1 / 2)))
    (show 0 ≤ s.shape.rx by rw [hshape]; norm_num)
  have hbWF : Demo.loweredField.bbox.WF (fun _ : ℝ => True) := by
    show Demo.highField.bbox.WF _
    have hc : Demo.highField.Constructed := ⟨_, _, _, _, _, Demo.highField_make⟩
    exact hc.bbox_WF OrderOn.real Demo.allTrue.1 Demo.allTrue.2.1 Demo.allTrue.2.2
  obtain ⟨pairs, h1, h2⟩ := Mesh.intersection_lookups OrderOn.real (Mesh.ofTriangles [Demo.loweredField])
    [Demo.loweredField] rfl (by simp) (by simpa using hbWF) _ ((Box.real_WF _).2 hwf)
  have hfar : Demo.loweredField.bbox.intersects (s.transform (Demo.upright (1 / 2))).updateBBox.bbox = false := by
    have hmax : (s.transform (Demo.upright (1 / 2))).updateBBox.bbox.max.z = 3 / 2 := by
      rw [hfollow.2]
      simp [Shell.transform, Shell.updateBBox, Demo.upright, hshape]
      norm_num
    rw [Bool.eq_false_iff]
    intro hc
    rw [Box.intersects_iff] at hc
    simp only [V3.Le, real_le, decide_eq_true_eq] at hc
    obtain ⟨⟨-, -, h1⟩, -, -, h2⟩ := hc
    linarith
  rw [List.filter_cons_of_neg (by rw [hfar]; simp), List.filter_nil, List.map_nil, List.perm_nil] at h2
  subst h2
  have hset := Shell.setupMesh_none (pol := .raw) (method := "geometric") (s := s) (pose := Demo.upright (1 / 2))
    (h1.trans rfl)
  have hacc : ∀ j < s.ribs.length, s.out.accessible .raw (0 + j) = true := fun i hi => by
    rw [Shell.accessible_raw hreach.inv]
    have : s.ribs.length = 1 := hsz
    exact decide_eq_true (by omega)
  obtain ⟨out', b', hl⟩ := Shell.ribLoop_total (comb := fun _ _ => false) (b := false)
    (f := fun _ r => .ok (false, r.noContact (Demo.upright (1 / 2)))) hacc (fun j r _ => ⟨_, rfl⟩)
  rw [hl] at hset
  obtain ⟨flags, recs, k1, k2⟩ := C38_mesh_flag .raw s _ hreach _ _ "geometric" [] b' (h1.trans rfl) hset
  have hb : b' = false := by
    cases b' with
    | false => rfl
    | true =>
      obtain ⟨i, hi, hf⟩ := k2.1 rfl
      obtain ⟨r, -, e, -⟩ := k1 i hi
      have e : Res.ok (false, r.noContact (Demo.upright (1 / 2))) = Res.ok (flags i, recs i) := e
      have e := (Prod.mk.inj (Res.ok.inj e)).1
      rw [hf] at e
      cases e
  subst hb
  refine ⟨Demo.highField, Demo.loweredField, Demo.field, s, sA, _, Demo.highField_make, Demo.highField_consistent,
    Demo.loweredField_edits, fun hc => ?_, hmk, hreach, hA, hset⟩
  have := hc.box.contains Demo.loweredField.tri.v0 (by simp [corners])
  rw [Demo.loweredField_tri] at this
  have : Demo.loweredField.bbox.min.z ≤ 0 := this.2.2.1
  rw [hlo] at this
  norm_num at this

/-- **C90 is false for the normal**: after a quarter turn about the x axis the field stands upright but still reports
the vertical normal, which is not a normal of the turned triangle. -/
theorem C90_normal_refuted : ∃ (m : Affine ℝ) (t' : TriangleGround ℝ), IsRigid m ∧ Consistent Demo.field ∧
    Demo.field.edits [.transform m] = .ok t' ∧ t'.normal = ⟨0, 0, 1⟩ ∧ ¬ UpNormal t'.normal t'.tri ∧
    UpNormal ⟨0, 1, 0⟩ t'.tri := by
  have hn : Demo.field.normal = ⟨0, 0, 1⟩ := by
    have hcr : V3.cross (V3.sub (⟨-30, -10, 0⟩ : V3 ℝ) ⟨0, 10, 0⟩) (V3.sub ⟨30, -10, 0⟩ ⟨0, 10, 0⟩) = ⟨0, 0, 1200⟩ := by
      rw [V3.real_sub, V3.real_sub, V3.real_cross]; norm_num
    have hnn : V3.normalized (⟨0, 0, 1200⟩ : V3 ℝ) = ⟨0, 0, 1⟩ := by
      rw [V3.normalized_of_ne (by simp)]
      have : V3.norm (⟨0, 0, 1200⟩ : V3 ℝ) = 1200 := by
        rw [V3.real_norm, show (0 : ℝ) * 0 + 0 * 0 + 1200 * 1200 = 1200 ^ 2 by norm_num, Real.sqrt_sq (by norm_num)]
      rw [this]; norm_num
    simp only [Demo.field, TriangleGround.updateBBox, TriangleGround.updateNormal, Triangle.normal, hcr, hnn, real_lt,
      real_zero]
    norm_num
  refine ⟨⟨⟨⟨1, 0, 0⟩, ⟨0, 0, 1⟩, ⟨0, -1, 0⟩⟩, ⟨0, 0, 0⟩⟩, _, ⟨by norm_num, by norm_num, by norm_num, by norm_num, by norm_num,
    by norm_num, by norm_num⟩, C90_constructed Demo.field_make (Demo.level_notCollinear 0), rfl, hn, fun h => ?_, ?_⟩
  · have := h.orth _ (.head _) _ (.tail _ (.head _))
    rw [hn] at this
    simp only [Demo.field, TriangleGround.updateBBox, TriangleGround.updateNormal, Triangle.transform, dot3, minus] at this
    simp only [Affine.apply, V3.real_add, M3.mulVec, real_add, real_mul] at this
    norm_num at this
  · refine ⟨by simp [length3], ?_, le_refl _⟩
    simp only [Demo.field, TriangleGround.updateBBox, TriangleGround.updateNormal, Triangle.transform, dot3, minus,
      corners, List.mem_cons, List.not_mem_nil, or_false]
    simp only [Affine.apply, V3.real_add, M3.mulVec, real_add, real_mul]
    rintro u (rfl | rfl | rfl) v (rfl | rfl | rfl) <;> norm_num

/-! ## C91: flat grounds -/

theorem length3_eq_one {a : V3 ℝ} : length3 a = 1 ↔ Unit3 a := Real.sqrt_eq_one

/-- **C91, construction.**  A flat ground has been accepted by the constructors with its present data exactly when its
friction is not negative and its normal is an upward unit vector. -/
theorem C91_good_iff (g : Flat ℝ) :
    GoodFlat g ↔ Flat.make g.friction g.plane.origin g.plane.normal = .ok g := by
  constructor
  · intro h
    have hn : V3.normalized g.plane.normal = g.plane.normal := V3.normalized_unit (length3_eq_one.1 h.unit)
    simp only [Flat.make, real_le, real_lt, real_zero, h.friction, h.up, decide_true, Res.assert_true, Res.bind_ok,
      Res.pure_eq, Plane.normalize, hn]
  · intro h
    obtain ⟨h1, h2, -, -⟩ := C26_flat_normal _ _ _ g h
    have h3 := ((C25_flat_friction _ _ _).2.2 g h).2
    exact ⟨by simpa using h3, h1, h2⟩

/-- Every flat ground the constructors return is good. -/
theorem C91_constructed {f : ℝ} {o n : V3 ℝ} {g : Flat ℝ} (h : Flat.make f o n = .ok g) : GoodFlat g := by
  obtain ⟨h1, h2, -, -⟩ := C26_flat_normal _ _ _ g h
  have h3 := ((C25_flat_friction _ _ _).2.2 g h).2
  exact ⟨by simpa using h3, h1, h2⟩

/-- What an operation must satisfy to keep a flat ground with normal `n` good. -/
def Spec.KeepsGood (n : V3 ℝ) : Flat.Edit ℝ → Prop
  | .setFriction f => 0 ≤ f
  | .setOrigin _ => True
  | .setNormal m => length3 m = 1 ∧ 0 < m.z
  | .setPlane q => length3 q.normal = 1 ∧ 0 < q.normal.z
  | .normalize => True
  | .reverse => False
  | .translate _ => True
  | .transform m => length3 (M3.mulVec m.linear n) = 1 ∧ 0 < (M3.mulVec m.linear n).z
  | .rotate a u => length3 (M3.mulVec (M3.ofAngleAxis a u) n) = 1 ∧ 0 < (M3.mulVec (M3.ofAngleAxis a u) n).z
  | .copy other => 0 ≤ other.friction ∧ 0 < other.plane.normal.z

theorem Affine.id_rotate_linear (m : M3 ℝ) : (Affine.id.rotate m).linear = m := by
  simp [Affine.rotate, Affine.id, M3.mul, M3.id, M3.mulVec, V3.ex, V3.ey, V3.ez]

/-- **C91, every operation.**  One operation on a good flat ground leaves it good exactly under the stated condition:
`reverse` never does, `normalize`, `translate` and a new origin always do. -/
theorem C91_edit_iff {g : Flat ℝ} (hg : GoodFlat g) (e : Flat.Edit ℝ) :
    GoodFlat (g.edit e) ↔ KeepsGood g.plane.normal e := by
  cases e with
  | setFriction f => exact ⟨fun h => h.friction, fun h => ⟨h, hg.unit, hg.up⟩⟩
  | setOrigin p => exact ⟨fun _ => trivial, fun _ => ⟨hg.friction, hg.unit, hg.up⟩⟩
  | setNormal n => exact ⟨fun h => ⟨h.unit, h.up⟩, fun h => ⟨hg.friction, h.1, h.2⟩⟩
  | setPlane q => exact ⟨fun h => ⟨h.unit, h.up⟩, fun h => ⟨hg.friction, h.1, h.2⟩⟩
  | normalize =>
    refine ⟨fun _ => trivial, fun _ => ?_⟩
    have : (g.edit .normalize) = g := by
      have hn : V3.normalized g.plane.normal = g.plane.normal := V3.normalized_unit (length3_eq_one.1 hg.unit)
      simp only [Flat.edit, Plane.normalize, hn]
    rw [this]; exact hg
  | reverse =>
    refine ⟨fun h => ?_, fun h => h.elim⟩
    have h1 := h.up
    have h2 := hg.up
    simp only [Flat.edit, Plane.reverse, V3.real_neg] at h1
    linarith
  | translate v => exact ⟨fun _ => trivial, fun _ => ⟨hg.friction, hg.unit, hg.up⟩⟩
  | transform m => exact ⟨fun h => ⟨h.unit, h.up⟩, fun h => ⟨hg.friction, h.1, h.2⟩⟩
  | rotate a u =>
    have e : ((g.edit (.rotate a u)).plane.normal) = M3.mulVec (M3.ofAngleAxis a u) g.plane.normal := by
      show M3.mulVec (Affine.id.rotate (M3.ofAngleAxis a u)).linear g.plane.normal = _
      rw [Affine.id_rotate_linear]
    constructor
    · intro h; have h1 := h.unit; have h2 := h.up; rw [e] at h1 h2; exact ⟨h1, h2⟩
    · intro h; exact ⟨hg.friction, by rw [e]; exact h.1, by rw [e]; exact h.2⟩
  | copy other =>
    have hne : 0 < other.plane.normal.z → other.plane.normal ≠ ⟨0, 0, 0⟩ := fun h h' => by rw [h'] at h; simp at h
    constructor
    · intro h
      refine ⟨h.friction, ?_⟩
      by_contra hc
      have h2 : 0 < (V3.normalized other.plane.normal).z := h.up
      by_cases h0 : other.plane.normal = ⟨0, 0, 0⟩
      · rw [V3.normalized_zero h0, h0] at h2; simp at h2
      · obtain ⟨k, hk, e⟩ := V3.normalized_eq_smul h0
        rw [e] at h2
        push Not at hc
        nlinarith
    · intro h
      obtain ⟨k, hk, e⟩ := V3.normalized_eq_smul (hne h.2)
      refine ⟨h.1, length3_eq_one.2 (V3.sq_normalized (hne h.2)), ?_⟩
      show 0 < (V3.normalized other.plane.normal).z
      rw [e]; exact mul_pos hk h.2

/-- Operations that keep every good flat ground good. -/
def Spec.SafeFlatEdit : Flat.Edit ℝ → Prop
  | .setFriction f => 0 ≤ f
  | .setOrigin _ => True
  | .setNormal m => length3 m = 1 ∧ 0 < m.z
  | .setPlane q => length3 q.normal = 1 ∧ 0 < q.normal.z
  | .normalize => True
  | .reverse => False
  | .translate _ => True
  | .transform m => IsRigid m ∧ m.linear.c2 = ⟨0, 0, 1⟩
  | .rotate _ u => u = ⟨0, 0, 1⟩
  | .copy other => 0 ≤ other.friction ∧ 0 < other.plane.normal.z

theorem Spec.IsRotation.vertical {m : M3 ℝ} (hm : IsRotation m) (hv : m.c2 = ⟨0, 0, 1⟩) {n : V3 ℝ} (hn : length3 n = 1)
    (hz : 0 < n.z) : length3 (M3.mulVec m n) = 1 ∧ 0 < (M3.mulVec m n).z := by
  refine ⟨?_, ?_⟩
  · refine length3_eq_one.2 (V3.norm_eq_one.1 ?_)
    rw [IsRotation.norm_mulVec hm]
    exact V3.norm_eq_one.2 (length3_eq_one.1 hn)
  · have h0 := hm.orth02
    have h1 := hm.orth12
    rw [hv] at h0 h1
    simp only [M3.mulVec, real_add, real_mul, hv]
    norm_num at h0 h1
    rw [h0, h1]
    linarith

/-- **C91 (partial).**  Any sequence of safe operations on a good flat ground leaves it good, so that everything proved
about constructed flat grounds holds of it: it is the ground the constructor returns for its present data.  Missing: the
other operations, none of which is checked (`C91_edit_iff`, `C91_friction_refuted`, `C91_reverse_refuted`). -/
theorem C91_safe_partial {g : Flat ℝ} (hg : GoodFlat g) (es : List (Flat.Edit ℝ)) (hes : ∀ e ∈ es, SafeFlatEdit e) :
    GoodFlat (g.edits es) ∧ Flat.make (g.edits es).friction (g.edits es).plane.origin (g.edits es).plane.normal =
      .ok (g.edits es) := by
  suffices h : GoodFlat (g.edits es) from ⟨h, (C91_good_iff _).1 h⟩
  induction es generalizing g with
  | nil => exact hg
  | cons e es ih =>
    refine ih (g := g.edit e) ((C91_edit_iff hg e).2 ?_) fun e' he' => hes e' (List.mem_cons_of_mem _ he')
    have hs := hes e (by simp)
    cases e with
    | transform m => exact IsRotation.vertical hs.1 hs.2 hg.unit hg.up
    | rotate a u =>
      have hu : u = ⟨0, 0, 1⟩ := hs
      subst hu
      refine IsRotation.vertical (isRotation_angleAxis a _ (by simp [length3])) ?_ hg.unit hg.up
      simp [M3.ofAngleAxis]
    | _ => exact hs

/-! ### What a reversed ground does to contacts -/

theorem V3.normalized_neg (a : V3 ℝ) : V3.normalized (V3.neg a) = V3.neg (V3.normalized a) := by
  by_cases h : a = ⟨0, 0, 0⟩
  · subst h
    rw [V3.normalized_zero rfl, V3.normalized_zero (by simp [V3.real_neg])]
  · have h' : V3.neg a ≠ ⟨0, 0, 0⟩ := by
      intro hc
      apply h
      rw [V3.real_neg, V3.mk.injEq] at hc
      ext <;> dsimp only <;> linarith [hc.1, hc.2.1, hc.2.2]
    have hn : V3.norm (V3.neg a) = V3.norm a := by
      rw [V3.real_norm, V3.real_norm, V3.real_neg]; congr 1; ring
    rw [V3.normalized_of_ne h, V3.normalized_of_ne h', hn, V3.real_neg, V3.real_neg]
    simp only [neg_div]

theorem Inter.planePlane_reverse (p q : Plane ℝ) (tol : ℝ) :
    Inter.planePlane p.reverse q tol = (Inter.planePlane p q tol).map Line.reverse := by
  have h1 : V3.normalized p.reverse.normal = V3.neg (V3.normalized p.normal) := V3.normalized_neg _
  have h2 : ∀ a b : V3 ℝ, V3.cross (V3.neg a) b = V3.neg (V3.cross a b) := by
    intro a b; v3; congr 1 <;> ring
  have h3 : ∀ a b : V3 ℝ, V3.dot (V3.neg a) b = -V3.dot a b := by
    intro a b; rw [V3.real_dot, V3.real_dot, V3.real_neg]; ring
  have h4 : p.reverse.d = -p.d := by
    simp only [Plane.d, Plane.reverse, V3.real_dot, V3.real_neg, real_neg]; ring
  have h5 : ∀ a : V3 ℝ, V3.norm (V3.neg a) = V3.norm a := by
    intro a; rw [V3.real_norm, V3.real_norm, V3.real_neg]; congr 1; ring
  simp only [Inter.planePlane, h1, h2, h3, h4, h5]
  split
  · rfl
  · simp only [Option.map_some, Line.reverse]
    congr 2
    v3
    congr 1 <;> ring

theorem Inter.lineDisk_reverse (l : Line ℝ) (d : Disk ℝ) (tol : ℝ) :
    Inter.lineDisk l.reverse d tol = (Inter.lineDisk l d tol).map Segment.swap := by
  have h3 : ∀ a b : V3 ℝ, V3.dot a (V3.neg b) = -V3.dot a b := by
    intro a b; rw [V3.real_dot, V3.real_dot, V3.real_neg]; ring
  have h4 : ∀ a b : V3 ℝ, V3.dot (V3.neg a) b = -V3.dot a b := by
    intro a b; rw [V3.real_dot, V3.real_dot, V3.real_neg]; ring
  have ho : l.reverse.origin = l.origin := rfl
  have hd : l.reverse.direction = V3.neg l.direction := rfl
  simp only [Inter.lineDisk, ho, hd, h3, h4, neg_neg, real_mul, real_sub, neg_mul_neg]
  split
  · rfl
  · split
    · simp only [Option.map_some, Segment.swap]
      congr 2 <;> v3 <;> congr 1 <;> ring
    · simp only [Option.map_some, Segment.swap]
      congr 2 <;> v3 <;> congr 1 <;> ring

theorem Inter.planeDisk_reverse (p : Plane ℝ) (d : Disk ℝ) (tol : ℝ) :
    Inter.planeDisk p.reverse d tol = (Inter.planeDisk p d tol).map Segment.swap := by
  unfold Inter.planeDisk
  rw [Inter.planePlane_reverse]
  rcases Inter.planePlane p d.layingPlane tol with _ | l
  · rfl
  · exact Inter.lineDisk_reverse l d tol

theorem Inter.linePlane_reverse (l : Line ℝ) (p : Plane ℝ) (tol : ℝ) :
    Inter.linePlane l p.reverse tol = Inter.linePlane l p tol := by
  have h3 : ∀ a b : V3 ℝ, V3.dot a (V3.neg b) = -V3.dot a b := by
    intro a b; rw [V3.real_dot, V3.real_dot, V3.real_neg]; ring
  have h4 : ∀ a b : V3 ℝ, V3.dot (V3.neg a) b = -V3.dot a b := by
    intro a b; rw [V3.real_dot, V3.real_dot, V3.real_neg]; ring
  have ho : p.reverse.origin = p.origin := rfl
  have hd : p.reverse.normal = V3.neg p.normal := rfl
  simp only [Inter.linePlane, ho, hd, h3, h4, real_abs, abs_neg, real_div, neg_div_neg_eq]

/-- **C91, reversed grounds.**  On every flat ground, reversing the plane changes nothing in a contact found by the
sampling method, and exactly the sign of the normal in a contact found by the geometric method: the point, friction,
depth, area and volume stay. -/
theorem C91_reverse_contact (r : Rib ℝ) (g : Flat ℝ) (pose : Affine ℝ) :
    r.envelopSamplingFlat (g.edit .reverse) pose = r.envelopSamplingFlat g pose ∧
    (r.envelopGeometricFlat (g.edit .reverse) pose).1 = (r.envelopGeometricFlat g pose).1 ∧
    ((r.envelopGeometricFlat g pose).1 = true → (r.envelopGeometricFlat (g.edit .reverse) pose).2 =
      { (r.envelopGeometricFlat g pose).2 with normal := V3.neg (r.envelopGeometricFlat g pose).2.normal }) := by
  have hpl : (g.edit .reverse).plane = g.plane.reverse := rfl
  have hfr : (g.edit .reverse).friction = g.friction := rfl
  have hno : (g.edit .reverse).normal = V3.neg g.normal := rfl
  refine ⟨?_, ?_⟩
  · have : Rib.samplingLineFlat (g.edit .reverse) = Rib.samplingLineFlat g := by
      funext l
      simp only [Rib.samplingLineFlat, hpl, hfr, Inter.linePlane_reverse]
    simp only [Rib.envelopSamplingFlat, this]
  · have hlen : ∀ s : Segment ℝ, s.swap.length = s.length := by
      intro s
      simp only [Segment.length, Segment.swap, V3.real_norm, V3.real_sub]
      congr 1; ring
    have hcen : ∀ s : Segment ℝ, s.swap.centroid = s.centroid := by
      intro s
      simp only [Segment.centroid, Segment.swap]
      congr 1
      v3
      congr 1 <;> ring
    have hproj : ∀ n t : V3 ℝ, V3.sub (V3.neg n) (V3.smul (V3.dot (V3.neg n) t) t) =
        V3.neg (V3.sub n (V3.smul (V3.dot n t) t)) := by
      intro n t; rw [V3.real_dot, V3.real_dot]; v3; congr 1 <;> ring
    unfold Rib.envelopGeometricFlat
    rw [hpl, Inter.planeDisk_reverse]
    rcases Inter.planeDisk g.plane (r.diskGrd pose) Scalar.eps with _ | seg
    · simp
    · simp only [Option.map_some, hlen, hcen, hno, hfr, hproj, V3.normalized_neg]
      split <;> simp

/-- **C91 is false for the friction**, in any arithmetic: the value written through `friction()` is reported, unchecked,
by every contact the geometric method finds. -/
theorem C91_friction_contact (r : Rib α) (g : Flat α) (pose : Affine α) (f : α) :
    (r.envelopGeometricFlat (g.edit (.setFriction f)) pose).1 = (r.envelopGeometricFlat g pose).1 ∧
    ((r.envelopGeometricFlat g pose).1 = true → (r.envelopGeometricFlat (g.edit (.setFriction f)) pose).2 =
      { (r.envelopGeometricFlat g pose).2 with friction := f }) := by
  unfold Rib.envelopGeometricFlat
  have hpl : (g.edit (.setFriction f)).plane = g.plane := rfl
  have hfr : (g.edit (.setFriction f)).friction = f := rfl
  have hno : (g.edit (.setFriction f)).normal = g.normal := rfl
  rw [hpl]
  rcases Inter.planeDisk g.plane (r.diskGrd pose) Scalar.eps with _ | seg
  · simp
  · simp only [hfr, hno]
    split <;> simp

/-- **C91 is false**: a constructed ground whose friction is overwritten gives a contact with negative friction. -/
theorem C91_friction_refuted : ∃ (g : Flat ℝ) (r : Rib ℝ) (pose : Affine ℝ) (out : Output ℝ),
    Flat.make 1 ⟨0, 0, 0⟩ ⟨0, 0, 1⟩ = .ok g ∧ IsRib r ∧ IsRigid pose ∧ ¬ GoodFlat (g.edit (.setFriction (-1))) ∧
    r.envelopGeometricFlat (g.edit (.setFriction (-1))) pose = (true, out) ∧ out.friction = -1 := by
  obtain ⟨o, ho, -⟩ := Demo.ribOf_flat (w := 1) (by norm_num)
  obtain ⟨h1, h2⟩ := C91_friction_contact (Demo.ribOf 1) Demo.road (Demo.upright (1 / 2)) (-1)
  rw [ho] at h1 h2
  refine ⟨Demo.road, Demo.ribOf 1, Demo.upright (1 / 2), { o with friction := -1 }, Demo.road_make,
    Demo.ribOf_isRib (by norm_num), Demo.upright_rigid _, fun h => ?_, Prod.ext h1 (h2 rfl), rfl⟩
  have : (0 : ℝ) ≤ -1 := h.friction
  norm_num at this

/-- **C91 is false**: a constructed ground whose plane is reversed gives a contact whose normal points into the ground. -/
theorem C91_reverse_refuted : ∃ (g : Flat ℝ) (r : Rib ℝ) (pose : Affine ℝ) (out : Output ℝ),
    Flat.make 1 ⟨0, 0, 0⟩ ⟨0, 0, 1⟩ = .ok g ∧ IsRib r ∧ IsRigid pose ∧ ¬ GoodFlat (g.edit .reverse) ∧
    r.envelopGeometricFlat (g.edit .reverse) pose = (true, out) ∧ out.normal = ⟨0, 0, -1⟩ := by
  obtain ⟨o, ho, -⟩ := Demo.ribOf_flat (w := 1) (by norm_num)
  obtain ⟨-, h1, h2⟩ := C91_reverse_contact (Demo.ribOf 1) Demo.road (Demo.upright (1 / 2))
  have h3 := (C32_contact (Demo.ribOf_isRib zero_le_one) (Demo.upright_rigid (1 / 2)) Demo.road_make
    (by rw [ho])).2.2.2.1
  rw [ho] at h1 h2 h3
  refine ⟨Demo.road, Demo.ribOf 1, Demo.upright (1 / 2), { o with normal := V3.neg o.normal }, Demo.road_make,
    Demo.ribOf_isRib (by norm_num), Demo.upright_rigid _, fun h => (C91_edit_iff (C91_constructed Demo.road_make) .reverse).1 h, Prod.ext h1 (h2 rfl), ?_⟩
  show V3.neg o.normal = _
  rw [h3]
  simp [Demo.road, V3.real_neg]

/-- A sequence of safe operations on a constructed ground. -/
example : ∃ g, Flat.make 1 ⟨0, 0, 0⟩ ⟨0, 0, 1⟩ = .ok g ∧
    GoodFlat (g.edits [.translate ⟨1, 2, 3⟩, .setFriction 2, .rotate 1 ⟨0, 0, 1⟩, .setNormal ⟨3 / 5, 0, 4 / 5⟩]) ∧
    (g.edits [.translate ⟨1, 2, 3⟩, .setFriction 2, .rotate 1 ⟨0, 0, 1⟩, .setNormal ⟨3 / 5, 0, 4 / 5⟩]).friction = 2 := by
  refine ⟨_, Demo.road_make, (C91_safe_partial (C91_constructed Demo.road_make) _ ?_).1, rfl⟩
  simp only [List.mem_cons, List.not_mem_nil, or_false]
  rintro e (rfl | rfl | rfl | rfl)
  · trivial
  · show (0 : ℝ) ≤ 2; norm_num
  · exact rfl
  · refine ⟨length3_eq_one.2 ?_, ?_⟩ <;> norm_num [Unit3]

/-- The hypotheses of `C90_safe_partial` are met: the field with two vertices exchanged, then overwritten. -/
example : ∃ t', Demo.field.edits [.swap 0 2, .copy Demo.highField] = .ok t' ∧ Consistent t' :=
  C90_safe_partial (C90_constructed Demo.field_make (Demo.level_notCollinear 0)) _ (by
    simp only [List.mem_cons, List.not_mem_nil, or_false]
    rintro e (rfl | rfl)
    · exact ⟨by norm_num, by norm_num⟩
    · exact Demo.highField_consistent)

/-! ## C92: access by index -/

/-- The list of the vertices. -/
def Spec.vertexList (t : Triangle α) : List (V3 α) := [t.v0, t.v1, t.v2]

omit [Scalar α] in
/-- **C92, triangles (partial).**  For every scalar type.  An index `0`, `1` or `2` reads that vertex; larger indices
are refused, without changing anything; a vertex written is the vertex read, and the others stay; `edge i` runs from
vertex `i` to the next one; `swap` exchanges two vertices.  Missing: negative indices (`C92_negative_refuted`). -/
theorem C92_triangle_partial (t : Triangle α) :
    (∀ i : Int, 3 ≤ i → (t.vertex i).isThrow = true ∧ (t.edge i).isThrow = true ∧ ∀ p, (t.setVertex i p).isThrow = true) ∧
    (∀ i : Nat, i < 3 → ∃ v, (vertexList t)[i]? = some v ∧ t.vertex i = .ok v) ∧
    (∀ (i : Nat) (p : V3 α), i < 3 → ∃ t', t.setVertex i p = .ok t' ∧ vertexList t' = (vertexList t).set i p) ∧
    (∀ i : Nat, i < 3 → ∃ s, t.edge i = .ok s ∧ t.vertex i = .ok s.v0 ∧ t.vertex ((i + 1) % 3 : Nat) = .ok s.v1) ∧
    (∀ i j : Nat, i < 3 → j < 3 → ∃ t' vi vj, t.swap i j = .ok t' ∧ t.vertex i = .ok vi ∧ t.vertex j = .ok vj ∧
      vertexList t' = ((vertexList t).set i vj).set j vi) := by
  have h3 : ∀ i : Nat, i < 3 → i = 0 ∨ i = 1 ∨ i = 2 := by omega
  refine ⟨fun i hi => ?_, fun i hi => ?_, fun i p hi => ?_, fun i hi => ?_, fun i j hi hj => ?_⟩
  · have : ¬ i < 3 := by omega
    simp [Triangle.vertex, Triangle.edge, Triangle.setVertex, this, Res.isThrow]
  · rcases h3 i hi with rfl | rfl | rfl <;> simp [Triangle.vertex, Triangle.raw, vertexList]
  · rcases h3 i hi with rfl | rfl | rfl <;> simp [Triangle.setVertex, Triangle.rawSet, vertexList]
  · rcases h3 i hi with rfl | rfl | rfl <;>
      simp [Triangle.vertex, Triangle.raw, Triangle.edge, Triangle.edge0, Triangle.edge1, Triangle.edge2]
  · rcases h3 i hi with rfl | rfl | rfl <;> rcases h3 j hj with rfl | rfl | rfl <;>
      simp [Triangle.vertex, Triangle.raw, Triangle.rawSet, Triangle.swap, vertexList]

omit [Scalar α] in
/-- **C92, segments, boxes and ground triangles (partial).**  For every scalar type: in range, reading gives the
component, writing changes exactly it; the `size_t` index of a ground triangle is checked as long as it fits an
`int`.  Missing: other indices (`C92_negative_refuted`, `C92_unchecked_refuted`). -/
theorem C92_others_partial (s : Segment α) (b : Box α) (t : TriangleGround α) :
    (∀ i : Nat, i < 2 → ∃ v, [s.v0, s.v1][i]? = some v ∧ s.vertex i = .ok v) ∧
    (∀ (i : Nat) (p : V3 α), i < 2 → ∃ s', s.setVertex i p = .ok s' ∧ [s'.v0, s'.v1] = [s.v0, s.v1].set i p) ∧
    (∀ i : Nat, i < 3 → ∃ x y, [b.min.x, b.min.y, b.min.z][i]? = some x ∧ b.minAt i = .ok x ∧
      [b.max.x, b.max.y, b.max.z][i]? = some y ∧ b.maxAt i = .ok y) ∧
    (∀ (i : Nat) (x : α), i < 3 → ∃ b' b'', b.setMinAt i x = .ok b' ∧
      [b'.min.x, b'.min.y, b'.min.z] = [b.min.x, b.min.y, b.min.z].set i x ∧ b'.max = b.max ∧ b'.id = b.id ∧
      b.setMaxAt i x = .ok b'' ∧ [b''.max.x, b''.max.y, b''.max.z] = [b.max.x, b.max.y, b.max.z].set i x ∧
      b''.min = b.min ∧ b''.id = b.id) ∧
    (∀ i : Nat, i < 2 ^ 31 → t.vertex i = t.tri.vertex i) := by
  have h3 : ∀ i : Nat, i < 3 → i = 0 ∨ i = 1 ∨ i = 2 := by omega
  have h2 : ∀ i : Nat, i < 2 → i = 0 ∨ i = 1 := by omega
  refine ⟨fun i hi => ?_, fun i p hi => ?_, fun i hi => ?_, fun i x hi => ?_, fun i hi => ?_⟩
  · rcases h2 i hi with rfl | rfl <;> simp [Segment.vertex]
  · rcases h2 i hi with rfl | rfl <;> simp [Segment.setVertex]
  · rcases h3 i hi with rfl | rfl | rfl <;> simp [Box.minAt, Box.maxAt, V3.coord]
  · rcases h3 i hi with rfl | rfl | rfl <;> simp [Box.setMinAt, Box.setMaxAt, V3.setCoord]
  · have : TriangleGround.toInteger i = i := by
      unfold TriangleGround.toInteger
      rw [Int.bmod_def]
      norm_num at hi ⊢
      split <;> omega
    rw [TriangleGround.vertex, this]

omit [Scalar α] in
/-- **C92 is false for negative indices**, in any arithmetic and for every triangle: the vertex functions read and write
outside the array, `edge` silently returns the third edge. -/
theorem C92_negative_refuted (t : Triangle α) (i : Int) (hi : i < 0) (p : V3 α) :
    (t.vertex i).isUb = true ∧ (t.setVertex i p).isUb = true ∧ t.edge i = .ok t.edge2 := by
  have h0 : i < 3 := by omega
  have h1 : i ≠ 0 := by omega
  have h2 : i ≠ 1 := by omega
  have h3 : i ≠ 2 := by omega
  simp [Triangle.vertex, Triangle.setVertex, Triangle.edge, Triangle.raw, Triangle.rawSet, h0, h1, h2, h3, Res.isUb]

omit [Scalar α] in
/-- **C92 is false for the unchecked functions**, in any arithmetic: every index out of range is undefined behaviour for
`triangle::swap`, the vertices of a segment and the coordinates of a box. -/
theorem C92_unchecked_refuted (t : Triangle α) (s : Segment α) (b : Box α) (i : Int) (p : V3 α) (x : α) :
    ((i < 0 ∨ 3 ≤ i) → (∀ j, (t.swap i j).isUb = true ∧ (t.swap j i).isUb = true) ∧ (b.minAt i).isUb = true ∧
      (b.maxAt i).isUb = true ∧ (b.setMinAt i x).isUb = true ∧ (b.setMaxAt i x).isUb = true) ∧
    ((i < 0 ∨ 2 ≤ i) → (s.vertex i).isUb = true ∧ (s.setVertex i p).isUb = true) := by
  refine ⟨fun hi => ?_, fun hi => ?_⟩
  · have h1 : i ≠ 0 := by omega
    have h2 : i ≠ 1 := by omega
    have h3 : i ≠ 2 := by omega
    refine ⟨fun j => ⟨?_, ?_⟩, ?_⟩
    · simp [Triangle.swap, Triangle.raw, h1, h2, h3, Res.isUb]
    · have e : t.raw i = .ub "m_vertex[i] outside the array" := by simp [Triangle.raw, h1, h2, h3]
      unfold Triangle.swap
      rw [e]
      unfold Triangle.raw
      split_ifs <;> rfl
    · simp [Box.minAt, Box.maxAt, Box.setMinAt, Box.setMaxAt, V3.coord, V3.setCoord, h1, h2, h3, Res.isUb]
  · have h1 : i ≠ 0 := by omega
    have h2 : i ≠ 1 := by omega
    simp [Segment.vertex, Segment.setVertex, h1, h2, Res.isUb]

omit [Scalar α] in
/-- **C92 is false for ground triangles with large indices**, in any arithmetic: the `size_t` index is converted to `int`
before it is checked, so that `2 ^ 32` reads the first vertex and every index from `2 ^ 31` up to `2 ^ 32 - 1` reads
outside the array. -/
theorem C92_size_t_refuted (t : TriangleGround α) :
    t.vertex (2 ^ 32) = .ok t.tri.v0 ∧ ∀ i : Nat, 2 ^ 31 ≤ i → i < 2 ^ 32 → (t.vertex i).isUb = true := by
  constructor
  · have : TriangleGround.toInteger (2 ^ 32) = 0 := by decide
    rw [TriangleGround.vertex, this]
    simp [Triangle.vertex, Triangle.raw]
  · intro i h1 h2
    have : TriangleGround.toInteger i < 0 := by
      unfold TriangleGround.toInteger
      rw [Int.bmod_def]
      split <;> omega
    exact (C92_negative_refuted t.tri _ this t.tri.v0).1

end Enve
