import Verif.Props.AgreeProps
import Verif.Props.SearchProps
import Verif.Props.SuperProps
import Verif.Props.SfunProps

/-! # What a setup of the whole tyre reports

The statements about one rib, for the records of a shell after a call of `setup`, and for the methods of a rib
selected by name. -/

namespace Enve

open Scalar Spec

/-- The record `o` of rib number `i`, the rib being `r`, can be read from the shell. -/
def Spec.Shows {α : Type} (pol : Policy) (s : Shell α) (i : Nat) (r : Rib α) (o : Output α) : Prop :=
  s.ribs[i]? = some r ∧ s.out.read pol i = .ok o

/-- After a setup on flat ground the records are the evaluations of the ribs. -/
theorem Spec.Shows.flat {α : Type} [Scalar α] {pol : Policy} {s s' : Shell α} {g : Flat α} {pose : Affine α} {method : String}
    {b : Bool} (hs : s.setupFlat pol g pose method = .ok s' b) {i : Nat} {r : Rib α} {o : Output α}
    (h : Shows pol s' i r o) : r ∈ s.ribs ∧ s.ribs[i]? = some r ∧
      ∃ flag, r.envelopFlat g pose method = .ok (flag, o) := by
  have hribs : s'.ribs = s.ribs := (Shell.setupFlat_rel (.inl ⟨b, hs⟩)).ribs
  obtain ⟨flags, recs, h1, -⟩ := C38_flat_flag_partial pol s s' g pose method b hs
  obtain ⟨h2, h3⟩ := h
  rw [hribs] at h2
  have hi : i < s.size := by
    have := (List.getElem?_eq_some_iff.1 h2).1
    exact this
  obtain ⟨r', e1, e2, e3⟩ := h1 i hi
  rw [hribs, h2] at e1
  cases e1
  rw [h3] at e3
  cases e3
  exact ⟨List.mem_of_getElem? h2, h2, _, e2⟩

theorem Rib.envelopFlat_geometric_eq {r : Rib ℝ} {g : Flat ℝ} {pose : Affine ℝ} {flag : Bool} {o : Output ℝ}
    (h : r.envelopFlat g pose "geometric" = .ok (flag, o)) : r.envelopGeometricFlat g pose = (flag, o) := by
  rw [Rib.envelopFlat, if_pos rfl] at h
  exact Res.ok.inj h

theorem Rib.envelopFlat_sampling_eq {α : Type} [Scalar α] {r : Rib α} {g : Flat α} {pose : Affine α} {flag : Bool} {o : Output α}
    (h : r.envelopFlat g pose "sampling" = .ok (flag, o)) : r.envelopSamplingFlat g pose = (flag, o) := by
  rw [Rib.envelopFlat, if_neg (by decide), if_pos rfl] at h
  exact Res.ok.inj h

/-- Whether a record on flat ground stems from a contact can be told from its depth. -/
theorem Rib.flat_flag_iff {r : Rib ℝ} (hr : IsRib r) {pose : Affine ℝ} (hp : IsRigid pose) {f : ℝ}
    {o n : V3 ℝ} {g : Flat ℝ} (hg : Flat.make f o n = .ok g) {method : String} {flag : Bool} {out : Output ℝ}
    (h : r.envelopFlat g pose method = .ok (flag, out)) : flag = true ↔ 0 < out.depth := by
  cases flag with
  | true => simpa using (C31_records hr hp (.inl ⟨f, o, n, g, method, hg, h⟩)).1
  | false =>
    rw [Rib.envelopFlat_false h]
    simp [Rib.noContact]

/-- **C30 for the tyre.**  After a setup of any shell, on a mesh or on a constructed flat ground and with either
method, a record that shows no contact is the neutral record of its rib at the pose of this setup: nothing of an
earlier setup is left in it. -/
theorem C30_after_setup {pol : Policy} {s s' : Shell ℝ} (hreach : s.Reachable pol) {pose : Affine ℝ} {method : String}
    {b : Bool} {i : Nat} {r : Rib ℝ} {o : Output ℝ} (h : Shows pol s' i r o) (hno : ¬ ShowsContact o) :
    (∀ ground, s.setupMesh pol ground pose method = .ok s' b → IsNoContact r pose o) ∧
    (∀ f p n g, IsRigid pose → Flat.make f p n = .ok g → s.setupFlat pol g pose method = .ok s' b →
      IsNoContact r pose o) := by
  constructor
  · intro ground hs
    have hribs : s'.ribs = s.ribs := (Shell.setupMesh_rel (.inl ⟨b, hs⟩)).ribs
    obtain ⟨loc, hloc⟩ : ∃ loc, ground.intersection (s.transform pose).updateBBox.bbox = .ok loc := by
      cases hi : ground.intersection (s.transform pose).updateBBox.bbox with
      | ok loc => exact ⟨loc, rfl⟩
      | throw m => simp [Shell.setupMesh, hi] at hs
      | ub w => simp [Shell.setupMesh, hi] at hs
    obtain ⟨flags, recs, h1, -⟩ := C38_mesh_flag pol s s' hreach ground pose method loc b hloc hs
    obtain ⟨h2, h3⟩ := h
    have h2' := h2
    rw [hribs] at h2
    have hi : i < s.size := (List.getElem?_eq_some_iff.1 h2).1
    obtain ⟨r', e1, e2, e3⟩ := h1 i hi
    rw [h2'] at e1
    cases e1
    rw [h3] at e3
    cases e3
    split at e2
    · have e2 := Res.ok.inj e2
      rw [Prod.mk.injEq] at e2
      exact e2.2 ▸ r.noContact_is pose
    · cases hf : flags i with
      | true => rw [hf] at e2; exact absurd (Rib.envelopMesh_true e2) hno
      | false => rw [hf] at e2; exact Rib.envelopMesh_false e2 ▸ r.noContact_is pose
  · intro f p n g hp hg hs
    obtain ⟨hmem, -, flag, he⟩ := h.flat hs
    have hflag := Rib.flat_flag_iff (hreach.isRib r hmem) hp hg he
    cases flag with
    | true => exact absurd (.inr (.inr (hflag.1 rfl).ne')) hno
    | false => exact Rib.envelopFlat_false he ▸ r.noContact_is pose

/-- **C32 for the tyre.**  After a setup of a shell on flat ground with the geometric method, the record of a
rib has a positive depth exactly when the rib is not within the tolerance of being parallel to the ground and
has two points of the ground plane further apart than the tolerance; the record then holds the point of the
section closest to the rib centre, the ground normal, the friction of the ground and the radius minus the
distance of the point from the centre; otherwise depth, area, volume and friction are zero. -/
theorem C32_setup {pol : Policy} {s s' : Shell ℝ} (hreach : s.Reachable pol) {pose : Affine ℝ} (hp : IsRigid pose)
    {f : ℝ} {o n : V3 ℝ} {g : Flat ℝ} (hg : Flat.make f o n = .ok g) {b : Bool}
    (hs : s.setupFlat pol g pose "geometric" = .ok s' b) {i : Nat} {r : Rib ℝ} {out : Output ℝ}
    (h : Shows pol s' i r out) :
    let centre := pose.apply ⟨0, r.y, 0⟩
    (0 < out.depth ↔ Scalar.eps ≤ 1 - dot3 g.plane.normal pose.linear.c1 ^ 2 ∧
      ∃ x x', InSection g.plane pose r x ∧ InSection g.plane pose r x' ∧ Scalar.eps < dist3 x x' ∧
        4 * Scalar.eps ≤ (1 - dot3 g.plane.normal pose.linear.c1 ^ 2) * dist3 x x' ^ 2) ∧
    (0 < out.depth →
      InSection g.plane pose r out.point ∧
      (∀ x, InSection g.plane pose r x → dist3 out.point centre ≤ dist3 x centre) ∧
      (∃ a b, InSection g.plane pose r a ∧ InSection g.plane pose r b ∧ a ≠ b ∧
        out.point = along a (1 / 2) (minus b a) ∧ ∀ x, InSection g.plane pose r x ↔ OnSegment ⟨a, b⟩ x) ∧
      out.normal = g.plane.normal ∧ out.friction = f ∧
      out.depth = r.radius - dist3 out.point centre ∧ out.depth ≤ r.radius) ∧
    (out.depth ≤ 0 → out.depth = 0 ∧ out.area = 0 ∧ out.volume = 0 ∧ out.friction = 0) := by
  intro centre
  obtain ⟨hmem, -, flag, he⟩ := h.flat hs
  have hr := hreach.isRib r hmem
  have hflag := Rib.flat_flag_iff hr hp hg he
  have hge := Rib.envelopFlat_geometric_eq he
  have hiff := C32_contact_iff hr hp hg
  rw [hge] at hiff
  refine ⟨hflag.symm.trans hiff, fun hd => ?_, fun hd => ?_⟩
  · obtain ⟨c1, c2, c3, c4, c5, c6, -, c8⟩ := C32_contact hr hp hg (by rw [hge]; exact hflag.2 hd)
    rw [hge] at c1 c2 c3 c4 c5 c6 c8
    exact ⟨c1, c2, c3, c4, c5, c6, c8⟩
  · have hf : flag = false := by
      cases flag with
      | false => rfl
      | true => exact absurd (hflag.1 rfl) (not_lt.2 hd)
    subst hf
    rw [Rib.envelopFlat_false he]
    simp [Rib.noContact]

/-- **C33 for the tyre** (partial: the rib centres stay above the ground, see `C33_past_centre_refuted`).  Two
setups of the same shell at two heights, the second one lower: no rib loses its contact, and no rib has a
smaller depth, area or volume. -/
theorem C33_setup_partial {pol : Policy} {s sA sB : Shell ℝ} (hreach : s.Reachable pol) {pose : Affine ℝ}
    (hp : IsRigid pose) {f : ℝ} {o n : V3 ℝ} {g : Flat ℝ} (hg : Flat.make f o n = .ok g) {d : ℝ} (hd : 0 ≤ d)
    (habove : ∀ r ∈ s.ribs,
      0 ≤ dot3 (minus ((lowered pose d).apply ⟨0, r.y, 0⟩) g.plane.origin) g.plane.normal) {bA bB : Bool}
    (hA : s.setupFlat pol g pose "geometric" = .ok sA bA)
    (hB : s.setupFlat pol g (lowered pose d) "geometric" = .ok sB bB)
    {i : Nat} {r r' : Rib ℝ} {oA oB : Output ℝ} (h : Shows pol sA i r oA) (h' : Shows pol sB i r' oB) :
    r' = r ∧ (0 < oA.depth → 0 < oB.depth) ∧ oA.depth ≤ oB.depth ∧ oA.area ≤ oB.area ∧
      oA.volume ≤ oB.volume := by
  obtain ⟨hmem, e1, flagA, heA⟩ := h.flat hA
  obtain ⟨-, e2, flagB, heB⟩ := h'.flat hB
  rw [e1] at e2
  cases e2
  have hr := hreach.isRib r hmem
  have hp' : IsRigid (lowered pose d) := hp
  obtain ⟨k1, k2, k3, k4⟩ := C33_above_ground_partial hr hp hg hd (habove r hmem)
  rw [Rib.envelopFlat_geometric_eq heA, Rib.envelopFlat_geometric_eq heB] at k1 k2 k3 k4
  exact ⟨rfl, fun h => (Rib.flat_flag_iff hr hp' hg heB).1 (k1 ((Rib.flat_flag_iff hr hp hg heA).2 h)), k2, k3, k4⟩

/-- **C35 for the tyre on flat ground** (partial: geometric method only).  Two setups of the same shell, the
wheel spun by some angle between them, report the same contacts. -/
theorem C35_setup_partial {pol : Policy} {s sA sB : Shell ℝ} (hreach : s.Reachable pol) {pose : Affine ℝ}
    (hp : IsRigid pose) {f : ℝ} {o n : V3 ℝ} {g : Flat ℝ} (hg : Flat.make f o n = .ok g) (angle : ℝ) {bA bB : Bool}
    (hA : s.setupFlat pol g pose "geometric" = .ok sA bA)
    (hB : s.setupFlat pol g (spun pose angle) "geometric" = .ok sB bB)
    {i : Nat} {r r' : Rib ℝ} {oA oB : Output ℝ} (h : Shows pol sA i r oA) (h' : Shows pol sB i r' oB) :
    r' = r ∧ (0 < oA.depth → oB = oA) ∧ oB.depth = oA.depth ∧ oB.friction = oA.friction ∧
      oB.area = oA.area ∧ oB.volume = oA.volume := by
  obtain ⟨hmem, e1, flagA, heA⟩ := h.flat hA
  obtain ⟨-, e2, flagB, heB⟩ := h'.flat hB
  rw [e1] at e2
  cases e2
  have hr := hreach.isRib r hmem
  obtain ⟨k1, k2, k3, k4, k5, k6⟩ := C35_geometric_flat_partial hr hp hg angle
  rw [Rib.envelopFlat_geometric_eq heA, Rib.envelopFlat_geometric_eq heB] at k2 k3 k4 k5 k6
  exact ⟨rfl, fun h => k2 ((Rib.flat_flag_iff hr hp hg heA).2 h), k3, k4, k5, k6⟩

/-- **C60 for the tyre.**  A setup with the sampling method on horizontal ground, the wheel upright: a rib of
positive width whose centre is not below the ground has a record of positive depth exactly when its lowest
point is below the ground. -/
theorem C60_setup {pol : Policy} {s s' : Shell ℝ} (hreach : s.Reachable pol) {pose : Affine ℝ} (hp : IsRigid pose)
    (hup : pose.linear.c2 = ⟨0, 0, 1⟩) {f : ℝ} {o n : V3 ℝ} {g : Flat ℝ} (hg : Flat.make f o n = .ok g)
    (hx : n.x = 0) (hy : n.y = 0) {b : Bool} (hs : s.setupFlat pol g pose "sampling" = .ok s' b) {i : Nat}
    {r : Rib ℝ} {out : Output ℝ} (h : Shows pol s' i r out) (hw : 0 < r.width)
    (habove : o.z ≤ (pose.apply ⟨0, r.y, 0⟩).z) :
    let c := pose.apply ⟨0, r.y, 0⟩
    (∀ p, OnRibDisk pose r p → c.z - r.radius ≤ p.z) ∧ OnRibDisk pose r ⟨c.x, c.y, c.z - r.radius⟩ ∧
    (0 < out.depth ↔ c.z - r.radius < o.z) ∧
    (0 < out.depth → out.depth = o.z - (c.z - r.radius) ∧ out.point = ⟨c.x, c.y, o.z⟩ ∧
      out.normal = ⟨0, 0, 1⟩ ∧ out.friction = f) := by
  intro c
  obtain ⟨hmem, -, flag, he⟩ := h.flat hs
  have hr := hreach.isRib r hmem
  have hflag := Rib.flat_flag_iff hr hp hg he
  obtain ⟨k1, k2, k3, k4⟩ := C60_sampling_flat hr hw hp hup hg hx hy habove
  rw [Rib.envelopFlat_sampling_eq he] at k3 k4
  exact ⟨k1, k2, hflag.symm.trans k3, fun h => k4 (hflag.2 h)⟩

/-- **C34 for the tyre** (partial: the hypotheses of `C61_search_geometric_partial`).  Two meshes holding the
same triangles in different order give the same records and the same flag. -/
theorem C34_setup_partial (pol : Policy) (s sA sB : Shell ℝ) (hs : s.Reachable pol) (hx : 0 ≤ s.shape.rx)
    (mA mB : Mesh ℝ) (hmA : BuiltMesh mA) (hmB : BuiltMesh mB) (hperm : mA.triangles.Perm mB.triangles)
    (pose : Affine ℝ) (hp : IsRigid pose)
    (hbox : ∀ r ∈ s.ribs, r.radius ^ 2 + r.center.y ^ 2 ≤ s.shape.rx ^ 2)
    (hclear : ∀ t ∈ mA.triangles, ∀ r ∈ s.ribs, ClearOfRib pose r t.tri)
    (hlen : ∀ t ∈ mA.triangles, ∀ r ∈ s.ribs, ∀ seg,
      Inter.triangleDisk t.tri (r.diskGrd pose) Scalar.eps = .ok (some seg) → Scalar.eps ≤ dist3 seg.v0 seg.v1)
    (bA bB : Bool) (hA : s.setupMesh pol mA pose "geometric" = .ok sA bA)
    (hB : s.setupMesh pol mB pose "geometric" = .ok sB bB) :
    bA = bB ∧ sA.ribs = sB.ribs ∧ ∀ i < s.size, ∃ o, sA.out.read pol i = .ok o ∧ sB.out.read pol i = .ok o := by
  have hmem : ∀ t, t ∈ mB.triangles → t ∈ mA.triangles := fun t => hperm.mem_iff.2
  obtain ⟨a1, a2⟩ := C61_search_geometric_partial pol s sA hs hx mA hmA pose hp hbox hclear hlen bA hA
  obtain ⟨b1, b2⟩ := C61_search_geometric_partial pol s sB hs hx mB hmB pose hp hbox
    (fun t ht => hclear t (hmem t ht)) (fun t ht => hlen t (hmem t ht)) bB hB
  have rA : sA.ribs = s.ribs := (Shell.setupMesh_rel (.inl ⟨bA, hA⟩)).ribs
  have rB : sB.ribs = s.ribs := (Shell.setupMesh_rel (.inl ⟨bB, hB⟩)).ribs
  have key : ∀ r ∈ s.ribs, r.envelopGeometricMesh mA.triangles pose = r.envelopGeometricMesh mB.triangles pose :=
    fun r hr => C34_order_partial r pose _ _ hperm fun t ht => hlen t ht r hr
  refine ⟨?_, rA.trans rB.symm, fun i hi => ?_⟩
  · rw [Bool.eq_iff_iff, a2, b2, rA, rB]
    constructor
    · rintro ⟨r, hr, o, h⟩; exact ⟨r, hr, o, by rw [← key r hr]; exact h⟩
    · rintro ⟨r, hr, o, h⟩; exact ⟨r, hr, o, by rw [key r hr]; exact h⟩
  · have hi' : i < s.ribs.length := hi
    have hget : s.ribs[i]? = some s.ribs[i] := List.getElem?_eq_getElem hi'
    obtain ⟨f1, o1, p1, q1⟩ := a1 i s.ribs[i] (by rw [rA]; exact hget)
    obtain ⟨f2, o2, p2, q2⟩ := b1 i s.ribs[i] (by rw [rB]; exact hget)
    rw [key _ (List.getElem_mem hi'), p2] at p1
    cases p1
    exact ⟨o1, q1, q2⟩

/-- **C39, the known methods.**  For every scalar type: a rib evaluates the geometric method
under the name "geometric" and the sampling method under the name "sampling", on both kinds of ground, and no
method under any other name. -/
theorem C39_methods {α : Type} [Scalar α] (r : Rib α) (pose : Affine α) (method : String) :
    (∀ ts c, r.envelopMesh ts pose method = .ok c ↔
      (method = "geometric" ∧ r.envelopGeometricMesh ts pose = .ok c) ∨
      (method = "sampling" ∧ r.envelopSamplingMesh ts pose = c)) ∧
    (∀ g c, r.envelopFlat g pose method = .ok c ↔
      (method = "geometric" ∧ r.envelopGeometricFlat g pose = c) ∨
      (method = "sampling" ∧ r.envelopSamplingFlat g pose = c)) := by
  constructor
  all_goals
    intro _ c
    first | unfold Rib.envelopMesh | unfold Rib.envelopFlat
    by_cases h1 : method = "geometric"
    · subst h1; simp
    · by_cases h2 : method = "sampling"
      · subst h2; simp
      · simp [h1, h2]

/-- The hypotheses of the statements above are met: a shell of up to 200 ribs can be set up on any flat ground
at any pose with either method, and every rib then shows a record. -/
theorem Shell.flat_shows {s : Shell ℝ} (hreach : s.Reachable .raw) (hn : s.size ≤ 200) (g : Flat ℝ) (pose : Affine ℝ)
    {method : String} (hm : method = "geometric" ∨ method = "sampling") :
    ∃ s' b, s.setupFlat .raw g pose method = .ok s' b ∧
      ∀ i r, s.ribs[i]? = some r → ∃ o, Shows .raw s' i r o := by
  have hacc : ∀ j < s.ribs.length, s.out.accessible .raw (0 + j) = true := fun i hi => by
    rw [Shell.accessible_raw hreach.inv]
    have : s.ribs.length ≤ 200 := hn
    exact decide_eq_true (by omega)
  obtain ⟨out', b', hl⟩ := Shell.ribLoop_total (comb := fun a _ => a) (b := false)
    (f := fun _ r => r.envelopFlat g pose method) hacc (fun j r _ => Rib.envelopFlat_ok r g pose hm)
  have hset : s.setupFlat .raw g pose method = .ok { (s.transform pose).updateBBox with out := out' } b' := by
    rw [Shell.setupFlat_eq]
    have : (s.transform pose).updateBBox.ribs = s.ribs := rfl
    simp only [Shell.withOut, hl]
  refine ⟨_, b', hset, fun i r hr => ?_⟩
  obtain ⟨flags, recs, h1, -⟩ := C38_flat_flag_partial .raw s _ g pose method b' hset
  obtain ⟨r', e1, e2, e3⟩ := h1 i (List.getElem?_eq_some_iff.1 hr).1
  exact ⟨_, hr, e3⟩

/-- The tyre of one rib, lowered by one half onto the road: the depth grows from one half to one. -/
example (fresh : Nat → Output ℝ) : ∃ (s sA sB : Shell ℝ) (r : Rib ℝ) (oA oB : Output ℝ) (bA bB : Bool),
    Shell.make fresh 1 1 2 2 2 1 = .ok s ∧
    s.setupFlat .raw Demo.road (Demo.upright (1 / 2)) "geometric" = .ok sA bA ∧
    s.setupFlat .raw Demo.road (lowered (Demo.upright (1 / 2)) (1 / 2)) "geometric" = .ok sB bB ∧
    Shows .raw sA 0 r oA ∧ Shows .raw sB 0 r oB ∧ oA.depth = 1 / 2 ∧ oB.depth = 1 := by
  have heps := real_eps_le_half
  obtain ⟨s, a, h1, -, hab, ha, hac, haR, haw⟩ := Demo.oneRib fresh
  have hreach : s.Reachable .raw := .make h1
  have hsz : s.size ≤ 200 := by simp [Shell.size, hab]
  have e : lowered (Demo.upright (1 / 2)) (1 / 2) = Demo.upright 0 := by simp [lowered, Demo.upright]
  have h0 : s.ribs[0]? = some a := by simp [hab]
  obtain ⟨sA, bA, hA, kA⟩ := Shell.flat_shows hreach hsz Demo.road (Demo.upright (1 / 2)) (.inl rfl)
  obtain ⟨sB, bB, hB, kB⟩ := Shell.flat_shows hreach hsz Demo.road (Demo.upright 0) (.inl rfl)
  obtain ⟨oA, gA⟩ := kA 0 a h0
  obtain ⟨oB, gB⟩ := kB 0 a h0
  obtain ⟨-, -, fA, eA⟩ := gA.flat hA
  obtain ⟨-, -, fB, eB⟩ := gB.flat hB
  have eA := Rib.envelopFlat_geometric_eq eA
  have eB := Rib.envelopFlat_geometric_eq eB
  rw [Demo.oneRib_eval ha hac haR (by norm_num) (by norm_num; linarith)] at eA
  rw [Demo.oneRib_eval ha hac haR le_rfl (by norm_num; linarith)] at eB
  refine ⟨s, sA, sB, a, oA, oB, bA, bB, h1, hA, by rw [e]; exact hB, gA, gB, ?_, ?_⟩
  · rw [← (Prod.mk.inj eA).2]; norm_num
  · rw [← (Prod.mk.inj eB).2]; norm_num

end Enve
