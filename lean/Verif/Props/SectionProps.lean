import Verif.Props.MeshWitness

/-! # Which meshes the geometric method handles: C34, C37 -/

namespace Enve
open Scalar Spec

/-! ## C37 -/

/-- Two vertices of the triangle that are strictly on the same side of the plane of the rib are both
farther from it than `eps` times the difference of their distances. -/
def Spec.ClearOfRib (pose : Affine ℝ) (r : Rib ℝ) (T : Triangle ℝ) : Prop :=
  ∀ u ∈ [T.v0, T.v1, T.v2], ∀ v ∈ [T.v0, T.v1, T.v2], 0 < side pose r u * side pose r v →
    Scalar.eps * |side pose r u - side pose r v| < |side pose r u|

theorem Inter.lineSegment_onLine {l : Line ℝ} {s : Segment ℝ} {tol : ℝ} (ht : 0 < tol) (h0 : OnLine l s.v0)
    (h1 : OnLine l s.v1) : Inter.lineSegment l s tol = none := by
  obtain ⟨a, ha⟩ := h0
  obtain ⟨b, hb⟩ := h1
  have e : V3.sub s.v1 s.v0 = ⟨(b - a) * l.direction.x, (b - a) * l.direction.y, (b - a) * l.direction.z⟩ := by
    rw [ha, hb]; simp only [along]; v3; congr 1 <;> ring
  unfold Inter.lineSegment
  rw [if_pos]
  unfold Inter.isParallel Segment.toUnitVector
  rw [e]
  have : V3.cross l.direction (V3.normalized ⟨(b - a) * l.direction.x, (b - a) * l.direction.y,
      (b - a) * l.direction.z⟩) = ⟨0, 0, 0⟩ := by
    by_cases hz : (⟨(b - a) * l.direction.x, (b - a) * l.direction.y, (b - a) * l.direction.z⟩ : V3 ℝ) = ⟨0, 0, 0⟩
    · rw [V3.normalized_zero hz, hz]; v3; simp
    · rw [V3.normalized_of_ne hz]; v3; congr 1 <;> ring
  rw [this, V3.norm_eq_zero.2 rfl]
  simp [Scalar.isApprox, ht]

/-- Two heights on the same side, clear of zero, leave no crossing within the tolerance. -/
theorem Spec.no_crossing {tol a b t : ℝ} (h : 0 < a * b) (ha : tol * |a - b| < |a|) (hb : tol * |b - a| < |b|)
    (h0 : -tol ≤ t) (h1 : t ≤ 1 + tol) (e : a + t * (b - a) = 0) : False := by
  have key : ∀ a b : ℝ, 0 < a → 0 < b → tol * |a - b| < a → tol * |b - a| < b → a + t * (b - a) = 0 → False := by
    intro a b pa pb ha hb e
    rcases le_total a b with hab | hab
    · rw [abs_of_nonpos (by linarith)] at ha
      nlinarith [mul_nonneg (show 0 ≤ t + tol by linarith) (show 0 ≤ b - a by linarith)]
    · rw [abs_of_nonpos (by linarith)] at hb
      nlinarith [mul_nonneg (show 0 ≤ 1 + tol - t by linarith) (show 0 ≤ a - b by linarith)]
  rcases pos_and_pos_or_neg_and_neg_of_mul_pos h with ⟨pa, pb⟩ | ⟨na, nb⟩
  · rw [abs_of_pos pa] at ha
    rw [abs_of_pos pb] at hb
    exact key a b pa pb ha hb e
  · rw [abs_of_neg na] at ha
    rw [abs_of_neg nb] at hb
    refine key (-a) (-b) (by linarith) (by linarith) ?_ ?_ (by linarith)
    · rw [show -a - -b = -(a - b) by ring, abs_neg]; exact ha
    · rw [show -b - -a = -(b - a) by ring, abs_neg]; exact hb

/-- The intersection of a triangle and a disk returns, when no two vertices on the same side of the plane of
the disk are almost on it. -/
theorem Inter.triangleDisk_ok (T : Triangle ℝ) (d : Disk ℝ) (hd : Unit3 d.plane.normal) (tol : ℝ) (ht : 0 < tol)
    (hclear : ∀ u ∈ [T.v0, T.v1, T.v2], ∀ v ∈ [T.v0, T.v1, T.v2],
      0 < dot3 (minus u d.plane.origin) d.plane.normal * dot3 (minus v d.plane.origin) d.plane.normal →
      tol * |dot3 (minus u d.plane.origin) d.plane.normal - dot3 (minus v d.plane.origin) d.plane.normal| <
        |dot3 (minus u d.plane.origin) d.plane.normal|) :
    ∃ o, Inter.triangleDisk T d tol = .ok o := by
  unfold Inter.triangleDisk Inter.planeTriangle
  cases hl : Inter.planePlane d.layingPlane T.layingPlane tol with
  | none => exact ⟨none, rfl⟩
  | some l =>
    dsimp only
    have hN : Unit3 T.layingPlane.normal := by
      by_cases hz : V3.cross (V3.sub T.v1 T.v0) (V3.sub T.v2 T.v0) = ⟨0, 0, 0⟩
      · exfalso
        have : T.layingPlane.normal = ⟨0, 0, 0⟩ := by
          show V3.normalized _ = _; rw [V3.normalized_zero hz, hz]
        have h0 : V3.normalized (⟨0, 0, 0⟩ : V3 ℝ) = ⟨0, 0, 0⟩ := V3.normalized_zero rfl
        have h1 : V3.cross (V3.normalized d.layingPlane.normal) (⟨0, 0, 0⟩ : V3 ℝ) = ⟨0, 0, 0⟩ := by
          rw [V3.real_cross]; simp
        unfold Inter.planePlane at hl
        dsimp only at hl
        rw [this, h0, h1, V3.norm_eq_zero.2 rfl] at hl
        simp [Scalar.isApprox, ht] at hl
      · exact V3.sq_normalized hz
    have hx := (C51_plane_plane d.layingPlane T.layingPlane hd hN tol ht).2 l hl
    obtain ⟨v0, v1, v2⟩ := onPlane_centroid T
    have ho := ((hx l.origin).1 ⟨0, by simp [along]⟩).2
    have h1 := ((hx (along l.origin 1 l.direction)).1 ⟨1, rfl⟩).2
    have hdir : dot3 l.direction T.layingPlane.normal = 0 := by
      simp only [OnPlane, dot3, minus, along] at ho h1 ⊢
      linear_combination h1 - ho
    have hrel : ∀ v, OnPlane T.layingPlane v → dot3 (minus v l.origin) T.layingPlane.normal = 0 := by
      intro v hv
      simp only [OnPlane, dot3, minus] at ho hv ⊢
      linear_combination hv - ho
    set g : V3 ℝ → ℝ := fun v => dot3 (minus v d.plane.origin) d.plane.normal with hg
    -- a hit on the edge from `a` to `b`
    have hit : ∀ a ∈ [T.v0, T.v1, T.v2], ∀ b ∈ [T.v0, T.v1, T.v2], OnPlane T.layingPlane a → OnPlane T.layingPlane b →
        ∀ p, Inter.lineSegment l ⟨a, b⟩ tol = some p → g a * g b ≤ 0 ∧ (g a = 0 → p = a) ∧ (g b = 0 → p = b) := by
      intro a ha b hb pa pb p hp
      have hab : dot3 (minus b a) T.layingPlane.normal = 0 := by
        have := hrel _ pa; have := hrel _ pb
        simp only [dot3, minus] at *; linarith
      obtain ⟨hol, t, t0, t1, rfl⟩ := Inter.lineSegment_spec l ⟨a, b⟩ tol ht (triple_zero hN (hrel _ pa) hdir hab) p hp
      dsimp only at hol hp ⊢
      have hgp : g a + t * (g b - g a) = 0 := by
        have : OnPlane d.layingPlane (along a t (minus b a)) := ((hx _).1 hol).1
        simp only [OnPlane, Disk.layingPlane, dot3, minus, along, g] at this ⊢
        linear_combination this
      refine ⟨?_, fun h0 => ?_, fun h0 => ?_⟩
      · by_contra hc
        push Not at hc
        exact no_crossing hc (hclear a ha b hb hc) (hclear b hb a ha (by rw [mul_comm]; exact hc)) t0 t1 hgp
      · rw [h0] at hgp
        have ht0 : t = 0 ∨ g b = 0 := by
          rcases mul_eq_zero.1 (show t * g b = 0 by linarith) with h | h
          · exact .inl h
          · exact .inr h
        rcases ht0 with rfl | hb0
        · simp only [along]; ext <;> simp
        · have := Inter.lineSegment_onLine (s := ⟨a, b⟩) ht ((hx a).2 ⟨h0, pa⟩) ((hx b).2 ⟨hb0, pb⟩)
          rw [this] at hp; cases hp
      · rw [h0] at hgp
        have ht0 : t = 1 ∨ g a = 0 := by
          rcases mul_eq_zero.1 (show (1 - t) * g a = 0 by linarith) with h | h
          · exact .inl (by linarith)
          · exact .inr h
        rcases ht0 with rfl | hb0
        · simp only [along, minus]; ext <;> simp
        · have := Inter.lineSegment_onLine (s := ⟨a, b⟩) ht ((hx a).2 ⟨hb0, pa⟩) ((hx b).2 ⟨h0, pb⟩)
          rw [this] at hp; cases hp
    have hseg : ∃ o, Inter.lineTriangleSeg l T tol = .ok o := by
      unfold Inter.lineTriangleSeg
      split
      · exact ⟨_, rfl⟩
      · exact ⟨_, rfl⟩
      · exact ⟨_, rfl⟩
      · rename_i p0 p1 p2 e0 e1 e2
        obtain ⟨m01, a0, b0⟩ := hit T.v0 (by simp) T.v1 (by simp) v0 v1 p0 e0
        obtain ⟨m12, a1, b1⟩ := hit T.v1 (by simp) T.v2 (by simp) v1 v2 p1 e1
        obtain ⟨m20, a2, b2⟩ := hit T.v2 (by simp) T.v0 (by simp) v2 v0 p2 e2
        have hz : g T.v0 = 0 ∨ g T.v1 = 0 ∨ g T.v2 = 0 := by
          by_contra hc
          push Not at hc
          obtain ⟨c0, c1, c2⟩ := hc
          have : 0 < (g T.v0 * g T.v1 * g T.v2) ^ 2 := by positivity
          nlinarith [mul_nonneg_of_nonpos_of_nonpos m01 m12, mul_pos (mul_self_pos.2 c0) (mul_self_pos.2 c2), mul_self_pos.2 c1]
        split
        · exact ⟨_, rfl⟩
        · split
          · exact ⟨_, rfl⟩
          · split
            · exact ⟨_, rfl⟩
            · rename_i n01 n12 n02
              exfalso
              rcases hz with h | h | h
              · rw [a0 h, b2 h] at n02; exact n02 (V3.isApprox_self _ _)
              · rw [b0 h, a1 h] at n01; exact n01 (V3.isApprox_self _ _)
              · rw [b1 h, a2 h] at n12; exact n12 (V3.isApprox_self _ _)
      · exact ⟨_, rfl⟩
    obtain ⟨o, ho⟩ := hseg
    rw [ho, Res.bind_ok]
    cases o with
    | none => exact ⟨_, rfl⟩
    | some s => exact ⟨_, rfl⟩

/-- The plane of a rib in the ground frame. -/
theorem Rib.side_eq {r : Rib ℝ} (hr : IsRib r) (pose : Affine ℝ) (p : V3 ℝ) :
    dot3 (minus p (r.diskGrd pose).plane.origin) (r.diskGrd pose).plane.normal = side pose r p := by
  have hn : (r.diskGrd pose).plane.normal = pose.linear.c1 := by
    show M3.mulVec pose.linear r.disk.plane.normal = _
    rw [hr.normal, M3.mulVec_e1]
  rw [hn]
  unfold side
  have : (r.diskGrd pose).plane.origin = ribCentre pose r := by
    show r.centerGrd pose = _
    unfold Rib.centerGrd ribCentre
    v3
    congr 1 <;> ring
  rw [this]

/-- The loop returns when every triangle is clear. -/
theorem Rib.geomLoop_ok {r : Rib ℝ} (hr : IsRib r) {pose : Affine ℝ} (hp : IsRigid pose)
    (ts : List (TriangleGround ℝ)) (h : ∀ t ∈ ts, ClearOfRib pose r t.tri) (acc : Rib.Acc ℝ) :
    ∃ acc', r.geomLoop pose ts acc = .ok acc' := by
  induction ts generalizing acc with
  | nil => exact ⟨_, rfl⟩
  | cons t ts ih =>
    have hu : Unit3 (r.diskGrd pose).plane.normal := by
      have hR : IsRotation pose.linear := hp
      have : (r.diskGrd pose).plane.normal = pose.linear.c1 := by
        show M3.mulVec pose.linear r.disk.plane.normal = _
        rw [hr.normal, M3.mulVec_e1]
      rw [this]; exact hR.unit1
    obtain ⟨o, ho⟩ := Inter.triangleDisk_ok t.tri (r.diskGrd pose) hu Scalar.eps real_eps_pos (by
      intro u hu' v hv huv
      simp only [Rib.side_eq hr] at huv ⊢
      exact h t (by simp) u hu' v hv huv)
    have ih := ih fun t' ht' => h t' (List.mem_cons_of_mem _ ht')
    rw [Rib.geomLoop, ho, Res.bind_ok]
    cases o with
    | none => exact ih acc
    | some seg =>
      dsimp only
      cases r.contrib pose t seg with
      | none => exact ⟨_, rfl⟩
      | some c => exact ih _

/-- A mesh as the library makes it: read from a file, or built from a list of constructed triangles
numbered in order. -/
def Spec.BuiltMesh (m : Mesh ℝ) : Prop :=
  (∃ np, m.Loaded np) ∨
  ∃ ts : List (TriangleGround ℝ), ts ≠ [] ∧ (∀ t ∈ ts, t.Constructed) ∧
    (∀ (i : Nat) t, ts[i]? = some t → t.id = i) ∧ m = Mesh.ofTriangles ts

theorem Spec.BuiltMesh.query {m : Mesh ℝ} (hm : BuiltMesh m) (q : Box ℝ)
    (hq : q.min.x ≤ q.max.x ∧ q.min.y ≤ q.max.y ∧ q.min.z ≤ q.max.z) :
    ∃ loc, m.intersection q = .ok loc ∧ loc.Perm (m.triangles.filter fun t => t.bbox.intersects q) := by
  have key : ∀ l, (∃ flag out, m.query q [] = .ok (flag, out) ∧ out.Perm l) →
      ∃ loc, m.intersection q = .ok loc ∧ loc.Perm l := by
    rintro l ⟨flag, out, h1, h2⟩
    cases hi : m.intersection q with
    | ok o =>
      simp only [Mesh.query, hi, Res.bind_ok, Res.pure_eq, Res.ok.injEq, Prod.mk.injEq] at h1
      exact ⟨o, rfl, by rw [h1.2]; exact h2⟩
    | throw e => simp [Mesh.query, hi] at h1
    | ub w => simp [Mesh.query, hi] at h1
  rcases hm with ⟨np, hm⟩ | ⟨ts, h1, h2, h3, rfl⟩
  · obtain ⟨flag, out, h1, h2, -⟩ := C11_box_query_exact OrderOn.real np m hm (fun _ _ => Demo.allTrue) q
      ((Box.real_WF q).2 hq) []
    exact key _ ⟨flag, out, h1, h2⟩
  · obtain ⟨flag, out, e1, e2⟩ := C17_vector_mesh_partial OrderOn.real ts h1 h2 h3
      (fun _ _ => Demo.allTrue) q ((Box.real_WF q).2 hq) []
    exact key _ ⟨flag, out, e1, e2⟩

theorem Shell.updateBBox_WF (s : Shell ℝ) : s.updateBBox.bbox.min.x ≤ s.updateBBox.bbox.max.x ∧
    s.updateBBox.bbox.min.y ≤ s.updateBBox.bbox.max.y ∧ s.updateBBox.bbox.min.z ≤ s.updateBBox.bbox.max.z := by
  have key : ∀ a b : ℝ, (Box.order1 a b).1 ≤ (Box.order1 a b).2 := by
    intro a b
    simp only [Box.order1, real_lt]
    split
    · rename_i h; rw [decide_eq_true_eq] at h; exact h.le
    · rename_i h; rw [decide_eq_true_eq] at h; push Not at h; exact h
  exact ⟨key _ _, key _ _, key _ _⟩

/-- **C37 (partial).**  On every mesh and for every rigid pose, setup with the geometric method returns
normally if no triangle near the shell has two vertices on the same side of the plane of a rib of which one
is within `eps` (relative to the difference of their distances) of that plane.  In particular vertices may
lie exactly on rib planes.  Missing: nearly touching vertices, where it is false
(`C37_near_vertex_refuted`). -/
theorem C37_setup_partial (s : Shell ℝ) (hs : s.Reachable .raw) (hn : s.size ≤ 200) (m : Mesh ℝ) (hm : BuiltMesh m)
    (pose : Affine ℝ) (hp : IsRigid pose)
    (hclear : ∀ t ∈ m.triangles, t.bbox.intersects (s.transform pose).updateBBox.bbox = true →
      ∀ r ∈ s.ribs, ClearOfRib pose r t.tri) :
    ∃ s' b, s.setupMesh .raw m pose "geometric" = .ok s' b := by
  obtain ⟨loc, hloc, hperm⟩ := hm.query _ (Shell.updateBBox_WF (s.transform pose))
  have hacc : ∀ j < s.ribs.length, s.out.accessible .raw (0 + j) = true := fun i hi => by
    rw [Shell.accessible_raw hs.inv]
    have : s.ribs.length ≤ 200 := hn
    exact decide_eq_true (by omega)
  by_cases hne : loc = []
  · subst hne
    obtain ⟨out', b', hl⟩ := Shell.ribLoop_total (comb := fun _ _ => false) (b := false)
      (f := fun _ r => .ok (false, r.noContact pose)) hacc (fun j r _ => ⟨_, rfl⟩)
    have hset := Shell.setupMesh_none (pol := .raw) (method := "geometric") hloc
    rw [hl] at hset
    exact ⟨_, _, hset⟩
  · have hset := Shell.setupMesh_some (pol := .raw) (method := "geometric") hs.inv.cands hloc hne
    obtain ⟨out', b', hl⟩ := Shell.ribLoop_total (comb := fun c b => c || b) (b := false)
      (f := fun _ r => r.envelopMesh (Shell.ribCandidates pose "geometric" loc r) pose "geometric") hacc
      (fun j r hr => by
        have hmem : r ∈ s.ribs := List.mem_of_getElem? hr
        obtain ⟨acc, hacc⟩ := Rib.geomLoop_ok (hs.isRib r hmem) hp (Shell.ribCandidates pose "geometric" loc r)
          (fun t ht => by
            have ht : t ∈ loc := (List.mem_filter.1 ht).1
            have ht := List.mem_filter.1 (hperm.mem_iff.1 ht)
            exact hclear t ht.1 ht.2 r hmem) Rib.Acc.init
        refine ⟨Rib.geomFinish r pose acc, ?_⟩
        simp only [Rib.envelopMesh, if_true, Rib.envelopGeometricMesh, hacc, Res.bind_ok, Res.pure_eq])
    rw [hl] at hset
    exact ⟨_, _, hset⟩

/-- The shell with one rib of radius 1 and width 2. -/
theorem Demo.oneRib (fresh : Nat → Output ℝ) : ∃ (s : Shell ℝ) (a : Rib ℝ), Shell.make fresh 1 1 2 2 2 1 = .ok s ∧
    s.shape = ⟨1, 2, 2, 2, 1⟩ ∧ s.ribs = [a] ∧ IsRib a ∧ a.center = ⟨0, 0, 0⟩ ∧ a.radius = 1 ∧ a.width = 2 := by
  have hv : ValidProfile (1 : ℝ) 2 2 2 1 :=
    ⟨by norm_num, by norm_num, by norm_num, by norm_num, by norm_num, by norm_num⟩
  obtain ⟨s, h1, h2, -, hshape, h5, -⟩ := C04_construct fresh 1 (by norm_num) 1 2 2 2 1 hv
  obtain ⟨r0, hr0, c0, w0, e0, p0⟩ := h5 0 (by norm_num)
  have hreach : s.Reachable .raw := .make h1
  obtain ⟨a, hab⟩ : ∃ a, s.ribs = [a] := by
    have hl : s.ribs.length = 1 := h2
    match hs : s.ribs, hl with
    | [a], _ => exact ⟨a, rfl⟩
  have ha : IsRib a := hreach.isRib a (by rw [hab]; simp)
  simp only [Shell.ribCenter, Shell.ribRadius, Shell.ribWidth, Shell.ribAt, hab, List.getElem?_cons_zero, Res.bind_ok,
    Res.pure_eq, Res.ok.injEq] at c0 e0 w0
  have hac : a.center = ⟨0, 0, 0⟩ := by rw [c0]; norm_num
  refine ⟨s, a, h1, hshape, hab, ha, hac, ?_, by rw [w0]; norm_num⟩
  rw [e0]
  have := p0.2
  rw [div_one, Real.rpow_two, Real.rpow_two] at this
  norm_num at this
  rcases this with h | h <;> linarith

theorem Demo.field_built : BuiltMesh (Mesh.ofTriangles [Demo.field]) := by
  refine .inr ⟨_, by simp, ?_, ?_, rfl⟩
  · simp only [List.mem_singleton, forall_eq]; exact ⟨_, _, _, _, _, Demo.field_make⟩
  · intro i t ht
    match i, ht with
    | 0, ht => simp at ht; subst ht; rfl
    | n + 1, ht => simp at ht

/-- The hypotheses of `C37_setup_partial` are met. -/
example (fresh : Nat → Output ℝ) : ∃ (s s' : Shell ℝ) (b : Bool), s.Reachable .raw ∧ s.size = 1 ∧
    s.setupMesh .raw (Mesh.ofTriangles [Demo.field]) (Demo.upright (1 / 2)) "geometric" = .ok s' b := by
  obtain ⟨s, a, h1, -, hab, ha, hac, -⟩ := Demo.oneRib fresh
  have hreach : s.Reachable .raw := .make h1
  have hsz : s.size = 1 := by simp [Shell.size, hab]
  obtain ⟨s', b, h⟩ := C37_setup_partial s hreach (by omega) _ Demo.field_built _ (Demo.upright_rigid (1 / 2)) (by
    intro t ht _ r hr
    rw [hab, List.mem_singleton] at hr
    have ht : t ∈ [Demo.field] := ht
    rw [List.mem_singleton] at ht
    subst hr ht
    have hside : ∀ p : V3 ℝ, side (Demo.upright (1 / 2)) r p = p.y := by
      intro p
      simp only [side, dot3, minus, ribCentre, hac, Demo.upright]
      v3
      ring
    have hpos := real_eps_pos
    have heps := real_eps_le_half
    intro u hu v hv huv
    rw [hside, hside] at huv ⊢
    have hf : Demo.field.tri = ⟨⟨0, 10, 0⟩, ⟨-30, -10, 0⟩, ⟨30, -10, 0⟩⟩ := rfl
    simp only [hf, List.mem_cons, List.not_mem_nil, or_false] at hu hv
    rcases hu with rfl | rfl | rfl <;> rcases hv with rfl | rfl | rfl <;> first | (norm_num at huv; done) | norm_num)
  exact ⟨s, s', b, hreach, hsz, h⟩

/-- A triangle with a vertex very close to the plane `y = 0`, on the same side as another vertex. -/
noncomputable def Demo.spike : TriangleGround ℝ :=
  TriangleGround.updateBBox (TriangleGround.updateNormal
    ⟨⟨⟨0, 1, 0⟩, ⟨0, -(Scalar.eps / 2), 0⟩, ⟨1, -1, 0⟩⟩, 0, 1, V3.nan, Box.default⟩)

theorem Demo.spike_make :
    TriangleGround.make 0 (1 : ℝ) ⟨0, 1, 0⟩ ⟨0, -(Scalar.eps / 2), 0⟩ ⟨1, -1, 0⟩ = .ok Demo.spike := by
  simp [TriangleGround.make, Demo.spike]

/-- The points at which the plane `y = 0` hits the edges of the spike, raised to the height `z`. -/
theorem Demo.spike_hits {δ : ℝ} (hδ : (Scalar.eps : ℝ) / 2 = δ) (z : ℝ) :
    Inter.lineSegment (xAxis (levelFrame z)) ⟨(levelFrame z).apply ⟨0, 1, 0⟩, (levelFrame z).apply ⟨0, -δ, 0⟩⟩
      Scalar.eps = some ⟨0, 0, z⟩ ∧
    Inter.lineSegment (xAxis (levelFrame z)) ⟨(levelFrame z).apply ⟨0, -δ, 0⟩, (levelFrame z).apply ⟨1, -1, 0⟩⟩
      Scalar.eps = some ⟨-(δ / (1 - δ)), 0, z⟩ ∧
    Inter.lineSegment (xAxis (levelFrame z)) ⟨(levelFrame z).apply ⟨1, -1, 0⟩, (levelFrame z).apply ⟨0, 1, 0⟩⟩
      Scalar.eps = some ⟨1 / 2, 0, z⟩ := by
  have heps := real_eps_le_half
  have hpos := real_eps_pos
  have hF := levelFrame_rigid z
  have hδ0 : 0 < δ := by linarith
  have hδ1 : δ ≤ 1 / 4 := by linarith
  have hsq : ∀ x : ℝ, x ≤ 9 → Real.sqrt x ≤ 3 := fun x hx => by
    rw [show (3 : ℝ) = Real.sqrt (3 ^ 2) by rw [Real.sqrt_sq (by norm_num)]]
    exact Real.sqrt_le_sqrt (by norm_num; exact hx)
  have heps3 : (Scalar.eps : ℝ) ≤ 1 / 10 := by rw [real_eps]; norm_num
  have e0 : Inter.lineSegment (xAxis (levelFrame z)) ⟨(levelFrame z).apply ⟨0, 1, 0⟩, (levelFrame z).apply ⟨0, -δ, 0⟩⟩
      Scalar.eps = some ⟨0, 0, z⟩ := by
    rw [Inter.lineSegment_hit hF hpos (by nlinarith) (by intro h; linarith)]
    · rw [levelFrame_apply]; simp
    · have := hsq ((0 - 0) ^ 2 + (-δ - 1) ^ 2) (by nlinarith)
      have := Real.sqrt_nonneg ((0 - 0) ^ 2 + (-δ - 1) ^ 2)
      rw [abs_of_neg (by linarith)]
      nlinarith
  have e1 : Inter.lineSegment (xAxis (levelFrame z)) ⟨(levelFrame z).apply ⟨0, -δ, 0⟩, (levelFrame z).apply ⟨1, -1, 0⟩⟩
      Scalar.eps = some ⟨-(δ / (1 - δ)), 0, z⟩ := by
    have hq : -δ / (-δ - -1) = -(δ / (1 - δ)) := by rw [neg_div]; congr 2; ring
    have hb : δ / (1 - δ) ≤ Scalar.eps := by
      rw [div_le_iff₀ (by linarith)]; nlinarith
    have hb0 : 0 < δ / (1 - δ) := div_pos hδ0 (by linarith)
    rw [Inter.lineSegment_planar hF _ hpos, if_neg, if_neg, hq]
    · rw [levelFrame_apply]; simp
    · rw [hq]
      rintro (h | h) <;> linarith
    · have := hsq ((1 - 0) ^ 2 + (-1 - -δ) ^ 2) (by nlinarith)
      have := Real.sqrt_nonneg ((1 - 0) ^ 2 + (-1 - -δ) ^ 2)
      rw [abs_of_neg (by linarith)]
      rintro (h | h)
      · nlinarith
      · linarith
  have e2 : Inter.lineSegment (xAxis (levelFrame z)) ⟨(levelFrame z).apply ⟨1, -1, 0⟩, (levelFrame z).apply ⟨0, 1, 0⟩⟩
      Scalar.eps = some ⟨1 / 2, 0, z⟩ := by
    rw [Inter.lineSegment_hit hF hpos (by norm_num) (by norm_num)]
    · rw [levelFrame_apply]; norm_num [crossX]
    · have := hsq ((0 - 1) ^ 2 + (1 - -1) ^ 2) (by norm_num)
      have := Real.sqrt_nonneg ((0 - 1 : ℝ) ^ 2 + (1 - -1) ^ 2)
      rw [show |(1 : ℝ) - -1| = 2 by norm_num]
      nlinarith
  exact ⟨e0, e1, e2⟩

theorem Demo.spike_throws {r : Rib ℝ} (hr : IsRib r) (hc : r.center = ⟨0, 0, 0⟩) (h : ℝ) :
    Inter.triangleDisk Demo.spike.tri (r.diskGrd (Demo.upright h)) Scalar.eps = .throw "exception not handled." := by
  have heps := real_eps_le_half
  have hpos := real_eps_pos
  generalize hδ : (Scalar.eps : ℝ) / 2 = δ
  have hδ0 : 0 < δ := by linarith
  have hδ1 : δ ≤ 1 / 4 := by linarith
  have hdisk := level_disk hr hc h (x0 := 0) (y0 := 1) (x1 := 0) (y1 := -δ) (x2 := 1) (y2 := -1) (z := 0)
    (by linarith)
  have htri : Demo.spike.tri = ⟨⟨0, 1, 0⟩, ⟨0, -δ, 0⟩, ⟨1, -1, 0⟩⟩ := by rw [← hδ]; rfl
  obtain ⟨e0, e1, e2⟩ := Demo.spike_hits hδ 0
  have hb0 : 0 < δ / (1 - δ) := div_pos hδ0 (by linarith)
  have hne : ∀ a b : ℝ, a ≠ b → (a = 0 ∨ (a < 0 ∧ 0 < b ∧ b < 1)) → V3.isApprox (⟨a, 0, 0⟩ : V3 ℝ) ⟨b, 0, 0⟩ Scalar.eps = false := by
    intro a b hab h
    rw [Bool.eq_false_iff]
    intro hc
    have hsn : ∀ u : ℝ, V3.sqNorm (⟨u, 0, 0⟩ : V3 ℝ) = u ^ 2 := fun u => by rw [V3.real_sqNorm]; ring
    have hsub : V3.sub (⟨a, 0, 0⟩ : V3 ℝ) ⟨b, 0, 0⟩ = ⟨a - b, 0, 0⟩ := by v3; congr 1 <;> ring
    simp only [V3.isApprox, real_le, real_mul, real_min, hsub, hsn, decide_eq_true_eq] at hc
    rcases h with rfl | ⟨ha, hb, hb1⟩
    · have : 0 < b ^ 2 := by
        have : b ≠ 0 := fun h => hab h.symm
        positivity
      rw [min_eq_left (by nlinarith)] at hc
      nlinarith
    · have hm : Min.min (a ^ 2) (b ^ 2) ≤ b ^ 2 := min_le_right _ _
      have h2 : (Scalar.eps : ℝ) * Scalar.eps ≤ 1 := by nlinarith
      have h3 : (Scalar.eps : ℝ) * Scalar.eps * Min.min (a ^ 2) (b ^ 2) ≤ 1 * b ^ 2 :=
        mul_le_mul h2 hm (le_min (by positivity) (by positivity)) zero_le_one
      nlinarith [mul_pos (neg_pos.2 ha) hb, pow_pos (neg_pos.2 ha) 2]
  rw [htri, hdisk]
  unfold Inter.lineTriangleSeg
  simp only [Triangle.edge0, Triangle.edge1, Triangle.edge2, e0, e1, e2]
  rw [hne 0 _ (by linarith) (.inl rfl), hne _ _ (by linarith) (.inr ⟨by linarith, by norm_num, by norm_num⟩),
    hne 0 (1 / 2) (by norm_num) (.inl rfl)]
  rfl

/-- **C37 is false.**  A shell with one rib, upright with its centre on the ground, and a mesh of one
nondegenerate triangle with a vertex at distance `eps / 2` from the plane of the rib: setup with the geometric
method throws. -/
theorem C37_near_vertex_refuted (fresh : Nat → Output ℝ) :
    ∃ (s s' : Shell ℝ) (t : TriangleGround ℝ) (pose : Affine ℝ), Shell.make fresh 1 1 2 2 2 1 = .ok s ∧
      IsRigid pose ∧
      TriangleGround.make 0 1 ⟨0, 1, 0⟩ ⟨0, -(Scalar.eps / 2), 0⟩ ⟨1, -1, 0⟩ = .ok t ∧
      1 / 2 ≤ t.tri.area ∧ BuiltMesh (Mesh.ofTriangles [t]) ∧
      s.setupMesh .raw (Mesh.ofTriangles [t]) pose "geometric" = .throw s' "exception not handled." := by
  have hpos := real_eps_pos
  have heps := real_eps_le_half
  obtain ⟨s, a, h1, hshape, hab, ha, hac, -⟩ := Demo.oneRib fresh
  have hreach : s.Reachable .raw := .make h1
  have hbuilt : BuiltMesh (Mesh.ofTriangles [Demo.spike]) := by
    refine .inr ⟨_, by simp, ?_, ?_, rfl⟩
    · simp only [List.mem_singleton, forall_eq]; exact ⟨_, _, _, _, _, Demo.spike_make⟩
    · intro i t ht
      match i, ht with
      | 0, ht => simp at ht; subst ht; rfl
      | n + 1, ht => simp at ht
  obtain ⟨loc, hloc, hperm⟩ := hbuilt.query _ (Shell.updateBBox_WF (s.transform (Demo.upright 0)))
  have hint : Demo.spike.bbox.intersects (s.transform (Demo.upright 0)).updateBBox.bbox = true := by
    have hcon : Demo.spike.Constructed := ⟨_, _, _, _, _, Demo.spike_make⟩
    have hwf := hcon.bbox_WF OrderOn.real (Demo.allTrue (t := Demo.spike)).1 Demo.allTrue.2.1 Demo.allTrue.2.2
    rw [C14_intersects_iff_common_point _ _ ((Box.real_WF _).1 hwf) (Shell.updateBBox_WF _)]
    refine ⟨⟨0, 1, 0⟩, (C27_triangle_box _ _ _ _ _ _ Demo.spike_make).2.2.2.1 _
      ⟨1, 0, 0, by norm_num, by norm_num, by norm_num, by norm_num, by simp⟩, ?_⟩
    have hsh : (s.transform (Demo.upright 0)).shape = ⟨1, 2, 2, 2, 1⟩ := hshape
    have hf := Shell.updateBBox_follows (s.transform (Demo.upright 0)) (by rw [hsh]; norm_num)
    have hsh' : (s.transform (Demo.upright 0)).updateBBox.shape = ⟨1, 2, 2, 2, 1⟩ := hshape
    have hpo : (s.transform (Demo.upright 0)).updateBBox.pose = Demo.upright 0 := rfl
    rw [hf.1, hf.2, hsh', hpo]
    norm_num [InBox, Demo.upright]
  have hloc1 : loc = [Demo.spike] := by
    have : (Mesh.ofTriangles [Demo.spike]).triangles = [Demo.spike] := rfl
    rw [this] at hperm
    simp only [List.filter_cons, hint, List.filter_nil, if_true] at hperm
    exact List.perm_singleton.1 hperm
  subst hloc1
  have hset := Shell.setupMesh_some (pol := .raw) (method := "geometric") hreach.inv.cands hloc (by simp)
  have hcand : ∀ r, Shell.ribCandidates (Demo.upright 0) "geometric" [Demo.spike] r = [Demo.spike] := by
    intro r
    simp [Shell.ribCandidates, Shell.refines, Shell.isCandidate]
  have henv : a.envelopMesh [Demo.spike] (Demo.upright 0) "geometric" = .throw "exception not handled." := by
    simp only [Rib.envelopMesh, if_true, Rib.envelopGeometricMesh, Rib.geomLoop, Demo.spike_throws ha hac, Res.bind_throw]
  have hacc : s.out.accessible .raw 0 = true := by
    rw [Shell.accessible_raw hreach.inv]
    exact decide_eq_true (by omega)
  rw [hab] at hset
  simp only [hcand, Shell.ribLoop, hacc, Bool.not_true, Bool.false_eq_true, if_false, henv] at hset
  refine ⟨s, _, Demo.spike, Demo.upright 0, h1, Demo.upright_rigid 0, Demo.spike_make, ?_, hbuilt, hset⟩
  have e : V3.cross (V3.sub Demo.spike.tri.v1 Demo.spike.tri.v0) (V3.sub Demo.spike.tri.v2 Demo.spike.tri.v0) =
      ⟨0, 0, 1 + Scalar.eps / 2⟩ := by
    show V3.cross (V3.sub (⟨0, -(Scalar.eps / 2), 0⟩ : V3 ℝ) ⟨0, 1, 0⟩) (V3.sub ⟨1, -1, 0⟩ ⟨0, 1, 0⟩) = _
    v3; congr 1 <;> ring
  unfold Triangle.area
  rw [e, V3.norm_eq, length3]
  dsimp only
  rw [show ((0 : ℝ) ^ 2 + 0 ^ 2 + (1 + Scalar.eps / 2) ^ 2) = (1 + Scalar.eps / 2) ^ 2 by ring,
    Real.sqrt_sq (by linarith), real_div, real_two]
  linarith

/-! ## C34: the order of the triangles -/

/-- The only message the triangle/disk intersection throws. -/
theorem Inter.triangleDisk_throw {α : Type} [Scalar α] {T : Triangle α} {d : Disk α} {tol : α} :
    (∀ e, Inter.triangleDisk T d tol = .throw e → e = "exception not handled.") ∧
    ∀ w, Inter.triangleDisk T d tol ≠ .ub w := by
  have key : ∀ l : Line α, (∀ e, Inter.lineTriangleSeg l T tol = .throw e → e = "exception not handled.") ∧
      ∀ w, Inter.lineTriangleSeg l T tol ≠ .ub w := by
    intro l
    unfold Inter.lineTriangleSeg
    constructor
    · intro e h
      split at h <;> try cases h
      split at h <;> try cases h
      split at h <;> try cases h
      split at h <;> try cases h
      rfl
    · intro w h
      split at h <;> try cases h
      split at h <;> try cases h
      split at h <;> try cases h
      split at h <;> cases h
  unfold Inter.triangleDisk Inter.planeTriangle
  cases Inter.planePlane d.layingPlane T.layingPlane tol with
  | none => constructor <;> intro _ h <;> cases h
  | some l =>
    dsimp only
    obtain ⟨k1, k2⟩ := key l
    cases hl : Inter.lineTriangleSeg l T tol with
    | ok o => rw [Res.bind_ok]; cases o <;> (constructor <;> intro _ h <;> cases h)
    | throw e =>
      rw [Res.bind_throw]
      exact ⟨fun e' h => by cases h; exact k1 e hl, fun w h => by cases h⟩
    | ub w => exact absurd hl (k2 w)

theorem Rib.Acc.add_comm (acc : Rib.Acc ℝ) (c d : Rib.Contrib ℝ) : (acc.add c).add d = (acc.add d).add c := by
  simp only [Rib.Acc.add]
  v3
  congr 1
  · ring
  · ring
  · congr 1 <;> ring
  · congr 1 <;> ring
  · ring

/-- Permuting the triangles does not change the outcome of the loop, if no triangle makes it stop early. -/
theorem Rib.geomLoop_perm {r : Rib ℝ} {pose : Affine ℝ} {ts ts' : List (TriangleGround ℝ)} (h : ts.Perm ts')
    (hb : ∀ t ∈ ts, ∀ seg, Inter.triangleDisk t.tri (r.diskGrd pose) Scalar.eps = .ok (some seg) →
      r.contrib pose t seg ≠ none) (acc : Rib.Acc ℝ) : r.geomLoop pose ts acc = r.geomLoop pose ts' acc := by
  induction h generalizing acc with
  | nil => rfl
  | cons t _ ih =>
    have ih := ih fun t' ht' => hb t' (List.mem_cons_of_mem _ ht')
    rw [Rib.geomLoop, Rib.geomLoop]
    congr 1
    funext o
    cases o with
    | none => exact ih acc
    | some seg =>
      dsimp only
      cases r.contrib pose t seg with
      | none => rfl
      | some c => exact ih _
  | swap a b l =>
    obtain ⟨ta, ua⟩ := Inter.triangleDisk_throw (T := a.tri) (d := r.diskGrd pose) (tol := Scalar.eps)
    obtain ⟨tb, ub⟩ := Inter.triangleDisk_throw (T := b.tri) (d := r.diskGrd pose) (tol := Scalar.eps)
    have ha := hb a (by simp)
    have hb' := hb b (by simp)
    simp only [Rib.geomLoop]
    cases hA : Inter.triangleDisk a.tri (r.diskGrd pose) Scalar.eps with
    | ub w => exact absurd hA (ua w)
    | throw e =>
      have := ta e hA
      subst this
      cases hB : Inter.triangleDisk b.tri (r.diskGrd pose) Scalar.eps with
      | ub w => exact absurd hB (ub w)
      | throw e => rw [tb e hB]; rfl
      | ok o =>
        cases o with
        | none => rfl
        | some s =>
          simp only [Res.bind_ok, Res.bind_throw]
          cases hc : r.contrib pose b s with
          | none => exact absurd hc (hb' s hB)
          | some c => rfl
    | ok oa =>
      cases hB : Inter.triangleDisk b.tri (r.diskGrd pose) Scalar.eps with
      | ub w => exact absurd hB (ub w)
      | throw e =>
        have := tb e hB
        subst this
        cases oa with
        | none => rfl
        | some s =>
          simp only [Res.bind_ok, Res.bind_throw]
          cases hc : r.contrib pose a s with
          | none => exact absurd hc (ha s hA)
          | some c => rfl
      | ok ob =>
        simp only [Res.bind_ok]
        cases oa with
        | none =>
          cases ob with
          | none => rfl
          | some s =>
            cases hc : r.contrib pose b s <;> rfl
        | some sa =>
          cases ob with
          | none =>
            cases hc : r.contrib pose a sa <;> rfl
          | some sb =>
            dsimp only
            cases hc : r.contrib pose a sa with
            | none => exact absurd hc (ha sa hA)
            | some ca =>
              cases hd : r.contrib pose b sb with
              | none => exact absurd hd (hb' sb hB)
              | some cb =>
                dsimp only
                rw [Rib.Acc.add_comm]
  | trans h1 _ ih1 ih2 =>
    rw [ih1 hb acc, ih2 (fun t ht => hb t (h1.mem_iff.2 ht)) acc]

/-- **C34 (partial).**  If no triangle meets the rib disk in a segment shorter than `eps`, reordering the
triangles changes nothing in the outcome of the geometric method: neither the flag, nor any reported quantity
(nor whether it throws).  Missing: triangles touched in a shorter segment, where it is false
(`C34_order_refuted`). -/
theorem C34_order_partial (r : Rib ℝ) (pose : Affine ℝ) (ts ts' : List (TriangleGround ℝ)) (h : ts.Perm ts')
    (hlen : ∀ t ∈ ts, ∀ seg, Inter.triangleDisk t.tri (r.diskGrd pose) Scalar.eps = .ok (some seg) →
      Scalar.eps ≤ dist3 seg.v0 seg.v1) :
    r.envelopGeometricMesh ts pose = r.envelopGeometricMesh ts' pose := by
  unfold Rib.envelopGeometricMesh
  rw [Rib.geomLoop_perm h]
  intro t ht seg hs hc
  have := hlen t ht seg hs
  unfold Rib.contrib at hc
  dsimp only at hc
  rw [if_neg] at hc
  · cases hc
  · rw [Segment.length, V3.norm_sub]
    simp only [real_lt, Bool.and_eq_true, decide_eq_true_eq, not_and]
    intro _
    linarith

/-- A large triangle one half below the road. -/
noncomputable def Demo.low : TriangleGround ℝ :=
  TriangleGround.updateBBox (TriangleGround.updateNormal
    ⟨⟨⟨0, 10, -1 / 2⟩, ⟨-30, -10, -1 / 2⟩, ⟨30, -10, -1 / 2⟩⟩, 1, 1, V3.nan, Box.default⟩)

theorem Demo.low_make :
    TriangleGround.make 1 (1 : ℝ) ⟨0, 10, -1 / 2⟩ ⟨-30, -10, -1 / 2⟩ ⟨30, -10, -1 / 2⟩ = .ok Demo.low := by
  simp [TriangleGround.make, Demo.low]

theorem Demo.field_crosses : Crosses (Scalar.eps : ℝ) 0 10 (-30) (-10) 30 (-10) := by
  have heps : (Scalar.eps : ℝ) ≤ 1 / 10 := by rw [real_eps]; norm_num
  have e : ∀ x : ℝ, x ≤ 1600 → Real.sqrt x ≤ 40 := fun x hx => by
    rw [show (40 : ℝ) = Real.sqrt (40 ^ 2) by rw [Real.sqrt_sq (by norm_num)]]
    exact Real.sqrt_le_sqrt (by norm_num; exact hx)
  refine ⟨by norm_num, by norm_num, ?_, ?_, ?_, ?_⟩
  · have := e ((0 - -30) ^ 2 + (10 - -10) ^ 2) (by norm_num)
    have := Real.sqrt_nonneg ((0 - -30 : ℝ) ^ 2 + (10 - -10) ^ 2)
    rw [show |(10 : ℝ) - -10| = 20 by norm_num]
    nlinarith
  · have := e ((0 - 30) ^ 2 + (10 - -10) ^ 2) (by norm_num)
    have := Real.sqrt_nonneg ((0 - 30 : ℝ) ^ 2 + (10 - -10) ^ 2)
    rw [show |(10 : ℝ) - -10| = 20 by norm_num]
    nlinarith
  · norm_num
  · norm_num

/-- The rib that just touches a triangle below it meets it in a point. -/
theorem Demo.low_touch : Inter.triangleDisk Demo.low.tri ((Demo.ribOf 1).diskGrd (Demo.upright (1 / 2))) Scalar.eps =
    .ok (some ⟨⟨0, 0, -1 / 2⟩, ⟨0, 0, -1 / 2⟩⟩) := by
  have hr := Demo.ribOf_isRib (w := 1) zero_le_one
  have hc : (Demo.ribOf 1).center = ⟨0, 0, 0⟩ := by simp [Demo.ribOf, Rib.center, Rib.make, Disk.center]
  have hR : (Demo.ribOf 1).radius = 1 := rfl
  have hpos := real_eps_pos
  have heps : (Scalar.eps : ℝ) ≤ 1 / 10 := by rw [real_eps]; norm_num
  have hF := levelFrame_rigid (-1 / 2)
  have hseg := Demo.field_crosses.seg0 hF hpos
  have c1 : crossX 0 10 30 (-10) = 15 := by norm_num [crossX]
  have c2 : crossX 0 10 (-30) (-10) = -15 := by norm_num [crossX]
  rw [c1, c2] at hseg
  have hdisk := level_disk hr hc (1 / 2) (x0 := 0) (y0 := 10) (x1 := -30) (y1 := -10) (x2 := 30) (y2 := -10)
    (z := -1 / 2) (by norm_num)
  rw [hseg, Res.bind_ok, Option.bind_some, hR, Inter.segmentDisk_planar hF _ _ _ _ _ _ hpos real_eps_lt_one.le
    real_eps_lt_one.le (by norm_num; linarith), if_neg (by norm_num; linarith), if_pos (by norm_num; linarith),
    if_neg (by norm_num), levelFrame_apply, Res.pure_eq] at hdisk
  exact hdisk

/-- **C34 is false.**  A triangle which the rib only touches makes the loop stop: listed first it hides the
triangle above it, listed last it does not. -/
theorem C34_order_refuted :
    ∃ (r : Rib ℝ) (pose : Affine ℝ) (t u : TriangleGround ℝ) (o : Output ℝ), IsRib r ∧ IsRigid pose ∧
      TriangleGround.make 0 1 ⟨0, 10, 0⟩ ⟨-30, -10, 0⟩ ⟨30, -10, 0⟩ = .ok t ∧
      TriangleGround.make 1 1 ⟨0, 10, -1 / 2⟩ ⟨-30, -10, -1 / 2⟩ ⟨30, -10, -1 / 2⟩ = .ok u ∧
      r.envelopGeometricMesh [t, u] pose = .ok (true, o) ∧
      r.envelopGeometricMesh [u, t] pose = .ok (false, r.noContact pose) := by
  have hpos := real_eps_pos
  obtain ⟨of, om, -, hm, -, -⟩ := Demo.field_agrees
  have hbreak : (Demo.ribOf 1).contrib (Demo.upright (1 / 2)) Demo.low ⟨⟨0, 0, -1 / 2⟩, ⟨0, 0, -1 / 2⟩⟩ = none := by
    unfold Rib.contrib
    dsimp only
    rw [if_pos]
    have : Segment.length (⟨⟨0, 0, -1 / 2⟩, ⟨0, 0, -1 / 2⟩⟩ : Segment ℝ) = 0 := by
      rw [Segment.length, V3.norm_sub]; simp [dist3]
    rw [this]
    simp [hpos]
  have hlow : ∀ acc ts, (Demo.ribOf 1).geomLoop (Demo.upright (1 / 2)) (Demo.low :: ts) acc = .ok acc := by
    intro acc ts
    rw [Rib.geomLoop, Demo.low_touch, Res.bind_ok]
    simp only [hbreak, Res.pure_eq]
  refine ⟨Demo.ribOf 1, Demo.upright (1 / 2), Demo.field, Demo.low, om, Demo.ribOf_isRib zero_le_one,
    Demo.upright_rigid _, Demo.field_make, Demo.low_make, ?_, ?_⟩
  · rw [← hm]
    unfold Rib.envelopGeometricMesh
    congr 1
    conv_lhs => rw [Rib.geomLoop]
    conv_rhs => rw [Rib.geomLoop]
    congr 1
    funext o
    cases o with
    | none => dsimp only; rw [hlow, Rib.geomLoop]
    | some seg =>
      dsimp only
      cases (Demo.ribOf 1).contrib (Demo.upright (1 / 2)) Demo.field seg with
      | none => rfl
      | some c => dsimp only; rw [hlow, Rib.geomLoop]
  · unfold Rib.envelopGeometricMesh
    rw [hlow, Res.bind_ok]
    simp [Rib.geomFinish, Rib.Acc.init]

/-- The section of the field by the rib half a radius above it. -/
theorem Demo.field_cut : Inter.triangleDisk Demo.field.tri ((Demo.ribOf 1).diskGrd (Demo.upright (1 / 2))) Scalar.eps =
    .ok (some ⟨⟨Real.sqrt (3 / 4), 0, 0⟩, ⟨-Real.sqrt (3 / 4), 0, 0⟩⟩) := by
  have hr := Demo.ribOf_isRib (w := 1) zero_le_one
  have hc : (Demo.ribOf 1).center = ⟨0, 0, 0⟩ := by simp [Demo.ribOf, Rib.center, Rib.make, Disk.center]
  have hR : (Demo.ribOf 1).radius = 1 := rfl
  have hpos := real_eps_pos
  have heps : (Scalar.eps : ℝ) ≤ 1 / 10 := by rw [real_eps]; norm_num
  have hF := levelFrame_rigid 0
  have hs : Real.sqrt (3 / 4) ≤ 1 := by
    rw [show (1 : ℝ) = Real.sqrt 1 by rw [Real.sqrt_one]]
    exact Real.sqrt_le_sqrt (by norm_num)
  have hs0 := Real.sqrt_nonneg (3 / 4)
  have hseg := Demo.field_crosses.seg0 hF hpos
  have c1 : crossX 0 10 30 (-10) = 15 := by norm_num [crossX]
  have c2 : crossX 0 10 (-30) (-10) = -15 := by norm_num [crossX]
  rw [c1, c2] at hseg
  have hdisk := level_disk hr hc (1 / 2) (x0 := 0) (y0 := 10) (x1 := -30) (y1 := -10) (x2 := 30) (y2 := -10)
    (z := 0) (by norm_num)
  have hcov := (Inter.segmentDisk_cover hF (a := 15) (b := -15) (k := 0) (h := 1 / 2 - 0) (R := 1) hpos
    real_eps_lt_one.le real_eps_lt_one.le (by norm_num; linarith) (by norm_num; linarith)).2
  rw [show ((1 : ℝ) ^ 2 - (1 / 2 - 0) ^ 2) = 3 / 4 by norm_num] at hcov
  rw [hseg, Res.bind_ok, Option.bind_some, hR, hcov (by linarith) (by linarith), levelFrame_apply, levelFrame_apply,
    zero_add, zero_sub, Res.pure_eq] at hdisk
  exact hdisk

theorem Demo.sqrt34 : 1 / 2 ≤ Real.sqrt (3 / 4) ∧ Real.sqrt (3 / 4) ≤ 1 ∧ Real.sqrt (3 / 4) ^ 2 = 3 / 4 := by
  refine ⟨?_, ?_, Real.sq_sqrt (by norm_num)⟩
  · rw [show (1 / 2 : ℝ) = Real.sqrt ((1 / 2) ^ 2) by rw [Real.sqrt_sq (by norm_num)]]
    exact Real.sqrt_le_sqrt (by norm_num)
  · rw [show (1 : ℝ) = Real.sqrt 1 by rw [Real.sqrt_one]]
    exact Real.sqrt_le_sqrt (by norm_num)

/-- The hypotheses of `C34_order_partial` are met: two triangles of the same shape and different friction, both cut
by the rib in a long segment. -/
example : ∃ (u : TriangleGround ℝ) (o : Output ℝ),
    TriangleGround.make 1 2 ⟨0, 10, 0⟩ ⟨-30, -10, 0⟩ ⟨30, -10, 0⟩ = .ok u ∧
    (Demo.ribOf 1).envelopGeometricMesh [Demo.field, u] (Demo.upright (1 / 2)) = .ok (true, o) ∧
    (Demo.ribOf 1).envelopGeometricMesh [u, Demo.field] (Demo.upright (1 / 2)) = .ok (true, o) := by
  obtain ⟨h1, h2, h3⟩ := Demo.sqrt34
  have hpos := real_eps_pos
  have heps : (Scalar.eps : ℝ) ≤ 1 / 10 := by rw [real_eps]; norm_num
  set u : TriangleGround ℝ := TriangleGround.updateBBox (TriangleGround.updateNormal
    ⟨⟨⟨0, 10, 0⟩, ⟨-30, -10, 0⟩, ⟨30, -10, 0⟩⟩, 1, 2, V3.nan, Box.default⟩) with hu
  have htri : u.tri = Demo.field.tri := rfl
  have hlen : Segment.length (⟨⟨Real.sqrt (3 / 4), 0, 0⟩, ⟨-Real.sqrt (3 / 4), 0, 0⟩⟩ : Segment ℝ) = 2 * Real.sqrt (3 / 4) := by
    rw [Segment.length, V3.norm_sub]
    unfold dist3
    dsimp only
    rw [show (Real.sqrt (3 / 4) - -Real.sqrt (3 / 4)) ^ 2 + (0 - 0) ^ 2 + (0 - 0) ^ 2 = (2 * Real.sqrt (3 / 4)) ^ 2 by ring,
      Real.sqrt_sq (by linarith)]
  have hdist : dist3 (⟨Real.sqrt (3 / 4), 0, 0⟩ : V3 ℝ) ⟨-Real.sqrt (3 / 4), 0, 0⟩ = 2 * Real.sqrt (3 / 4) := by
    rw [← hlen, Segment.length, V3.norm_sub]
  have hcon : ∀ t : TriangleGround ℝ, ∃ c, (Demo.ribOf 1).contrib (Demo.upright (1 / 2)) t
      ⟨⟨Real.sqrt (3 / 4), 0, 0⟩, ⟨-Real.sqrt (3 / 4), 0, 0⟩⟩ = some c ∧ c.area = 2 * Real.sqrt (3 / 4) := by
    intro t
    unfold Rib.contrib
    dsimp only
    rw [hlen, if_neg]
    · refine ⟨_, rfl, ?_⟩
      dsimp only
      rw [show (Demo.ribOf 1).width = 1 from rfl, real_mul, mul_one]
    · simp only [real_lt, Bool.and_eq_true, decide_eq_true_eq, not_and]
      intro _
      linarith
  have hboth := C34_order_partial (Demo.ribOf 1) (Demo.upright (1 / 2)) [Demo.field, u] [u, Demo.field]
    (List.Perm.swap _ _ _) (by
      intro t ht seg hs
      simp only [List.mem_cons, List.not_mem_nil, or_false] at ht
      have : t.tri = Demo.field.tri := by rcases ht with rfl | rfl <;> rfl
      rw [this, Demo.field_cut] at hs
      cases hs
      rw [hdist]
      linarith)
  obtain ⟨c, hc, ca⟩ := hcon Demo.field
  obtain ⟨d, hd, da⟩ := hcon u
  have hgeom : (Demo.ribOf 1).envelopGeometricMesh [Demo.field, u] (Demo.upright (1 / 2)) =
      .ok (Rib.geomFinish (Demo.ribOf 1) (Demo.upright (1 / 2)) ((Rib.Acc.init.add c).add d)) := by
    unfold Rib.envelopGeometricMesh
    simp only [Rib.geomLoop, htri, Demo.field_cut, Res.bind_ok, hc, hd, Res.pure_eq]
  rw [Rib.geomFinish, if_pos (by
    simp only [Rib.Acc.add, Rib.Acc.init, real_add, real_zero, ca, da, real_lt, Bool.true_and, Bool.or_eq_true,
      decide_eq_true_eq]
    left
    linarith)] at hgeom
  exact ⟨u, _, by simp [TriangleGround.make, hu], hgeom, by rw [← hboth, hgeom]⟩

/-! ## C35: spinning the wheel on a mesh -/

/-- **C35 is false for the geometric method on a mesh.**  A rib half a radius above a large triangle: turning the
wheel backwards by a quarter changes the reported volume (the section then straddles the cut of `atan2`, and the
larger of the two circular segments is reported). -/
theorem C35_geometric_mesh_refuted :
    ∃ (r : Rib ℝ) (pose : Affine ℝ) (angle : ℝ) (t : TriangleGround ℝ) (o o' : Output ℝ), IsRib r ∧ IsRigid pose ∧
      TriangleGround.make 0 1 ⟨0, 10, 0⟩ ⟨-30, -10, 0⟩ ⟨30, -10, 0⟩ = .ok t ∧
      r.envelopGeometricMesh [t] pose = .ok (true, o) ∧
      r.envelopGeometricMesh [t] (spun pose angle) = .ok (true, o') ∧
      o.volume < Real.pi / 2 ∧ Real.pi / 2 < o'.volume := by
  obtain ⟨h1, h2, h3⟩ := Demo.sqrt34
  have hpos := real_eps_pos
  have heps : (Scalar.eps : ℝ) ≤ 1 / 10 := by rw [real_eps]; norm_num
  have hr := Demo.ribOf_isRib (w := 1) zero_le_one
  have hc : (Demo.ribOf 1).center = ⟨0, 0, 0⟩ := by simp [Demo.ribOf, Rib.center, Rib.make, Disk.center]
  have hspun : spun (Demo.upright (1 / 2)) (-(Real.pi / 2)) =
      ⟨⟨⟨0, 0, 1⟩, ⟨0, 1, 0⟩, ⟨-1, 0, 0⟩⟩, ⟨0, 0, 1 / 2⟩⟩ := by
    simp [spun, Affine.rotate, M3.ofAngleAxis, M3.mul, M3.mulVec, Demo.upright]
  set pose' : Affine ℝ := ⟨⟨⟨0, 0, 1⟩, ⟨0, 1, 0⟩, ⟨-1, 0, 0⟩⟩, ⟨0, 0, 1 / 2⟩⟩ with hpose'
  have hdg : (Demo.ribOf 1).diskGrd pose' = (Demo.ribOf 1).diskGrd (Demo.upright (1 / 2)) := by
    rw [Rib.diskGrd_upright hr hc]
    unfold Rib.diskGrd Rib.centerGrd Rib.normalGrd
    rw [hc, show (Demo.ribOf 1).disk.normal = ⟨0, 1, 0⟩ from hr.normal]
    simp only [pose']
    congr 2
    · v3; congr 1 <;> ring
    · v3; congr 1 <;> ring
  have hlen : Segment.length (⟨⟨Real.sqrt (3 / 4), 0, 0⟩, ⟨-Real.sqrt (3 / 4), 0, 0⟩⟩ : Segment ℝ) = 2 * Real.sqrt (3 / 4) := by
    rw [Segment.length, V3.norm_sub]
    unfold dist3
    dsimp only
    rw [show (Real.sqrt (3 / 4) - -Real.sqrt (3 / 4)) ^ 2 + (0 - 0) ^ 2 + (0 - 0) ^ 2 = (2 * Real.sqrt (3 / 4)) ^ 2 by ring,
      Real.sqrt_sq (by linarith)]
  generalize hS : Real.sqrt (3 / 4) = S at *
  have hcg : ∀ p : Affine ℝ, p.trans = ⟨0, 0, 1 / 2⟩ → (Demo.ribOf 1).centerGrd p = ⟨0, 0, 1 / 2⟩ := by
    intro p hp
    unfold Rib.centerGrd
    rw [hc, hp]
    v3
    congr 1 <;> ring
  have hcon : ∀ (p : Affine ℝ) (pa pb : V3 ℝ), p.trans = ⟨0, 0, 1 / 2⟩ →
      M3.mulVec (M3.transpose p.linear) (V3.sub ⟨S, 0, 0⟩ ⟨0, 0, 1 / 2⟩) = pa →
      M3.mulVec (M3.transpose p.linear) (V3.sub ⟨-S, 0, 0⟩ ⟨0, 0, 1 / 2⟩) = pb →
      V3.norm pa = 1 → V3.norm pb = 1 →
      ∃ c, (Demo.ribOf 1).contrib p Demo.field ⟨⟨S, 0, 0⟩, ⟨-S, 0, 0⟩⟩ = some c ∧ c.area = 2 * S ∧
        c.volume = |Complex.arg ⟨pb.x, pb.z⟩ - Complex.arg ⟨pa.x, pa.z⟩| / 2 -
          Real.sin |Complex.arg ⟨pb.x, pb.z⟩ - Complex.arg ⟨pa.x, pa.z⟩| / 2 := by
    intro p pa pb hp ha hb na nb
    unfold Rib.contrib
    dsimp only
    rw [hcg p hp, ha, hb, na, nb, hlen, if_neg]
    · refine ⟨_, rfl, ?_, ?_⟩
      · dsimp only
        rw [show (Demo.ribOf 1).width = 1 from rfl, real_mul, mul_one]
      · dsimp only
        rw [show (Demo.ribOf 1).width = 1 from rfl, show (Demo.ribOf 1).radius = 1 from rfl]
        simp only [real_mul, real_sub, real_min, min_self, real_two, real_div, real_sin, real_atan2, real_lt, one_mul,
          mul_one, decide_eq_true_eq]
        generalize Complex.arg ⟨pa.x, pa.z⟩ = A
        generalize Complex.arg ⟨pb.x, pb.z⟩ = B
        by_cases hlt : B < A
        · simp only [hlt, if_true]
          rw [abs_of_neg (by linarith), neg_sub]
        · simp only [hlt, if_false]
          rw [abs_of_nonneg (by linarith)]
    · simp only [real_lt, Bool.and_eq_true, decide_eq_true_eq, not_and]
      intro _
      linarith
  have hnorm : ∀ x z : ℝ, x ^ 2 + z ^ 2 = 1 → V3.norm (⟨x, 0, z⟩ : V3 ℝ) = 1 := by
    intro x z h
    rw [V3.norm_eq, length3]
    dsimp only
    rw [show x ^ 2 + 0 ^ 2 + z ^ 2 = 1 by linarith, Real.sqrt_one]
  obtain ⟨c, hc1, ca, cv⟩ := hcon (Demo.upright (1 / 2)) ⟨S, 0, -(1 / 2)⟩ ⟨-S, 0, -(1 / 2)⟩ rfl
    (by simp only [Demo.upright]; v3; congr 1 <;> ring) (by simp only [Demo.upright]; v3; congr 1 <;> ring)
    (hnorm _ _ (by linarith)) (hnorm _ _ (by linarith))
  obtain ⟨d, hd1, da, dv⟩ := hcon pose' ⟨-(1 / 2), 0, -S⟩ ⟨-(1 / 2), 0, S⟩ rfl
    (by simp only [pose']; v3; congr 1 <;> ring) (by simp only [pose']; v3; congr 1 <;> ring)
    (hnorm _ _ (by linarith)) (hnorm _ _ (by linarith))
  have hgeom : ∀ p e, (Demo.ribOf 1).diskGrd p = (Demo.ribOf 1).diskGrd (Demo.upright (1 / 2)) →
      (Demo.ribOf 1).contrib p Demo.field ⟨⟨S, 0, 0⟩, ⟨-S, 0, 0⟩⟩ = some e → e.area = 2 * S →
      ∃ o, (Demo.ribOf 1).envelopGeometricMesh [Demo.field] p = .ok (true, o) ∧ o.volume = e.volume := by
    intro p e hp he hea
    have hcut := Demo.field_cut
    rw [hS] at hcut
    have : (Demo.ribOf 1).envelopGeometricMesh [Demo.field] p =
        .ok (Rib.geomFinish (Demo.ribOf 1) p (Rib.Acc.init.add e)) := by
      unfold Rib.envelopGeometricMesh
      simp only [Rib.geomLoop, hp, hcut, Res.bind_ok, he, Res.pure_eq]
    rw [Rib.geomFinish, if_pos (by
      simp only [Rib.Acc.add, Rib.Acc.init, real_add, real_zero, hea, real_lt, Bool.true_and, Bool.or_eq_true,
        decide_eq_true_eq]
      left
      linarith)] at this
    exact ⟨_, this, by simp [Rib.Acc.add, Rib.Acc.init]⟩
  obtain ⟨o, ho, ov⟩ := hgeom _ c rfl hc1 ca
  obtain ⟨o', ho', ov'⟩ := hgeom _ d hdg hd1 da
  refine ⟨Demo.ribOf 1, Demo.upright (1 / 2), -(Real.pi / 2), Demo.field, o, o', hr, Demo.upright_rigid _,
    Demo.field_make, ho, by rw [hspun]; exact ho', ?_, ?_⟩
  · rw [ov, cv]
    have a1 : Complex.arg ⟨S, -(1 / 2)⟩ < 0 := Complex.arg_neg_iff.2 (by norm_num)
    have a2 := Complex.neg_pi_lt_arg ⟨S, -(1 / 2)⟩
    have b1 : Complex.arg ⟨-S, -(1 / 2)⟩ < 0 := Complex.arg_neg_iff.2 (by norm_num)
    have b2 := Complex.neg_pi_lt_arg ⟨-S, -(1 / 2)⟩
    dsimp only
    generalize Complex.arg ⟨S, -(1 / 2)⟩ = A at *
    generalize Complex.arg ⟨-S, -(1 / 2)⟩ = B at *
    have h0 : |B - A| < Real.pi := abs_lt.2 ⟨by linarith, by linarith⟩
    have := Real.sin_nonneg_of_nonneg_of_le_pi (abs_nonneg (B - A)) h0.le
    linarith
  · rw [ov', dv]
    have a1 : Complex.arg ⟨-(1 / 2), -S⟩ < -(Real.pi / 2) := by
      by_contra hh
      push Not at hh
      have := Complex.abs_arg_le_pi_div_two_iff.1 (abs_le.2 ⟨hh, by
        have : Complex.arg ⟨-(1 / 2), -S⟩ < 0 := Complex.arg_neg_iff.2 (by show -S < 0; linarith)
        have := Real.pi_pos
        linarith⟩)
      norm_num at this
    have a2 := Complex.neg_pi_lt_arg ⟨-(1 / 2), -S⟩
    have b1 : Real.pi / 2 < Complex.arg ⟨-(1 / 2), S⟩ := by
      by_contra hh
      push Not at hh
      have := Complex.abs_arg_le_pi_div_two_iff.1 (abs_le.2 ⟨by
        have : 0 ≤ Complex.arg ⟨-(1 / 2), S⟩ := Complex.arg_nonneg_iff.2 (by show 0 ≤ S; linarith)
        have := Real.pi_pos
        linarith, hh⟩)
      norm_num at this
    have b2 := Complex.arg_le_pi ⟨-(1 / 2), S⟩
    dsimp only
    generalize Complex.arg ⟨-(1 / 2), -S⟩ = A at *
    generalize Complex.arg ⟨-(1 / 2), S⟩ = B at *
    rw [abs_of_pos (by linarith)]
    have : Real.sin (B - A) ≤ 0 := by
      have := Real.sin_nonneg_of_nonneg_of_le_pi (x := B - A - Real.pi) (by linarith) (by linarith)
      rw [Real.sin_sub_pi] at this
      linarith
    linarith

end Enve
