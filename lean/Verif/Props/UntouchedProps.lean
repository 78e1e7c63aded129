import Verif.Props.SearchProps
import Verif.Props.RoadProps
import Verif.Props.MovedProps

/-! # Ground that a rib does not touch: C135 -/

namespace Enve
open Scalar Spec

/-! ## Specification -/

/-- The face has a point in common with the disk of the rib. -/
def Spec.MeetsRib (pose : Affine ℝ) (r : Rib ℝ) (T : Triangle ℝ) : Prop :=
  ∃ X, InTriangle T.v0 T.v1 T.v2 X ∧ OnRibDisk pose r X

/-- What a contact can depend on: the vertices, the normal and the friction of a face, but not its number. -/
def Spec.faceOf (t : TriangleGround ℝ) : Triangle ℝ × V3 ℝ × ℝ := (t.tri, t.normal, t.friction)

/-- Over the point `o` there is a visible face among those kept, above all points within the tolerance of the faces left out. -/
def Spec.CoveredAt (keep : TriangleGround ℝ → Bool) (ts : List (TriangleGround ℝ)) (o : V3 ℝ) : Prop :=
  ∃ t ∈ ts, keep t = true ∧ Scalar.eps ≤ plan2 t.tri ∧ ∃ p, InTriangle t.tri.v0 t.tri.v1 t.tri.v2 p ∧ p.x = o.x ∧ p.y = o.y ∧
    ∀ u ∈ ts, keep u = false → ∀ q, NearTriangle Scalar.eps u.tri q → q.x = o.x → q.y = o.y → q.z < p.z

/-! ## The geometric method -/

namespace Untouched

theorem none {r : Rib ℝ} (hr : IsRib r) {pose : Affine ℝ} (hp : IsRigid pose) {T : Triangle ℝ} (h : ¬ MeetsRib pose r T)
    (hc : ClearOfRib pose r T)
    (hlen : ∀ seg, Inter.triangleDisk T (r.diskGrd pose) Scalar.eps = .ok (some seg) → Scalar.eps ≤ dist3 seg.v0 seg.v1) :
    Inter.triangleDisk T (r.diskGrd pose) Scalar.eps = .ok none := by
  have hu : Unit3 (r.diskGrd pose).plane.normal := Rib.normalGrd_unit hr hp
  have hpos := real_eps_pos
  have hcl : ∀ u ∈ [T.v0, T.v1, T.v2], ∀ v ∈ [T.v0, T.v1, T.v2],
      0 < dot3 (minus u (r.diskGrd pose).plane.origin) (r.diskGrd pose).plane.normal *
        dot3 (minus v (r.diskGrd pose).plane.origin) (r.diskGrd pose).plane.normal →
      Scalar.eps * |dot3 (minus u (r.diskGrd pose).plane.origin) (r.diskGrd pose).plane.normal -
        dot3 (minus v (r.diskGrd pose).plane.origin) (r.diskGrd pose).plane.normal| <
        |dot3 (minus u (r.diskGrd pose).plane.origin) (r.diskGrd pose).plane.normal| := by
    intro u hu' v hv huv
    simp only [Rib.side_eq hr] at huv ⊢
    exact hc u hu' v hv huv
  obtain ⟨o, ho⟩ := Inter.triangleDisk_ok T (r.diskGrd pose) hu Scalar.eps hpos hcl
  cases o with
  | none => exact ho
  | some seg =>
    exfalso
    obtain ⟨hi0, -⟩ := Inter.triangleDisk_inside T (r.diskGrd pose) hu hr.radius_pos.le _ hpos hcl seg ho
    obtain ⟨-, -, -, hdisk⟩ := C53_triangle_disk T (r.diskGrd pose) hu hr.radius_pos.le _ hpos seg ho
    have hne : seg.v0 ≠ seg.v1 := by
      intro e
      have := hlen seg ho
      rw [e] at this
      simp [dist3] at this
      linarith
    exact h ⟨_, hi0, Rib.inDisk_onRibDisk hr hp (hdisk hne).1⟩

theorem geomLoop_faces (r : Rib ℝ) (pose : Affine ℝ) {ts ts' : List (TriangleGround ℝ)} (h : ts.map faceOf = ts'.map faceOf) (acc : Rib.Acc ℝ) :
    r.geomLoop pose ts acc = r.geomLoop pose ts' acc := by
  induction ts generalizing ts' acc with
  | nil =>
    obtain rfl : ts' = [] := by simpa using h.symm
    rfl
  | cons t ts ih =>
    cases ts' with
    | nil => simp at h
    | cons t' ts' =>
      simp only [List.map_cons, List.cons.injEq, faceOf, Prod.mk.injEq] at h
      obtain ⟨⟨h1, h2, h3⟩, h4⟩ := h
      rw [Rib.geomLoop, Rib.geomLoop, h1]
      have hc : ∀ seg, r.contrib pose t seg = r.contrib pose t' seg := by
        intro seg; unfold Rib.contrib; rw [h2, h3]
      congr 1
      funext o
      cases o with
      | none => exact ih h4 acc
      | some seg =>
        dsimp only
        rw [hc]
        cases r.contrib pose t' seg with
        | none => rfl
        | some c => exact ih h4 _

end Untouched

/-- **C135, geometric method**: faces that a rib does not touch can be left out.  Faces with a vertex within the tolerance of the plane of the
rib, or cut in a segment shorter than the tolerance, are excepted. -/
theorem C135_geometric_partial {r : Rib ℝ} (hr : IsRib r) {pose : Affine ℝ} (hp : IsRigid pose) (keep : TriangleGround ℝ → Bool)
    (ts : List (TriangleGround ℝ)) (h : ∀ t ∈ ts, keep t = false → ¬ MeetsRib pose r t.tri)
    (hc : ∀ t ∈ ts, keep t = false → ClearOfRib pose r t.tri)
    (hlen : ∀ t ∈ ts, keep t = false → ∀ seg, Inter.triangleDisk t.tri (r.diskGrd pose) Scalar.eps = .ok (some seg) →
      Scalar.eps ≤ dist3 seg.v0 seg.v1) :
    r.envelopGeometricMesh (ts.filter keep) pose = r.envelopGeometricMesh ts pose := by
  unfold Rib.envelopGeometricMesh
  rw [Rib.geomLoop_filter keep ts fun t ht hk => Untouched.none hr hp (h t ht hk) (hc t ht hk) (hlen t ht hk)]

/-- **C135, geometric method, whole tyres**: a mesh to which faces are added that no rib touches gives the same contact. -/
theorem C135_tyre_partial (pol : Policy) {s s1 s2 : Shell ℝ} (hs : s.Reachable pol) (hx : 0 ≤ s.shape.rx) {m m' : Mesh ℝ} (hm : BuiltMesh m)
    (hm' : BuiltMesh m') {pose : Affine ℝ} (hp : IsRigid pose) (hbox : ∀ r ∈ s.ribs, r.radius ^ 2 + r.center.y ^ 2 ≤ s.shape.rx ^ 2)
    {more : List (TriangleGround ℝ)} (hmore : (m'.triangles.map faceOf).Perm ((m.triangles ++ more).map faceOf))
    (hun : ∀ t ∈ more, ∀ r ∈ s.ribs, ¬ MeetsRib pose r t.tri)
    (hclear : ∀ t ∈ m'.triangles, ∀ r ∈ s.ribs, ClearOfRib pose r t.tri)
    (hlen : ∀ t ∈ m'.triangles, ∀ r ∈ s.ribs, ∀ seg, Inter.triangleDisk t.tri (r.diskGrd pose) Scalar.eps = .ok (some seg) →
      Scalar.eps ≤ dist3 seg.v0 seg.v1)
    {b1 b2 : Bool} (h1 : s.setupMesh pol m pose "geometric" = .ok s1 b1) (h2 : s.setupMesh pol m' pose "geometric" = .ok s2 b2) :
    b1 = b2 ∧ ∀ i < s.size, ∃ o, s1.out.read pol i = .ok o ∧ s2.out.read pol i = .ok o := by
  have hfrom : ∀ t ∈ m.triangles ++ more, ∃ t' ∈ m'.triangles, t'.tri = t.tri := by
    intro t ht
    obtain ⟨t', ht', e⟩ := List.mem_map.1 (hmore.mem_iff.2 (List.mem_map_of_mem (f := faceOf) ht))
    exact ⟨t', ht', congrArg Prod.fst e⟩
  have hclear1 : ∀ t ∈ m.triangles ++ more, ∀ r ∈ s.ribs, ClearOfRib pose r t.tri := by
    intro t ht
    obtain ⟨t', ht', e⟩ := hfrom t ht
    rw [← e]; exact hclear t' ht'
  have hlen1 : ∀ t ∈ m.triangles ++ more, ∀ r ∈ s.ribs, ∀ seg, Inter.triangleDisk t.tri (r.diskGrd pose) Scalar.eps = .ok (some seg) →
      Scalar.eps ≤ dist3 seg.v0 seg.v1 := by
    intro t ht
    obtain ⟨t', ht', e⟩ := hfrom t ht
    rw [← e]; exact hlen t' ht'
  obtain ⟨a1, c1⟩ := C61_search_geometric_partial pol s s1 hs hx m hm pose hp hbox (fun t ht => hclear1 t (by simp [ht]))
    (fun t ht => hlen1 t (by simp [ht])) b1 h1
  obtain ⟨a2, c2⟩ := C61_search_geometric_partial pol s s2 hs hx m' hm' pose hp hbox hclear hlen b2 h2
  have e1 := (Shell.setupMesh_rel (.inl ⟨b1, h1⟩)).ribs
  have e2 := (Shell.setupMesh_rel (.inl ⟨b2, h2⟩)).ribs
  have hsame : ∀ r ∈ s.ribs, r.envelopGeometricMesh m'.triangles pose = r.envelopGeometricMesh m.triangles pose := by
    intro r hr
    -- a list with the faces of `m.triangles ++ more` that is a permutation of `m'.triangles`
    obtain ⟨ts, hts, hface⟩ : ∃ ts, m'.triangles.Perm ts ∧ ts.map faceOf = (m.triangles ++ more).map faceOf := by
      have key : ∀ {l : List (TriangleGround ℝ)} {k : List (Triangle ℝ × V3 ℝ × ℝ)}, (l.map faceOf).Perm k →
          ∃ l', l.Perm l' ∧ l'.map faceOf = k := by
        intro l k h
        generalize hk : l.map faceOf = k0 at h
        induction h generalizing l with
        | nil => exact ⟨[], by rw [List.map_eq_nil_iff.1 hk], rfl⟩
        | cons x _ ih =>
          obtain ⟨t, l2, rfl, rfl, h3⟩ := List.map_eq_cons_iff.1 hk
          obtain ⟨l', p1, p2⟩ := ih h3
          exact ⟨t :: l', p1.cons _, by rw [List.map_cons, p2]⟩
        | swap x y l0 =>
          obtain ⟨t, l2, rfl, rfl, h3⟩ := List.map_eq_cons_iff.1 hk
          obtain ⟨t', l3, rfl, rfl, h4⟩ := List.map_eq_cons_iff.1 h3
          exact ⟨t' :: t :: l3, .swap _ _ _, by rw [List.map_cons, List.map_cons, h4]⟩
        | trans _ _ ih1 ih2 =>
          obtain ⟨l', p1, p2⟩ := ih1 hk
          obtain ⟨l'', p3, p4⟩ := ih2 p2
          exact ⟨l'', p1.trans p3, p4⟩
      exact key hmore
    rw [C34_order_partial r pose _ _ hts fun t ht => hlen t ht r hr]
    have hg : r.envelopGeometricMesh ts pose = r.envelopGeometricMesh (m.triangles ++ more) pose := by
      unfold Rib.envelopGeometricMesh
      rw [Untouched.geomLoop_faces r pose hface]
    rw [hg]
    have hloop : ∀ (l : List (TriangleGround ℝ)) (acc : Rib.Acc ℝ), r.geomLoop pose (l ++ more) acc = r.geomLoop pose l acc := by
      have hmn : ∀ t ∈ more, Inter.triangleDisk t.tri (r.diskGrd pose) Scalar.eps = .ok none := fun t ht =>
        Untouched.none (hs.isRib r hr) hp (hun t ht r hr) (hclear1 t (by simp [ht]) r hr) (hlen1 t (by simp [ht]) r hr)
      have hend : ∀ acc, r.geomLoop pose more acc = .ok acc := by
        have := fun acc => Rib.geomLoop_filter (r := r) (pose := pose) (fun _ => false) more (fun t ht _ => hmn t ht) acc
        intro acc
        rw [← this acc]
        simp [Rib.geomLoop]
      intro l
      induction l with
      | nil => intro acc; rw [List.nil_append, hend]; rfl
      | cons t l ih =>
        intro acc
        rw [List.cons_append, Rib.geomLoop, Rib.geomLoop]
        congr 1
        funext o
        cases o with
        | none => exact ih acc
        | some seg =>
          dsimp only
          cases r.contrib pose t seg with
          | none => rfl
          | some c => exact ih _
    unfold Rib.envelopGeometricMesh
    rw [hloop]
  constructor
  · rw [Bool.eq_iff_iff, c1, c2, e1, e2]
    constructor
    · rintro ⟨r, hr, o, ho⟩; exact ⟨r, hr, o, by rw [hsame r hr]; exact ho⟩
    · rintro ⟨r, hr, o, ho⟩; exact ⟨r, hr, o, by rw [← hsame r hr]; exact ho⟩
  · intro i hi
    obtain ⟨r, hr⟩ : ∃ r, s.ribs[i]? = some r := ⟨_, List.getElem?_eq_getElem hi⟩
    obtain ⟨f1, o1, k1, k2⟩ := a1 i r (by rw [e1]; exact hr)
    obtain ⟨f2, o2, k3, k4⟩ := a2 i r (by rw [e2]; exact hr)
    rw [hsame r (List.mem_of_getElem? hr), k1] at k3
    obtain ⟨-, rfl⟩ := Prod.mk.inj (Res.ok.inj k3)
    exact ⟨o1, k2, k4⟩

/-! ## The sampling method -/

namespace Untouched

/-- The selection loop, one step. -/
noncomputable def pick (b : Option (V3 ℝ × ℝ)) (h : V3 ℝ × ℝ) : Option (V3 ℝ × ℝ) :=
  match b with
  | .none => some h
  | some b => some (if b.1.z < h.1.z then h else b)

theorem line_pick (ts : List (TriangleGround ℝ)) (l : Line ℝ) :
    Rib.samplingLineMesh ts l = (Rib.samplingHits ts l).foldl pick .none := by
  unfold Rib.samplingLineMesh
  cases Rib.samplingHits ts l with
  | nil => rfl
  | cons h hs =>
    dsimp only
    rw [List.foldl_cons]
    show some (Rib.highest h hs) = hs.foldl pick (some h)
    unfold Rib.highest
    induction hs generalizing h with
    | nil => rfl
    | cons x xs ih =>
      rw [List.foldl_cons, List.foldl_cons, ih]
      simp only [pick, real_lt, decide_eq_true_eq]

/-- Hits that are lower than one of the hits kept are not chosen. -/
theorem pick_filter (keep : TriangleGround ℝ → Bool) (l : Line ℝ) (M : ℝ) (ts : List (TriangleGround ℝ))
    (hdrop : ∀ u ∈ ts, keep u = false → ∀ q, Inter.lineTriangle l u.tri Scalar.eps = some q → q.z < M) :
    ∀ b b' : Option (V3 ℝ × ℝ),
      ((b = b' ∧ ∃ v, b = some v ∧ M ≤ v.1.z) ∨ (((∀ v, b = some v → v.1.z < M) ∧ ∀ v, b' = some v → v.1.z < M) ∧
        ∃ t ∈ ts, keep t = true ∧ ∃ p, Inter.lineTriangle l t.tri Scalar.eps = some p ∧ M ≤ p.z)) →
      (Rib.samplingHits (ts.filter keep) l).foldl pick b' = (Rib.samplingHits ts l).foldl pick b := by
  induction ts with
  | nil =>
    rintro b b' (⟨rfl, -⟩ | ⟨-, t, ht, -⟩)
    · rfl
    · cases ht
  | cons t ts ih =>
    have ih := ih fun u hu => hdrop u (List.mem_cons_of_mem _ hu)
    intro b b' h
    have hd := hdrop t (by simp)
    cases hk : keep t with
    | false =>
      rw [List.filter_cons_of_neg (by simp [hk])]
      have hrest : (∃ t' ∈ t :: ts, keep t' = true ∧ ∃ p, Inter.lineTriangle l t'.tri Scalar.eps = some p ∧ M ≤ p.z) →
          ∃ t' ∈ ts, keep t' = true ∧ ∃ p, Inter.lineTriangle l t'.tri Scalar.eps = some p ∧ M ≤ p.z := by
        rintro ⟨t', ht', h1, h2⟩
        rcases List.mem_cons.1 ht' with rfl | ht'
        · rw [hk] at h1; cases h1
        · exact ⟨t', ht', h1, h2⟩
      cases hh : Inter.lineTriangle l t.tri Scalar.eps with
      | none =>
        have e : Rib.samplingHits (t :: ts) l = Rib.samplingHits ts l := by
          unfold Rib.samplingHits; rw [List.filterMap_cons, hh]; rfl
        rw [e]
        exact ih b b' (h.imp id fun h => ⟨h.1, hrest h.2⟩)
      | some q =>
        have e : Rib.samplingHits (t :: ts) l = (q, t.friction) :: Rib.samplingHits ts l := by
          unfold Rib.samplingHits; rw [List.filterMap_cons, hh]; rfl
        rw [e, List.foldl_cons]
        have hq := hd hk q hh
        apply ih
        rcases h with ⟨rfl, v, rfl, hv⟩ | ⟨⟨h1, h2⟩, h3⟩
        · left
          have : pick (some v) (q, t.friction) = some v := by
            unfold pick; dsimp only; rw [if_neg (by linarith)]
          rw [this]
          exact ⟨rfl, v, rfl, hv⟩
        · right
          refine ⟨⟨?_, h2⟩, hrest h3⟩
          intro v hv
          unfold pick at hv
          cases b with
          | none => cases hv; exact hq
          | some w =>
            dsimp only at hv
            cases hv
            split
            · exact hq
            · exact h1 w rfl
    | true =>
      rw [List.filter_cons_of_pos hk]
      cases hh : Inter.lineTriangle l t.tri Scalar.eps with
      | none =>
        have e : ∀ ts, Rib.samplingHits (t :: ts) l = Rib.samplingHits ts l := by
          intro ts; unfold Rib.samplingHits; rw [List.filterMap_cons, hh]; rfl
        rw [e, e]
        refine ih b b' (h.imp id fun h => ⟨h.1, ?_⟩)
        obtain ⟨-, t', ht', h1, p, h2, h3⟩ := h
        rcases List.mem_cons.1 ht' with rfl | ht'
        · rw [hh] at h2; cases h2
        · exact ⟨t', ht', h1, p, h2, h3⟩
      | some q =>
        have e : ∀ ts, Rib.samplingHits (t :: ts) l = (q, t.friction) :: Rib.samplingHits ts l := by
          intro ts; unfold Rib.samplingHits; rw [List.filterMap_cons, hh]; rfl
        rw [e, e, List.foldl_cons, List.foldl_cons]
        apply ih
        rcases h with ⟨rfl, v, rfl, hv⟩ | ⟨⟨h1, h2⟩, t', ht', g1, p, g2, g3⟩
        · left
          refine ⟨rfl, _, rfl, ?_⟩
          split
          · dsimp only at *; linarith
          · exact hv
        · rcases le_or_gt M q.z with hq | hq
          · left
            have hp : ∀ c : Option (V3 ℝ × ℝ), (∀ v, c = some v → v.1.z < M) → pick c (q, t.friction) = some (q, t.friction) := by
              intro c hc
              cases c with
              | none => rfl
              | some w =>
                have := hc w rfl
                unfold pick; dsimp only; rw [if_pos (by linarith)]
            rw [hp b h1, hp b' h2]
            exact ⟨rfl, _, rfl, hq⟩
          · right
            have hp : ∀ c : Option (V3 ℝ × ℝ), (∀ v, c = some v → v.1.z < M) → ∀ v, pick c (q, t.friction) = some v → v.1.z < M := by
              intro c hc v hv
              unfold pick at hv
              cases c with
              | none => cases hv; exact hq
              | some w =>
                dsimp only at hv
                cases hv
                split
                · exact hq
                · exact hc w rfl
            refine ⟨⟨hp b h1, hp b' h2⟩, ?_⟩
            rcases List.mem_cons.1 ht' with rfl | ht'
            · rw [hh] at g2; cases g2; linarith
            · exact ⟨t', ht', g1, p, g2, g3⟩

theorem line (keep : TriangleGround ℝ → Bool) (ts : List (TriangleGround ℝ)) {o : V3 ℝ} (h : CoveredAt keep ts o) :
    Rib.samplingLineMesh (ts.filter keep) ⟨o, V3.neg V3.ez⟩ = Rib.samplingLineMesh ts ⟨o, V3.neg V3.ez⟩ := by
  obtain ⟨t, ht, hk, hv, p, hp, hx, hy, hlow⟩ := h
  have hhit := ((C50_line_triangle_tolerance ⟨o, V3.neg V3.ez⟩ t.tri Scalar.eps real_eps_pos).2
    (by rw [Road.box_down]; exact hv)).1 p (Road.on_down.2 ⟨hx, hy⟩) hp
  rw [line_pick, line_pick]
  refine pick_filter keep _ p.z ts ?_ _ _ (.inr ⟨⟨by simp, by simp⟩, t, ht, hk, p, hhit, le_rfl⟩)
  intro u hu hku q hq
  have := C50_line_triangle_tolerance ⟨o, V3.neg V3.ez⟩ u.tri Scalar.eps real_eps_pos
  rcases lt_or_ge |box3 (V3.neg V3.ez) u.tri| Scalar.eps with hlt | hge
  · rw [this.1 hlt] at hq; cases hq
  · have h2 := (this.2 hge).2 q hq
    obtain ⟨a, b⟩ := Road.on_down.1 h2.1
    exact hlow u hu hku q h2.2 a b

end Untouched

/-- **C135, sampling method**: faces that are below other faces at the four sampling lines can be left out.  So a road below the road has no
influence; but for the same reason a road below a bridge has none, however far above the tyre the bridge is
(`C135_bridge_refuted`). -/
theorem C135_sampling_partial (r : Rib ℝ) (pose : Affine ℝ) (keep : TriangleGround ℝ → Bool) (ts : List (TriangleGround ℝ))
    (h : ∀ l ∈ [r.lineXp pose, r.lineXm pose, r.lineYp pose, r.lineYm pose], CoveredAt keep ts l.origin) :
    r.envelopSamplingMesh (ts.filter keep) pose = r.envelopSamplingMesh ts pose := by
  have e : ∀ l ∈ [r.lineXp pose, r.lineXm pose, r.lineYp pose, r.lineYm pose],
      Rib.samplingLineMesh (ts.filter keep) l = Rib.samplingLineMesh ts l := by
    intro l hl
    have hdir : l = ⟨l.origin, V3.neg V3.ez⟩ := by
      simp only [List.mem_cons, List.not_mem_nil, or_false] at hl
      rcases hl with rfl | rfl | rfl | rfl <;> rfl
    rw [hdir]
    exact Untouched.line keep ts (h l hl)
  unfold Rib.envelopSamplingMesh Rib.envelopSampling
  rw [e _ (by simp), e _ (by simp), e _ (by simp), e _ (by simp)]

end Enve
