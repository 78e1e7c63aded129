import Verif.Props.UntouchedProps
import Verif.Props.RelistMeshProps

/-!
# C136: faces listed more than once

Meshes joined from tiles often list a face twice.  The sampling method only looks for the highest hit, so the surface as a set of faces
counts.  The geometric method adds up the contributions of the faces, so a face listed twice counts twice in area and volume; the contact
point, normal, friction and depth are quotients and do not change when the whole mesh is repeated.
-/

namespace Enve
open Scalar Spec

/-- The two lists have the same faces, in any order and any number of times each. -/
def Spec.SameFaces (ts ts' : List (TriangleGround ℝ)) : Prop := ∀ f, f ∈ ts.map faceOf ↔ f ∈ ts'.map faceOf

/-- The list repeated `k` times. -/
def Spec.repeated {β : Type} (k : Nat) (ts : List β) : List β := (List.replicate k ts).flatten

namespace Repeated

theorem goes {ts ts' : List (TriangleGround ℝ)} (h : SameFaces ts ts') : ∀ t ∈ ts, ∃ t' ∈ ts', faceOf t' = faceOf t :=
  fun t ht => List.mem_map.1 ((h _).1 (List.mem_map_of_mem (f := faceOf) ht))

theorem symm {ts ts' : List (TriangleGround ℝ)} (h : SameFaces ts ts') : SameFaces ts' ts := fun f => (h f).symm

theorem eq_tri {t t' : TriangleGround ℝ} (h : faceOf t' = faceOf t) : t'.tri = t.tri := congrArg Prod.fst h
theorem eq_fr {t t' : TriangleGround ℝ} (h : faceOf t' = faceOf t) : t'.friction = t.friction := congrArg (fun x => x.2.2) h

/-! ## The sampling method -/

theorem line {ts ts' : List (TriangleGround ℝ)} (h : SameFaces ts ts') {l : Line ℝ} (hl : l.direction.z ≠ 0) :
    (Rib.samplingLineMesh ts l).map (·.1) = (Rib.samplingLineMesh ts' l).map (·.1) ∧
    ((∀ t ∈ ts, ∀ t' ∈ ts, ∀ q q', Inter.lineTriangle l t.tri Scalar.eps = some q →
      Inter.lineTriangle l t'.tri Scalar.eps = some q' → q.z = q'.z → t.friction = t'.friction) →
      Rib.samplingLineMesh ts l = Rib.samplingLineMesh ts' l) := by
  have h1 := C28_highest_hit OrderOn.real ts l
  have h2 := C28_highest_hit OrderOn.real ts' l
  cases e1 : Rib.samplingLineMesh ts l with
  | none =>
    have : Rib.samplingLineMesh ts' l = none := h2.1.2 fun t ht => by
      obtain ⟨u, hu, e⟩ := goes (symm h) t ht
      rw [← eq_tri e]
      exact h1.1.1 e1 u hu
    rw [this]; exact ⟨rfl, fun _ => rfl⟩
  | some x =>
    cases e2 : Rib.samplingLineMesh ts' l with
    | none =>
      have : Rib.samplingLineMesh ts l = none := h1.1.2 fun t ht => by
        obtain ⟨u, hu, e⟩ := goes h t ht
        rw [← eq_tri e]
        exact h2.1.1 e2 u hu
      rw [this] at e1; cases e1
    | some y =>
      obtain ⟨⟨t, ht, hp, hf⟩, hm⟩ := h1.2 x.1 x.2 e1
      obtain ⟨⟨t', ht', hp', hf'⟩, hm'⟩ := h2.2 y.1 y.2 e2
      obtain ⟨u, hu, eu⟩ := goes (symm h) t' ht'
      obtain ⟨u', hu', eu'⟩ := goes h t ht
      have hpu : Inter.lineTriangle l u.tri Scalar.eps = some y.1 := by rw [eq_tri eu]; exact hp'
      have hle : y.1.z ≤ x.1.z := by
        simpa using hm (fun _ _ _ _ => trivial) u hu y.1 hpu
      have hge : x.1.z ≤ y.1.z := by
        simpa using hm' (fun _ _ _ _ => trivial) u' hu' x.1 (by rw [eq_tri eu']; exact hp)
      have hz : x.1.z = y.1.z := le_antisymm hge hle
      have hpt : x.1 = y.1 := by
        obtain ⟨a, ha⟩ := Rib.samplingLineMesh_onLine (p := x.1) (f := x.2) e1
        obtain ⟨b, hb⟩ := Rib.samplingLineMesh_onLine (p := y.1) (f := y.2) e2
        have : a = b := by
          rw [ha, hb] at hz
          simp only [along] at hz
          exact mul_right_cancel₀ hl (by linarith)
        rw [ha, hb, this]
      refine ⟨by simp [hpt], fun hties => ?_⟩
      have := hties t ht u hu x.1 y.1 hp hpu hz
      rw [Option.some.injEq]
      refine Prod.ext hpt ?_
      rw [← hf, ← hf', this, eq_fr eu]

end Repeated

/-- **C136, sampling method**: faces listed several times, and in any order, count once. -/
theorem C136_sampling (r : Rib ℝ) (pose : Affine ℝ) {ts ts' : List (TriangleGround ℝ)} (h : SameFaces ts ts') :
    let a := r.envelopSamplingMesh ts pose
    let b := r.envelopSamplingMesh ts' pose
    a.1 = b.1 ∧ a.2.point = b.2.point ∧ a.2.normal = b.2.normal ∧ a.2.depth = b.2.depth ∧
      a.2.area = b.2.area ∧ a.2.volume = b.2.volume ∧
    ((∀ o : V3 ℝ, ∀ t ∈ ts, ∀ t' ∈ ts, ∀ q q',
        Inter.lineTriangle ⟨o, ⟨0, 0, -1⟩⟩ t.tri Scalar.eps = some q →
        Inter.lineTriangle ⟨o, ⟨0, 0, -1⟩⟩ t'.tri Scalar.eps = some q' → q.z = q'.z →
        t.friction = t'.friction) → a.2.friction = b.2.friction) := by
  intro a b
  have hd : (V3.neg V3.ez : V3 ℝ) = ⟨0, 0, -1⟩ := by simp [V3.neg, V3.ez]
  obtain ⟨k1, k2⟩ := Rib.envelopSampling_congr r pose (Rib.samplingLineMesh ts) (Rib.samplingLineMesh ts')
    fun o => (Repeated.line h (l := ⟨o, V3.neg V3.ez⟩) (by rw [hd]; norm_num)).1
  rw [Output.mk.injEq] at k2
  refine ⟨k1, k2.1, k2.2.1, k2.2.2.2.1, k2.2.2.2.2.1, k2.2.2.2.2.2, fun hties => ?_⟩
  have hall : ∀ o, Rib.samplingLineMesh ts ⟨o, V3.neg V3.ez⟩ = Rib.samplingLineMesh ts' ⟨o, V3.neg V3.ez⟩ := by
    intro o
    refine (Repeated.line h (l := ⟨o, V3.neg V3.ez⟩) (by rw [hd]; norm_num)).2 ?_
    rw [hd]
    exact hties o
  have : a = b := by
    show r.envelopSampling _ pose = r.envelopSampling _ pose
    unfold Rib.envelopSampling
    simp only [Rib.lineXp, Rib.lineXm, Rib.lineYp, Rib.lineYm, hall]
  rw [this]

/-! ## The geometric method -/

namespace Repeated

/-- The sum of two results of the loop. -/
noncomputable def plus (a b : Rib.Acc ℝ) : Rib.Acc ℝ :=
  { hit := a.hit || b.hit
    area := a.area + b.area
    volume := a.volume + b.volume
    point := V3.add a.point b.point
    normal := V3.add a.normal b.normal
    friction := a.friction + b.friction }

theorem plus_init (a : Rib.Acc ℝ) : plus a Rib.Acc.init = a := by
  cases a
  simp [plus, Rib.Acc.init, V3.real_add, V3.zeros]

theorem plus_add (a b : Rib.Acc ℝ) (c : Rib.Contrib ℝ) : (plus a b).add c = plus a (b.add c) := by
  simp only [plus, Rib.Acc.add, Bool.or_true, V3.real_add, V3.real_smul, real_add, real_mul, Rib.Acc.mk.injEq, V3.mk.injEq, true_and]
  refine ⟨by ring, by ring, ⟨by ring, by ring, by ring⟩, ⟨by ring, by ring, by ring⟩, by ring⟩

/-- What the loop adds does not depend on what has been added before. -/
theorem shift (r : Rib ℝ) (pose : Affine ℝ) (ts : List (TriangleGround ℝ)) (a b : Rib.Acc ℝ) :
    r.geomLoop pose ts (plus a b) = (r.geomLoop pose ts b) >>= fun c => .ok (plus a c) := by
  induction ts generalizing b with
  | nil => rfl
  | cons t ts ih =>
    rw [Rib.geomLoop, Rib.geomLoop]
    rcases Inter.triangleDisk t.tri (r.diskGrd pose) Scalar.eps with o | w | w
    · simp only [Res.bind_ok]
      cases o with
      | none => exact ih b
      | some seg =>
        dsimp only
        cases r.contrib pose t seg with
        | none => rfl
        | some c => dsimp only; rw [plus_add]; exact ih _
    · rfl
    · rfl

/-- Without short sections the loop over two lists is one loop after the other. -/
theorem append (r : Rib ℝ) (pose : Affine ℝ) {ts : List (TriangleGround ℝ)}
    (hb : ∀ t ∈ ts, ∀ seg, Inter.triangleDisk t.tri (r.diskGrd pose) Scalar.eps = .ok (some seg) → r.contrib pose t seg ≠ none)
    (ts' : List (TriangleGround ℝ)) (acc : Rib.Acc ℝ) :
    r.geomLoop pose (ts ++ ts') acc = (r.geomLoop pose ts acc) >>= fun c => r.geomLoop pose ts' c := by
  induction ts generalizing acc with
  | nil => rfl
  | cons t ts ih =>
    have ih := ih fun t ht => hb t (List.mem_cons_of_mem _ ht)
    have hb := hb t (List.mem_cons_self ..)
    rw [List.cons_append, Rib.geomLoop, Rib.geomLoop]
    rcases hq : Inter.triangleDisk t.tri (r.diskGrd pose) Scalar.eps with o | w | w
    · simp only [Res.bind_ok]
      cases o with
      | none => exact ih acc
      | some seg =>
        dsimp only
        cases hc : r.contrib pose t seg with
        | none => exact absurd hc (hb seg hq)
        | some c => exact ih _
    · rfl
    · rfl

/-- `k` times the sum. -/
noncomputable def times (k : Nat) (a : Rib.Acc ℝ) : Rib.Acc ℝ :=
  { hit := a.hit && decide (0 < k)
    area := k * a.area
    volume := k * a.volume
    point := V3.smul (k : ℝ) a.point
    normal := V3.smul (k : ℝ) a.normal
    friction := k * a.friction }

theorem loop (r : Rib ℝ) (pose : Affine ℝ) {ts : List (TriangleGround ℝ)}
    (hb : ∀ t ∈ ts, ∀ seg, Inter.triangleDisk t.tri (r.diskGrd pose) Scalar.eps = .ok (some seg) → r.contrib pose t seg ≠ none)
    {a : Rib.Acc ℝ} (ha : r.geomLoop pose ts Rib.Acc.init = .ok a) (k : Nat) :
    r.geomLoop pose (repeated k ts) Rib.Acc.init = .ok (times k a) := by
  induction k with
  | zero =>
    simp only [repeated, List.replicate_zero, List.flatten_nil, Rib.geomLoop, times, Nat.cast_zero, lt_irrefl, decide_false, Bool.and_false,
      zero_mul, V3.real_smul]
    simp [Rib.Acc.init, V3.zeros]
  | succ k ih =>
    have e : repeated (k + 1) ts = ts ++ repeated k ts := by
      simp only [repeated, List.replicate_succ, List.flatten_cons]
    rw [e, append r pose hb, ha, Res.bind_ok, ← plus_init a, shift, ih, Res.bind_ok]
    simp only [plus, times, V3.real_add, V3.real_smul, Rib.Acc.init, Res.ok.injEq, Rib.Acc.mk.injEq, V3.mk.injEq, V3.zeros, Nat.cast_add,
      Nat.cast_one, real_zero, Nat.zero_lt_succ, decide_true, Bool.and_true, Bool.or_false]
    refine ⟨by cases a.hit <;> simp, by ring, by ring, ⟨by ring, by ring, by ring⟩, ⟨by ring, by ring, by ring⟩, by ring⟩

theorem unbroken {r : Rib ℝ} {pose : Affine ℝ} {ts : List (TriangleGround ℝ)}
    (hlen : ∀ t ∈ ts, ∀ seg, Inter.triangleDisk t.tri (r.diskGrd pose) Scalar.eps = .ok (some seg) → Scalar.eps ≤ dist3 seg.v0 seg.v1) :
    ∀ t ∈ ts, ∀ seg, Inter.triangleDisk t.tri (r.diskGrd pose) Scalar.eps = .ok (some seg) → r.contrib pose t seg ≠ none := by
  intro t ht seg hs hc
  have := hlen t ht seg hs
  unfold Rib.contrib at hc
  dsimp only at hc
  rw [if_neg] at hc
  · cases hc
  · rw [Segment.length, V3.norm_sub]
    simp only [real_lt, Bool.and_eq_true, decide_eq_true_eq, not_and]
    intro _
    linarith

end Repeated

/-- **C136 is false for the geometric method, in every contact**: if the mesh is listed `k` times, the contact point, the normal, the
friction and the depth stay, but the area and the volume are `k` times as large, and one of them was not zero. -/
theorem C136_geometric_refuted {r : Rib ℝ} {pose : Affine ℝ} {ts : List (TriangleGround ℝ)} {o : Output ℝ}
    (hlen : ∀ t ∈ ts, ∀ seg, Inter.triangleDisk t.tri (r.diskGrd pose) Scalar.eps = .ok (some seg) → Scalar.eps ≤ dist3 seg.v0 seg.v1)
    (h : r.envelopGeometricMesh ts pose = .ok (true, o)) {k : Nat} (hk : 1 ≤ k) :
    r.envelopGeometricMesh (repeated k ts) pose = .ok (true, { o with area := k * o.area, volume := k * o.volume }) ∧
      (Scalar.eps < o.area ∨ Scalar.eps < o.volume) := by
  have hpos := real_eps_pos
  have hk' : (1 : ℝ) ≤ k := by exact_mod_cast hk
  have hk0 : (k : ℝ) ≠ 0 := by linarith
  unfold Rib.envelopGeometricMesh at h ⊢
  obtain ⟨a, ha, h⟩ := Res.bind_eq_ok.1 h
  rw [Repeated.loop r pose (Repeated.unbroken hlen) ha k, Res.bind_ok]
  simp only [Res.pure_eq, Res.ok.injEq] at h ⊢
  unfold Rib.geomFinish at h ⊢
  split at h
  · rename_i hc
    simp only [Bool.and_eq_true, Bool.or_eq_true, real_lt, decide_eq_true_eq] at hc
    obtain ⟨-, rfl⟩ := Prod.mk.inj h
    refine ⟨?_, hc.2⟩
    rw [if_pos]
    · have ep : V3.sdiv (Repeated.times k a).point (Repeated.times k a).volume = V3.sdiv a.point a.volume := by
        simp only [Repeated.times, V3.real_smul, V3.real_sdiv, V3.mk.injEq]
        exact ⟨mul_div_mul_left _ _ hk0, mul_div_mul_left _ _ hk0, mul_div_mul_left _ _ hk0⟩
      have en : V3.sdiv (Repeated.times k a).normal (Repeated.times k a).volume = V3.sdiv a.normal a.volume := by
        simp only [Repeated.times, V3.real_smul, V3.real_sdiv, V3.mk.injEq]
        exact ⟨mul_div_mul_left _ _ hk0, mul_div_mul_left _ _ hk0, mul_div_mul_left _ _ hk0⟩
      have ef : (Repeated.times k a).friction /. (Repeated.times k a).volume = a.friction /. a.volume := by
        simp only [Repeated.times, real_div]
        exact mul_div_mul_left _ _ hk0
      rw [ep, en, ef]
      rfl
    · simp only [Bool.and_eq_true, Bool.or_eq_true, real_lt, decide_eq_true_eq, Repeated.times]
      refine ⟨⟨hc.1, by omega⟩, ?_⟩
      rcases hc.2 with h' | h'
      · left; nlinarith
      · right; nlinarith
  · cases h

/-! ## Whole tyres -/

namespace Repeated

/-- A permutation of the faces is one of the triangles. -/
theorem lift {l : List (TriangleGround ℝ)} {k : List (Triangle ℝ × V3 ℝ × ℝ)} (h : (l.map faceOf).Perm k) :
    ∃ l', l.Perm l' ∧ l'.map faceOf = k := by
  generalize hk : l.map faceOf = k0 at h
  induction h generalizing l with
  | nil => exact ⟨[], by rw [List.map_eq_nil_iff.1 hk], rfl⟩
  | cons x _ ih =>
    obtain ⟨t, l2, rfl, rfl, h3⟩ := List.map_eq_cons_iff.1 hk
    obtain ⟨l', p1, p2⟩ := ih h3
    exact ⟨t :: l', p1.cons _, by rw [List.map_cons, p2]⟩
  | swap x y l0 =>
    obtain ⟨t, l2, rfl, rfl, h3⟩ := List.map_eq_cons_iff.1 hk
    obtain ⟨t', l3, rfl, rfl, h4⟩ := List.map_eq_cons_iff.1 h3
    exact ⟨t' :: t :: l3, .swap _ _ _, by rw [List.map_cons, List.map_cons, h4]⟩
  | trans _ _ ih1 ih2 =>
    obtain ⟨l', p1, p2⟩ := ih1 hk
    obtain ⟨l'', p3, p4⟩ := ih2 p2
    exact ⟨l'', p1.trans p3, p4⟩

theorem near {t t' : TriangleGround ℝ} (ht : t.Constructed) (ht' : t'.Constructed) (h : faceOf t' = faceOf t) (q : Box ℝ) :
    t'.bbox.intersects q = t.bbox.intersects q := by
  rw [ht.bbox_eq, ht'.bbox_eq, eq_tri h]
  rfl

theorem found {m m' : Mesh ℝ} (hm : BuiltMesh m) (hm' : BuiltMesh m') (h : SameFaces m.triangles m'.triangles) {q : Box ℝ}
    {loc loc' : List (TriangleGround ℝ)} (hl : loc.Perm (m.triangles.filter fun t => t.bbox.intersects q))
    (hl' : loc'.Perm (m'.triangles.filter fun t => t.bbox.intersects q)) : SameFaces loc loc' := by
  have key : ∀ {m m' : Mesh ℝ} (_ : BuiltMesh m) (_ : BuiltMesh m') (_ : SameFaces m.triangles m'.triangles)
      {loc loc' : List (TriangleGround ℝ)} (_ : loc.Perm (m.triangles.filter fun t => t.bbox.intersects q))
      (_ : loc'.Perm (m'.triangles.filter fun t => t.bbox.intersects q)), ∀ f, f ∈ loc.map faceOf → f ∈ loc'.map faceOf := by
    intro m m' hm hm' h loc loc' hl hl' f hf
    obtain ⟨t, ht, rfl⟩ := List.mem_map.1 hf
    obtain ⟨h1, h2⟩ := List.mem_filter.1 (hl.mem_iff.1 ht)
    obtain ⟨t', ht', e⟩ := goes h t h1
    refine List.mem_map.2 ⟨t', hl'.mem_iff.2 (List.mem_filter.2 ⟨ht', ?_⟩), e⟩
    rw [near (hm.constructed t h1) (hm'.constructed t' ht') e]
    exact h2
  exact fun f => ⟨key hm hm' h hl hl' f, key hm' hm (symm h) hl' hl f⟩

end Repeated

/-- **C136, sampling method, whole tyres**: two meshes with the same faces, however often and in whatever order they list them, give the
same contacts. -/
theorem C136_sampling_tyre (pol : Policy) {s s1 s2 : Shell ℝ} (hs : s.Reachable pol) {m m' : Mesh ℝ} (hm : BuiltMesh m)
    (hm' : BuiltMesh m') (hface : SameFaces m.triangles m'.triangles) {pose : Affine ℝ} {b1 b2 : Bool}
    (h1 : s.setupMesh pol m pose "sampling" = .ok s1 b1) (h2 : s.setupMesh pol m' pose "sampling" = .ok s2 b2) :
    b1 = b2 ∧ ∀ i < s.size, ∃ o1 o2, s1.out.read pol i = .ok o1 ∧ s2.out.read pol i = .ok o2 ∧
      o1.point = o2.point ∧ o1.normal = o2.normal ∧ o1.depth = o2.depth ∧ o1.area = o2.area ∧ o1.volume = o2.volume := by
  obtain ⟨loc, hl1, hp1⟩ := hm.query _ (Shell.updateBBox_WF (s.transform pose))
  obtain ⟨loc', hl2, hp2⟩ := hm'.query _ (Shell.updateBBox_WF (s.transform pose))
  have hloc := Repeated.found hm hm' hface hp1 hp2
  obtain ⟨f1, r1, a1, c1⟩ := C38_mesh_flag pol s s1 hs m pose "sampling" loc b1 hl1 h1
  obtain ⟨f2, r2, a2, c2⟩ := C38_mesh_flag pol s s2 hs m' pose "sampling" loc' b2 hl2 h2
  have e1 := (Shell.setupMesh_rel (.inl ⟨b1, h1⟩)).ribs
  have e2 := (Shell.setupMesh_rel (.inl ⟨b2, h2⟩)).ribs
  have heval : ∀ (l : List (TriangleGround ℝ)) (r : Rib ℝ), (if l = [] then Res.ok (false, r.noContact pose) else
      r.envelopMesh (Shell.ribCandidates pose "sampling" l r) pose "sampling") = .ok (r.envelopSamplingMesh l pose) := by
    intro l r
    split
    · rename_i hl
      subst hl
      rfl
    · have hc : Shell.ribCandidates pose "sampling" l r = l := by
        rw [Shell.ribCandidates, List.filter_eq_self]
        intro t _
        simp [Shell.isCandidate, Shell.refines]
      rw [hc, Rib.envelopMesh, if_neg (by decide), if_pos rfl]
  have hsame : ∀ i < s.size, f1 i = f2 i ∧ (r1 i).point = (r2 i).point ∧ (r1 i).normal = (r2 i).normal ∧
      (r1 i).depth = (r2 i).depth ∧ (r1 i).area = (r2 i).area ∧ (r1 i).volume = (r2 i).volume := by
    intro i hi
    obtain ⟨r, g1, g2, -⟩ := a1 i hi
    obtain ⟨r', g1', g2', -⟩ := a2 i hi
    rw [e1] at g1
    rw [e2, g1] at g1'
    cases g1'
    dsimp only at g2 g2'
    rw [heval] at g2 g2'
    obtain ⟨k1, k2, k3, k4, k5, k6, -⟩ := C136_sampling r pose hloc
    rw [Res.ok.inj g2, Res.ok.inj g2'] at k1 k2 k3 k4 k5 k6
    exact ⟨k1, k2, k3, k4, k5, k6⟩
  constructor
  · rw [Bool.eq_iff_iff, c1, c2]
    constructor
    · rintro ⟨i, hi, h⟩; exact ⟨i, hi, by rw [← (hsame i hi).1]; exact h⟩
    · rintro ⟨i, hi, h⟩; exact ⟨i, hi, by rw [(hsame i hi).1]; exact h⟩
  · intro i hi
    obtain ⟨-, -, -, k1⟩ := a1 i hi
    obtain ⟨-, -, -, k2⟩ := a2 i hi
    exact ⟨_, _, k1, k2, (hsame i hi).2⟩

/-- **C136, geometric method, whole tyres**: on a mesh that lists each face `k` times, a rib in contact keeps its point, normal, friction and
depth, and has `k` times the area and `k` times the volume. -/
theorem C136_tyre_partial (pol : Policy) {s s1 s2 : Shell ℝ} (hs : s.Reachable pol) (hx : 0 ≤ s.shape.rx) {m m' : Mesh ℝ} (hm : BuiltMesh m)
    (hm' : BuiltMesh m') {pose : Affine ℝ} (hp : IsRigid pose) (hbox : ∀ r ∈ s.ribs, r.radius ^ 2 + r.center.y ^ 2 ≤ s.shape.rx ^ 2)
    {k : Nat} (hk : 1 ≤ k) (hrep : (m'.triangles.map faceOf).Perm ((repeated k m.triangles).map faceOf))
    (hclear : ∀ t ∈ m.triangles, ∀ r ∈ s.ribs, ClearOfRib pose r t.tri)
    (hlen : ∀ t ∈ m.triangles, ∀ r ∈ s.ribs, ∀ seg, Inter.triangleDisk t.tri (r.diskGrd pose) Scalar.eps = .ok (some seg) →
      Scalar.eps ≤ dist3 seg.v0 seg.v1)
    {b1 b2 : Bool} (h1 : s.setupMesh pol m pose "geometric" = .ok s1 b1) (h2 : s.setupMesh pol m' pose "geometric" = .ok s2 b2) :
    (b1 = true → b2 = true) ∧ ∀ i r o, s.ribs[i]? = some r → r.envelopGeometricMesh m.triangles pose = .ok (true, o) →
      s1.out.read pol i = .ok o ∧ s2.out.read pol i = .ok { o with area := k * o.area, volume := k * o.volume } := by
  have hfrom : ∀ t' ∈ m'.triangles, ∃ t ∈ m.triangles, t.tri = t'.tri := by
    intro t' ht'
    obtain ⟨t, ht, e⟩ := List.mem_map.1 (hrep.mem_iff.1 (List.mem_map_of_mem (f := faceOf) ht'))
    refine ⟨t, ?_, congrArg Prod.fst e⟩
    simp only [repeated, List.mem_flatten, List.mem_replicate] at ht
    obtain ⟨l, ⟨-, rfl⟩, h⟩ := ht
    exact h
  have hclear' : ∀ t ∈ m'.triangles, ∀ r ∈ s.ribs, ClearOfRib pose r t.tri := by
    intro t ht
    obtain ⟨t', ht', e⟩ := hfrom t ht
    rw [← e]; exact hclear t' ht'
  have hlen' : ∀ t ∈ m'.triangles, ∀ r ∈ s.ribs, ∀ seg, Inter.triangleDisk t.tri (r.diskGrd pose) Scalar.eps = .ok (some seg) →
      Scalar.eps ≤ dist3 seg.v0 seg.v1 := by
    intro t ht
    obtain ⟨t', ht', e⟩ := hfrom t ht
    rw [← e]; exact hlen t' ht'
  obtain ⟨a1, c1⟩ := C61_search_geometric_partial pol s s1 hs hx m hm pose hp hbox hclear hlen b1 h1
  obtain ⟨a2, c2⟩ := C61_search_geometric_partial pol s s2 hs hx m' hm' pose hp hbox hclear' hlen' b2 h2
  have e1 := (Shell.setupMesh_rel (.inl ⟨b1, h1⟩)).ribs
  have e2 := (Shell.setupMesh_rel (.inl ⟨b2, h2⟩)).ribs
  have hsame : ∀ r ∈ s.ribs, ∀ o, r.envelopGeometricMesh m.triangles pose = .ok (true, o) →
      r.envelopGeometricMesh m'.triangles pose = .ok (true, { o with area := k * o.area, volume := k * o.volume }) := by
    intro r hr o ho
    obtain ⟨ts, hts, hf⟩ := Repeated.lift hrep
    rw [C34_order_partial r pose _ _ hts fun t ht => hlen' t ht r hr,
      ← (C136_geometric_refuted (fun t ht => hlen t ht r hr) ho hk).1]
    unfold Rib.envelopGeometricMesh
    rw [Untouched.geomLoop_faces r pose hf]
  constructor
  · intro hb
    obtain ⟨r, hr, o, ho⟩ := c1.1 hb
    rw [e1] at hr
    exact c2.2 ⟨r, by rw [e2]; exact hr, _, hsame r hr o ho⟩
  · intro i r o hr ho
    obtain ⟨f1, o1, k1, k2⟩ := a1 i r (by rw [e1]; exact hr)
    obtain ⟨f2, o2, k3, k4⟩ := a2 i r (by rw [e2]; exact hr)
    rw [ho] at k1
    rw [hsame r (List.mem_of_getElem? hr) o ho] at k3
    obtain ⟨-, rfl⟩ := Prod.mk.inj (Res.ok.inj k1)
    obtain ⟨-, rfl⟩ := Prod.mk.inj (Res.ok.inj k3)
    exact ⟨k2, k4⟩

/-- The field once more, with the next number. -/
noncomputable def Demo.again : TriangleGround ℝ :=
  TriangleGround.updateBBox (TriangleGround.updateNormal
    ⟨⟨⟨0, 10, 0⟩, ⟨-30, -10, 0⟩, ⟨30, -10, 0⟩⟩, 1, 1, V3.nan, Box.default⟩)

theorem Demo.again_make : TriangleGround.make 1 (1 : ℝ) ⟨0, 10, 0⟩ ⟨-30, -10, 0⟩ ⟨30, -10, 0⟩ = .ok Demo.again := by
  simp [TriangleGround.make, Demo.again]

theorem Demo.again_built : BuiltMesh (Mesh.ofTriangles [Demo.field, Demo.again]) := by
  refine .inr ⟨_, by simp, ?_, ?_, rfl⟩
  · simp only [List.mem_cons, List.not_mem_nil, or_false, forall_eq_or_imp, forall_eq]
    exact ⟨⟨_, _, _, _, _, Demo.field_make⟩, ⟨_, _, _, _, _, Demo.again_make⟩⟩
  · intro i t ht
    match i, ht with
    | 0, ht => simp at ht; subst ht; rfl
    | 1, ht => simp at ht; subst ht; rfl
    | n + 2, ht => simp at ht

/-- The hypotheses of `C136_sampling_tyre` are met by the field and the field listed twice; those of `C136_geometric_refuted` too, in
contact: listed twice it has twice the area and twice the volume. -/
example : SameFaces [Demo.field] [Demo.field, Demo.again] ∧ BuiltMesh (Mesh.ofTriangles [Demo.field]) ∧
    BuiltMesh (Mesh.ofTriangles [Demo.field, Demo.again]) ∧ ∃ o : Output ℝ,
      (Demo.ribOf 2).envelopGeometricMesh [Demo.field] (Demo.upright (1 / 2)) = .ok (true, o) ∧
      (Demo.ribOf 2).envelopGeometricMesh [Demo.field, Demo.again] (Demo.upright (1 / 2)) =
        .ok (true, { o with area := 2 * o.area, volume := 2 * o.volume }) ∧ (0 < o.area ∨ 0 < o.volume) := by
  have hpos := real_eps_pos
  have hface : faceOf Demo.again = faceOf Demo.field := rfl
  refine ⟨fun f => by simp [hface], Demo.field_built, Demo.again_built, ?_⟩
  obtain ⟨o, ho⟩ := Demo.field_contact (w := 2) (by norm_num)
  obtain ⟨h1, h2⟩ := C136_geometric_refuted (k := 2) (by
      intro t ht seg hseg
      rw [List.mem_singleton] at ht
      subst ht
      have hcut : Inter.triangleDisk Demo.field.tri ((Demo.ribOf 2).diskGrd (Demo.upright (1 / 2))) Scalar.eps =
          .ok (some ⟨⟨Real.sqrt (3 / 4), 0, 0⟩, ⟨-Real.sqrt (3 / 4), 0, 0⟩⟩) := Demo.field_cut
      rw [hcut] at hseg
      cases hseg
      obtain ⟨q1, -, -⟩ := Demo.sqrt34
      have heps := real_eps_le_half
      unfold dist3
      dsimp only
      rw [show (Real.sqrt (3 / 4) - -Real.sqrt (3 / 4)) ^ 2 + (0 - 0) ^ 2 + (0 - 0) ^ 2 = (2 * Real.sqrt (3 / 4)) ^ 2 by ring,
        Real.sqrt_sq (by linarith)]
      linarith) ho (by norm_num)
  refine ⟨o, ho, ?_, h2.imp hpos.trans hpos.trans⟩
  have e : (Demo.ribOf 2).envelopGeometricMesh [Demo.field, Demo.again] (Demo.upright (1 / 2)) =
      (Demo.ribOf 2).envelopGeometricMesh (repeated 2 [Demo.field]) (Demo.upright (1 / 2)) := by
    unfold Rib.envelopGeometricMesh
    rw [Untouched.geomLoop_faces (ts' := repeated 2 [Demo.field]) _ _ (by simp [repeated, List.replicate_succ, hface])]
  rw [e, h1]
  norm_num

end Enve
