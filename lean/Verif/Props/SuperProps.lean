import Verif.Props.AgreeProps
import Verif.Base.Special

/-! # The geometric method on a mesh is a superposition: C36 -/

namespace Enve
open Scalar Spec

/-- The sum of vectors `f x` with weights `w x`. -/
def Spec.wsum {β : Type} (w : β → ℝ) (f : β → V3 ℝ) (l : List β) : V3 ℝ :=
  ⟨(l.map fun x => w x * (f x).x).sum, (l.map fun x => w x * (f x).y).sum,
   (l.map fun x => w x * (f x).z).sum⟩

/-- What the triangles of a mesh report one by one: `os` are the results of the geometric method for the
triangles of `ts` that are in contact when they are the whole ground (with a contact volume other than
zero); the other triangles of `ts` are not cut by the disk of the rib. -/
inductive Spec.Alone (r : Rib ℝ) (pose : Affine ℝ) : List (TriangleGround ℝ) → List (Output ℝ) → Prop
  | nil : Alone r pose [] []
  | apart {t ts os} (h : Inter.triangleDisk t.tri (r.diskGrd pose) Scalar.eps = .ok none)
      (hs : Alone r pose ts os) : Alone r pose (t :: ts) os
  | contact {t ts o os} (h : r.envelopGeometricMesh [t] pose = .ok (true, o)) (hv : o.volume ≠ 0)
      (hs : Alone r pose ts os) : Alone r pose (t :: ts) (o :: os)

theorem V3.normalized_idem (a : V3 ℝ) : V3.normalized (V3.normalized a) = V3.normalized a := by
  by_cases h : a = ⟨0, 0, 0⟩
  · rw [V3.normalized_zero h, V3.normalized_zero h]
  · exact V3.normalized_unit (V3.sq_normalized h)

theorem Rib.contrib_normal {r : Rib ℝ} {pose : Affine ℝ} {t : TriangleGround ℝ} {seg : Segment ℝ}
    {c : Rib.Contrib ℝ} (h : r.contrib pose t seg = some c) : V3.normalized c.normal = c.normal := by
  unfold Rib.contrib at h
  dsimp only at h
  rw [Option.ite_none_left_eq_some] at h
  have h := Option.some.inj h.2
  subst h
  exact V3.normalized_idem _

theorem Rib.foldl_add_vec (cs : List (Rib.Contrib ℝ)) (acc : Rib.Acc ℝ) :
    (cs.foldl Rib.Acc.add acc).point = V3.add acc.point (wsum (·.volume) (·.point) cs) ∧
    (cs.foldl Rib.Acc.add acc).normal = V3.add acc.normal (wsum (·.volume) (·.normal) cs) := by
  induction cs generalizing acc with
  | nil => simp [wsum, V3.real_add]
  | cons c cs ih =>
    obtain ⟨h1, h2⟩ := ih (acc.add c)
    simp only [List.foldl_cons, h1, h2, wsum, List.map_cons, List.sum_cons]
    constructor <;> simp only [Rib.Acc.add] <;> v3 <;> congr 1 <;> ring

/-- The result for one triangle in contact is its contribution. -/
theorem Rib.geom_single {r : Rib ℝ} (hr : IsRib r) {pose : Affine ℝ} {t : TriangleGround ℝ}
    {o : Output ℝ} (h : r.envelopGeometricMesh [t] pose = .ok (true, o)) (hv : o.volume ≠ 0) :
    ∃ seg c, Inter.triangleDisk t.tri (r.diskGrd pose) Scalar.eps = .ok (some seg) ∧
      r.contrib pose t seg = some c ∧ 0 < c.volume ∧ 0 ≤ c.area ∧ c.area = o.area ∧
      c.volume = o.volume ∧ c.point = o.point ∧ c.normal = o.normal ∧ c.friction = o.friction ∧
      (Scalar.eps < o.area ∨ Scalar.eps < o.volume) := by
  obtain ⟨-, -, -, -, -, -, heps⟩ := Rib.geometricMesh_sums hr h
  unfold Rib.envelopGeometricMesh at h
  rw [Res.bind_eq_ok] at h
  obtain ⟨acc, hl, h⟩ := h
  have h := Res.ok.inj h
  rw [Rib.geomLoop, Res.bind_eq_ok] at hl
  obtain ⟨s, hs, hl⟩ := hl
  cases s with
  | none =>
    simp only [Rib.geomLoop] at hl
    cases hl
    simp [Rib.geomFinish, Rib.Acc.init] at h
  | some seg =>
    dsimp only at hl
    cases hc : r.contrib pose t seg with
    | none =>
      rw [hc] at hl
      cases hl
      simp [Rib.geomFinish, Rib.Acc.init] at h
    | some c =>
      rw [hc] at hl
      simp only [Rib.geomLoop] at hl
      cases hl
      unfold Rib.geomFinish at h
      split at h
      · cases h
        obtain ⟨e1, e2, -, e4⟩ := Rib.contrib_spec hr.radius_pos.le hr.width_nonneg hc
        simp only [Rib.Acc.add, Rib.Acc.init, real_zero, real_add, zero_add] at hv heps
        have hpos : 0 < c.volume := lt_of_le_of_ne e2 (Ne.symm hv)
        refine ⟨seg, c, hs, hc, hpos, by rw [e1]; exact mul_nonneg hr.width_nonneg (dist3_nonneg _ _),
          ?_, ?_, ?_, ?_, ?_, ?_⟩
        · simp [Rib.Acc.add, Rib.Acc.init]
        · simp [Rib.Acc.add, Rib.Acc.init]
        · simp only [Rib.Acc.add, Rib.Acc.init]; v3
          ext <;> simp [hv]
        · conv_lhs => rw [← Rib.contrib_normal hc]
          congr 1
          simp only [Rib.Acc.add, Rib.Acc.init]; v3
          ext <;> simp [hv]
        · simp [Rib.Acc.add, Rib.Acc.init, hv]
        · simpa [Rib.Acc.add, Rib.Acc.init] using heps
      · cases h

/-- The loop over a mesh, by the results for its triangles. -/
theorem Rib.geomLoop_alone {r : Rib ℝ} (hr : IsRib r) {pose : Affine ℝ} {ts : List (TriangleGround ℝ)}
    {os : List (Output ℝ)} (h : Alone r pose ts os) (acc : Rib.Acc ℝ) :
    ∃ cs : List (Rib.Contrib ℝ), r.geomLoop pose ts acc = .ok (cs.foldl Rib.Acc.add acc) ∧
      List.Forall₂ (fun c o => 0 < c.volume ∧ 0 ≤ c.area ∧ c.area = o.area ∧ c.volume = o.volume ∧
        c.point = o.point ∧ c.normal = o.normal ∧ c.friction = o.friction ∧
        (Scalar.eps < o.area ∨ Scalar.eps < o.volume)) cs os := by
  induction h generalizing acc with
  | nil => exact ⟨[], rfl, .nil⟩
  | apart h _ ih =>
    obtain ⟨cs, h1, h2⟩ := ih acc
    exact ⟨cs, by rw [Rib.geomLoop, h]; exact h1, h2⟩
  | contact h hv _ ih =>
    obtain ⟨seg, c, e1, e2, e3⟩ := Rib.geom_single hr h hv
    obtain ⟨cs, h1, h2⟩ := ih (acc.add c)
    refine ⟨c :: cs, ?_, .cons e3 h2⟩
    rw [Rib.geomLoop, e1, Res.bind_ok]
    dsimp only
    rw [e2]
    exact h1

theorem Spec.map_sum_congr {β γ : Type} {R : β → γ → Prop} {l : List β} {k : List γ}
    (h : List.Forall₂ R l k) (f : β → ℝ) (g : γ → ℝ) (hfg : ∀ b c, R b c → f b = g c) :
    (l.map f).sum = (k.map g).sum := by
  induction h with
  | nil => rfl
  | cons h _ ih => simp [hfg _ _ h, ih]

theorem Spec.forall₂_left {β γ : Type} {R : β → γ → Prop} {l : List β} {k : List γ}
    (h : List.Forall₂ R l k) {Q : β → Prop} (hq : ∀ b c, R b c → Q b) : ∀ b ∈ l, Q b := by
  induction h with
  | nil => simp
  | cons h _ ih => simpa [hq _ _ h] using ih

/-- **C36**, the superposition.  If every triangle of a mesh is either not cut by the disk of the rib or,
as the only ground, in contact with nonzero volume, then the geometric method on the mesh reports
* the sum of the areas and the sum of the volumes reported for the triangles one by one,
* the means of their contact points and of their frictions, weighted with their volumes,
* a normal along the sum of their normals weighted with their volumes, of length one unless that sum
  vanishes,
* the distance of the reported contact point to the rim of the rib as depth;
and no contact if no triangle is cut. -/
theorem C36_superposition {r : Rib ℝ} (hr : IsRib r) (pose : Affine ℝ) (ts : List (TriangleGround ℝ))
    (os : List (Output ℝ)) (h : Alone r pose ts os) :
    (os = [] → ∃ o, r.envelopGeometricMesh ts pose = .ok (false, o)) ∧
    (os ≠ [] → ∃ o, r.envelopGeometricMesh ts pose = .ok (true, o) ∧
      0 < o.volume ∧
      o.area = (os.map (·.area)).sum ∧
      o.volume = (os.map (·.volume)).sum ∧
      o.friction * o.volume = (os.map fun x => x.volume * x.friction).sum ∧
      ⟨o.volume * o.point.x, o.volume * o.point.y, o.volume * o.point.z⟩ =
        wsum (·.volume) (·.point) os ∧
      (let n := wsum (·.volume) (·.normal) os
       (n ≠ ⟨0, 0, 0⟩ → ∃ k : ℝ, 0 < k ∧ o.normal = ⟨k * n.x, k * n.y, k * n.z⟩ ∧
          o.normal.x ^ 2 + o.normal.y ^ 2 + o.normal.z ^ 2 = 1) ∧
       (n = ⟨0, 0, 0⟩ → o.normal = ⟨0, 0, 0⟩)) ∧
      o.depth = r.radius - dist3 o.point (r.centerGrd pose)) := by
  obtain ⟨cs, h1, h2⟩ := Rib.geomLoop_alone hr h Rib.Acc.init
  obtain ⟨f1, f2, f3, f4⟩ := Rib.foldl_add cs Rib.Acc.init
  obtain ⟨g1, g2⟩ := Rib.foldl_add_vec cs Rib.Acc.init
  constructor
  · rintro rfl
    cases h2
    exact ⟨_, by rw [Rib.envelopGeometricMesh, h1]; rfl⟩
  · intro hne
    have s1 := map_sum_congr h2 (·.area) (·.area) fun _ _ h => h.2.2.1
    have s2 := map_sum_congr h2 (·.volume) (·.volume) fun _ _ h => h.2.2.2.1
    have s3 := map_sum_congr h2 (fun c => c.volume * c.friction) (fun x => x.volume * x.friction)
      fun _ _ h => by rw [h.2.2.2.1, h.2.2.2.2.2.2.1]
    have s4 : wsum (·.volume) (·.point) cs = wsum (·.volume) (·.point) os := by
      simp only [wsum]
      congr 1 <;> refine map_sum_congr h2 _ _ fun _ _ h => ?_ <;> rw [h.2.2.2.1, h.2.2.2.2.1]
    have s5 : wsum (·.volume) (·.normal) cs = wsum (·.volume) (·.normal) os := by
      simp only [wsum]
      congr 1 <;> refine map_sum_congr h2 _ _ fun _ _ h => ?_ <;> rw [h.2.2.2.1, h.2.2.2.2.2.1]
    have big : cs ≠ [] ∧ 0 < (cs.map (·.volume)).sum ∧ (Scalar.eps < (cs.map (·.area)).sum ∨
        Scalar.eps < (cs.map (·.volume)).sum) := by
      cases h2 with
      | nil => exact absurd rfl hne
      | @cons c o cs os hc hs =>
        have nn : ∀ c ∈ cs, 0 ≤ c.volume ∧ 0 ≤ c.area := by
          intro c hc
          exact forall₂_left hs (Q := fun c => 0 ≤ c.volume ∧ 0 ≤ c.area) (fun _ _ h => ⟨h.1.le, h.2.1⟩) c hc
        have n1 := list_sum_nonneg cs (·.volume) fun c hc => (nn c hc).1
        have n2 := list_sum_nonneg cs (·.area) fun c hc => (nn c hc).2
        obtain ⟨p1, p2, p3, p4, -, -, -, p5⟩ := hc
        refine ⟨by simp, ?_, ?_⟩
        · simp only [List.map_cons, List.sum_cons]; linarith
        · simp only [List.map_cons, List.sum_cons]
          rcases p5 with p5 | p5
          · left; linarith
          · right; linarith
    obtain ⟨b0, b1, b2⟩ := big
    have z (v : V3 ℝ) : V3.add V3.zeros v = v := by v3; simp
    generalize hacc : cs.foldl Rib.Acc.add Rib.Acc.init = acc at *
    replace f1 : acc.area = (cs.map (·.area)).sum := f1.trans (by simp [Rib.Acc.init])
    replace f2 : acc.volume = (cs.map (·.volume)).sum := f2.trans (by simp [Rib.Acc.init])
    replace f3 : acc.friction = (cs.map fun c => c.volume * c.friction).sum := f3.trans (by simp [Rib.Acc.init])
    replace g1 : acc.point = wsum (·.volume) (·.point) cs := g1.trans (z _)
    replace g2 : acc.normal = wsum (·.volume) (·.normal) cs := g2.trans (z _)
    have hv : acc.volume ≠ 0 := by rw [f2]; exact b1.ne'
    have hcond : (acc.hit && (Scalar.eps <. acc.area || Scalar.eps <. acc.volume)) = true := by
      have : acc.hit = true := by
        rw [f4]; cases cs with
        | nil => exact absurd rfl b0
        | cons => simp [Rib.Acc.init]
      simp only [this, real_lt, Bool.true_and, Bool.or_eq_true, decide_eq_true_eq, f1, f2]
      exact b2
    refine ⟨_, by rw [Rib.envelopGeometricMesh, h1]; simp only [Res.bind_ok, Rib.geomFinish, hcond]; rfl,
      ?_, ?_, ?_, ?_, ?_, ⟨?_, ?_⟩, ?_⟩
    · simpa only [f2] using b1
    · simp only [f1, s1]
    · simp only [f2, s2]
    · simp only [real_div]; rw [div_mul_cancel₀ _ hv, f3, s3]
    · rw [← s4, ← g1]; v3
      ext <;> simp only [] <;> field_simp
    · rw [← s5, ← g2]
      intro hn
      have hpos : 0 < acc.volume := by rw [f2]; exact b1
      have e : V3.normalized (V3.sdiv acc.normal acc.volume) = V3.normalized acc.normal := by
        rw [← V3.normalized_smul (a := acc.normal) (inv_pos.2 hpos)]
        congr 1; v3; congr 1 <;> rw [div_eq_inv_mul]
      simp only [e]
      refine ⟨(V3.norm acc.normal)⁻¹, inv_pos.2 (V3.norm_pos.2 hn), ?_, V3.sq_normalized hn⟩
      rw [V3.normalized_of_ne hn]; congr 1 <;> rw [div_eq_inv_mul]
    · rw [← s5, ← g2]
      intro hn
      have e : V3.sdiv acc.normal acc.volume = ⟨0, 0, 0⟩ := by rw [hn]; v3; simp
      simp only [e]
      exact V3.normalized_zero rfl
    · simp only [real_sub, V3.norm_sub]

/-- Two coinciding large triangles under a rib: each alone is in contact with nonzero volume. -/
example : ∃ o : Output ℝ, o.volume ≠ 0 ∧
    Alone (Demo.ribOf 1) (Demo.upright (1 / 2)) [Demo.field, Demo.field] [o, o] := by
  obtain ⟨o, ho, hA, -, hV⟩ := Demo.ribOf_flat (w := 1) zero_le_one
  have heps := real_eps_le_half
  have hs : (1 / 2 : ℝ) ≤ Real.sqrt (3 / 4) := by
    rw [show (1 / 2 : ℝ) = Real.sqrt ((1 / 2) ^ 2) by rw [Real.sqrt_sq (by norm_num)]]
    exact Real.sqrt_le_sqrt (by norm_num)
  rcases C59_flat_mesh_partial (Demo.ribOf_isRib zero_le_one) (Demo.upright_rigid (1 / 2)) Demo.road_make rfl
    Demo.field_make (by simp [OnPlane, dot3, minus, Demo.road]) (by simp [OnPlane, dot3, minus, Demo.road])
    (by simp [OnPlane, dot3, minus, Demo.road]) (by rw [V3.real_cross]; norm_num [minus])
    (.inl (Demo.field_separates 1 (1 / 2))) (Demo.field_contains 1) (Demo.field_long 1 (1 / 2)) o ho with
    ⟨-, om, h1, -, -, -, h5, -⟩ | ⟨⟨h1, -⟩, -⟩
  · have hne : om.volume ≠ 0 := by rw [h5]; linarith
    exact ⟨om, hne, .contact h1 hne (.contact h1 hne .nil)⟩
  · rw [hA] at h1; linarith

/-- A vector of finite coordinates. -/
def Spec.Finite3 (v : V3 XR) : Prop := ∃ x y z, v = ⟨.fin x, .fin y, .fin z⟩

/-- **C36 is false**, with the special values of IEEE 754: if the sections of the triangles have no volume (but
some length), contact is reported with point, normal, friction and depth all NaN. -/
theorem C36_nan_refuted (r : Rib XR) (pose : Affine XR) (cs : List (Rib.Contrib XR))
    (hc : ∀ c ∈ cs, c.volume = .fin 0 ∧ (∃ a : ℝ, Scalar.eps < a ∧ c.area = .fin a) ∧ Finite3 c.point ∧
      Finite3 c.normal ∧ ∃ f, c.friction = .fin f) (hne : cs ≠ []) :
    ∃ o, r.geomFinish pose (cs.foldl Rib.Acc.add Rib.Acc.init) = (true, o) ∧ o.volume = .fin 0 ∧
      o.friction = .nan ∧ o.depth = .nan ∧ o.point = ⟨.nan, .nan, .nan⟩ ∧ o.normal = ⟨.nan, .nan, .nan⟩ := by
  have hpos := real_eps_pos
  have key : ∀ (cs : List (Rib.Contrib XR)) (b : Bool) (a : ℝ), 0 ≤ a →
      (∀ c ∈ cs, c.volume = .fin 0 ∧ (∃ a : ℝ, Scalar.eps < a ∧ c.area = .fin a) ∧ Finite3 c.point ∧
        Finite3 c.normal ∧ ∃ f, c.friction = .fin f) →
      ∃ a', a ≤ a' ∧ (cs ≠ [] → Scalar.eps < a') ∧
        cs.foldl Rib.Acc.add ⟨b, .fin a, .fin 0, ⟨.fin 0, .fin 0, .fin 0⟩, ⟨.fin 0, .fin 0, .fin 0⟩, .fin 0⟩ =
        ⟨b || !cs.isEmpty, .fin a', .fin 0, ⟨.fin 0, .fin 0, .fin 0⟩, ⟨.fin 0, .fin 0, .fin 0⟩, .fin 0⟩ := by
    intro cs
    induction cs with
    | nil => intro b a _ _; exact ⟨a, le_rfl, by simp, by simp⟩
    | cons c cs ih =>
      intro b a ha hcs
      obtain ⟨h1, ⟨a1, h2, h3⟩, ⟨px, py, pz, h4⟩, ⟨nx, ny, nz, h5⟩, f, h6⟩ := hcs c List.mem_cons_self
      obtain ⟨a', e1, -, e3⟩ := ih true (a + a1) (by linarith) fun c hc => hcs c (List.mem_cons_of_mem _ hc)
      refine ⟨a', by linarith, fun _ => by linarith, ?_⟩
      rw [List.foldl_cons]
      have : Rib.Acc.add ⟨b, .fin a, .fin 0, ⟨.fin 0, .fin 0, .fin 0⟩, ⟨.fin 0, .fin 0, .fin 0⟩, .fin 0⟩ c =
          ⟨true, .fin (a + a1), .fin 0, ⟨.fin 0, .fin 0, .fin 0⟩, ⟨.fin 0, .fin 0, .fin 0⟩, .fin 0⟩ := by
        simp [Rib.Acc.add, h1, h3, h4, h5, h6, V3.add, V3.smul]
      rw [this, e3]
      simp
  obtain ⟨a, -, h2, h3⟩ := key cs false 0 le_rfl hc
  have hinit : (Rib.Acc.init : Rib.Acc XR) =
      ⟨false, .fin 0, .fin 0, ⟨.fin 0, .fin 0, .fin 0⟩, ⟨.fin 0, .fin 0, .fin 0⟩, .fin 0⟩ := by
    simp [Rib.Acc.init, V3.zeros]
  have he : cs.isEmpty = false := by cases cs with
    | nil => exact absurd rfl hne
    | cons => rfl
  rw [hinit, h3, he]
  have ha := h2 hne
  refine ⟨_, by
    unfold Rib.geomFinish
    simp only [XR.eps_eq, XR.lt_fin, ha, decide_true, Bool.true_or, Bool.and_true, Bool.false_or, Bool.not_false,
      if_true]
    rfl, rfl, ?_, ?_, ?_, ?_⟩ <;>
  simp [V3.sdiv, V3.norm, V3.sub, V3.normalized, V3.sqNorm, V3.dot]

end Enve
