import Verif.Props.InsideProps
import Verif.Props.GeomMeshProps
import Verif.Props.SamplingProps
import Verif.Props.RetileProps

/-! # C147: on ground whose friction lies between two values the tyre reports a friction between them -/

namespace Enve
open Scalar Spec

/-- The tyre `s` was set up with the result `s'` on a mesh every triangle of which has a friction between `lo` and `hi`. -/
def Spec.OnMeshFriction (pol : Policy) (lo hi : ℝ) (s : Shell ℝ) (pose : Affine ℝ) (method : String) (s' : Shell ℝ) (b : Bool) : Prop :=
  ∃ m, BuiltMesh m ∧ (∀ t ∈ m.triangles, lo ≤ t.friction ∧ t.friction ≤ hi) ∧ s.setupMesh pol m pose method = .ok s' b

/-- The tyre `s` was set up with the result `s'` on a flat ground with a friction between `lo` and `hi`. -/
def Spec.OnFlatFriction (pol : Policy) (lo hi : ℝ) (s : Shell ℝ) (pose : Affine ℝ) (method : String) (s' : Shell ℝ) (b : Bool) : Prop :=
  ∃ f og n g, lo ≤ f ∧ f ≤ hi ∧ Flat.make f og n = .ok g ∧ s.setupFlat pol g pose method = .ok s' b

namespace OneFriction

theorem setUp {pol : Policy} {lo hi : ℝ} {s s' : Shell ℝ} {pose : Affine ℝ} {method : String} {b : Bool}
    (h : OnMeshFriction pol lo hi s pose method s' b ∨ OnFlatFriction pol lo hi s pose method s' b) : SetUp pol s pose method s' b := by
  rcases h with ⟨m, -, -, h⟩ | ⟨f, og, n, g, -, -, hg, h⟩
  · exact .inl ⟨m, h⟩
  · exact .inr ⟨f, og, n, g, hg, h⟩

theorem make_friction {f : ℝ} {o n : V3 ℝ} {g : Flat ℝ} (h : Flat.make f o n = .ok g) : g.friction = f := by
  unfold Flat.make at h
  cases hf : (zero <=. f)
  · rw [hf] at h; simp at h
  · rw [hf] at h
    cases hz : (zero <. n.z)
    · rw [hz] at h; simp at h
    · rw [hz] at h
      simp only [Res.assert_true, Res.bind_ok, Res.pure_eq, Res.ok.injEq] at h
      rw [← h]

/-- The sampling method: the friction is the mean of four values of the ground and the depth is positive. -/
theorem sampling {lo hi : ℝ} {r : Rib ℝ} {sample : Line ℝ → Option (V3 ℝ × ℝ)}
    (hs : ∀ l p f, sample l = some (p, f) → lo ≤ f ∧ f ≤ hi) {pose : Affine ℝ} {o : Output ℝ}
    (h : r.envelopSampling sample pose = (true, o)) : (lo ≤ o.friction ∧ o.friction ≤ hi) ∧ 0 < o.depth := by
  unfold Rib.envelopSampling at h
  split at h
  · rename_i p0 f0 p1 f1 p2 f2 p3 f3 e0 e1 e2 e3
    dsimp only at h
    split at h
    · rename_i hd
      have h := (Prod.mk.inj h).2
      have h0 := hs _ _ _ e0; have h1 := hs _ _ _ e1; have h2 := hs _ _ _ e2; have h3 := hs _ _ _ e3
      rw [← h]
      refine ⟨?_, by simpa using hd⟩
      simp only [real_add, real_div, real_lit]
      constructor <;> norm_num <;> linarith [h0.1, h0.2, h1.1, h1.2, h2.1, h2.2, h3.1, h3.2]
    · cases (Prod.mk.inj h).1
  · cases (Prod.mk.inj h).1

theorem sampling_mesh {lo hi : ℝ} {r : Rib ℝ} {ts : List (TriangleGround ℝ)} (ht : ∀ t ∈ ts, lo ≤ t.friction ∧ t.friction ≤ hi)
    {pose : Affine ℝ} {o : Output ℝ} (h : r.envelopMesh ts pose "sampling" = .ok (true, o)) :
    (lo ≤ o.friction ∧ o.friction ≤ hi) ∧ 0 < o.depth := by
  have h : r.envelopSampling (Rib.samplingLineMesh ts) pose = (true, o) := by
    simpa [Rib.envelopMesh, Rib.envelopSamplingMesh] using h
  refine sampling (fun l p f hl => ?_) h
  obtain ⟨⟨t, hm, -, -, hf⟩, -⟩ := C28_highest_ground ts l p f hl
  rw [← hf]; exact ht t hm

theorem flat {lo hi : ℝ} {r : Rib ℝ} (hr : IsRib r) {pose : Affine ℝ} (hp : IsRigid pose) {f : ℝ} {og n : V3 ℝ} {g : Flat ℝ}
    (hlo : lo ≤ f) (hhi : f ≤ hi) (hg : Flat.make f og n = .ok g) {method : String} {o : Output ℝ}
    (h : r.envelopFlat g pose method = .ok (true, o)) : (lo ≤ o.friction ∧ o.friction ≤ hi) ∧ 0 < o.depth := by
  by_cases hme : method = "geometric"
  · subst hme
    have h : r.envelopGeometricFlat g pose = (true, o) := by simpa [Rib.envelopFlat] using h
    have hc := C32_contact hr hp hg (by rw [h])
    rw [h] at hc
    obtain ⟨-, -, -, -, h5, -, h7, -⟩ := hc
    dsimp only at h5 h7
    rw [h5]; exact ⟨⟨hlo, hhi⟩, h7⟩
  · by_cases hms : method = "sampling"
    · subst hms
      have h : r.envelopSampling (Rib.samplingLineFlat g) pose = (true, o) := by
        simpa [Rib.envelopFlat, Rib.envelopSamplingFlat] using h
      refine sampling (fun l p f' hl => ?_) h
      have hgf : g.friction = f := make_friction hg
      simp only [Rib.samplingLineFlat, Option.map_eq_some_iff] at hl
      obtain ⟨q, -, hq⟩ := hl
      rw [← (Prod.mk.inj hq).2, hgf]; exact ⟨hlo, hhi⟩
    · simp [Rib.envelopFlat, hme, hms] at h

/-- What the record of a rib says: a rib with a positive depth reports a friction of the ground, any other friction zero and volume zero. -/
def Fits (lo hi : ℝ) (q : Output ℝ) : Prop :=
  (0 < q.depth → lo ≤ q.friction ∧ q.friction ≤ hi) ∧ (¬ 0 < q.depth → q.friction = 0 ∧ q.volume = 0)

theorem fits_none {lo hi : ℝ} {r : Rib ℝ} {pose : Affine ℝ} {q : Output ℝ} (h : q = r.noContact pose) : Fits lo hi q := by
  subst h
  simp [Fits, Rib.noContact]

theorem fits_some {lo hi : ℝ} {q : Output ℝ} (h : (lo ≤ q.friction ∧ q.friction ≤ hi) ∧ 0 < q.depth) : Fits lo hi q :=
  ⟨fun _ => h.1, fun h' => absurd h.2 h'⟩

theorem Fits.volume {lo hi : ℝ} {q : Output ℝ} (h : Fits lo hi q) (hv : q.volume ≠ 0) : lo ≤ q.friction ∧ q.friction ≤ hi := by
  by_cases hd : 0 < q.depth
  · exact h.1 hd
  · exact absurd (h.2 hd).2 hv

theorem ribs_flat {pol : Policy} {lo hi : ℝ} {s s' : Shell ℝ} (hs : s.Reachable pol) {pose : Affine ℝ} (hp : IsRigid pose)
    {method : String} {b : Bool} (h : OnFlatFriction pol lo hi s pose method s' b) {o : Nat → Output ℝ} (ho : Reports pol s' o) :
    ∀ i < s'.size, Fits lo hi (o i) := by
  have hsu := setUp (.inr h)
  have hsize : s'.size = s.size := by rw [Shell.size, hsu.rel.ribs]; rfl
  intro i hi'
  obtain ⟨f, og, n, g, hlo, hhi, hg, h⟩ := h
  obtain ⟨flags, recs, k1, -⟩ := C38_flat_flag_partial pol s s' g pose method b h
  obtain ⟨r, a, c, e⟩ := k1 i (by omega)
  have hr : IsRib r := by
    rw [hsu.rel.ribs] at a
    exact hs.isRib r (List.mem_of_getElem? a)
  rw [Res.ok.inj ((Shell.reports_iff.1 ho i hi').symm.trans e)]
  generalize flags i = fl at c
  cases fl with
  | false => exact fits_none (Rib.envelopFlat_false c)
  | true => exact fits_some (flat hr hp hlo hhi hg c)

theorem ribs_mesh {pol : Policy} {lo hi : ℝ} {s s' : Shell ℝ} (hs : s.Reachable pol) {pose : Affine ℝ} {method : String}
    {b : Bool} (h : OnMeshFriction pol lo hi s pose method s' b) {o : Nat → Output ℝ} (ho : Reports pol s' o) :
    ∀ i < s'.size, ((o i).volume ≠ 0 → lo ≤ (o i).friction ∧ (o i).friction ≤ hi) ∧ (method = "sampling" → Fits lo hi (o i)) := by
  have hsu := setUp (.inl h)
  have hsize : s'.size = s.size := by rw [Shell.size, hsu.rel.ribs]; rfl
  intro i hi'
  obtain ⟨m, hm, ht, h⟩ := h
  obtain ⟨loc, hloc, hperm⟩ := hm.query _ (Shell.updateBBox_WF (s.transform pose))
  obtain ⟨flags, recs, k1, -⟩ := C38_mesh_flag pol s s' hs m pose method loc b hloc h
  obtain ⟨r, a, c, e⟩ := k1 i (by omega)
  have hr : IsRib r := by
    rw [hsu.rel.ribs] at a
    exact hs.isRib r (List.mem_of_getElem? a)
  rw [Res.ok.inj ((Shell.reports_iff.1 ho i hi').symm.trans e)]
  have fit : ∀ q : Output ℝ, Fits lo hi q → (q.volume ≠ 0 → lo ≤ q.friction ∧ q.friction ≤ hi) ∧ (method = "sampling" → Fits lo hi q) :=
    fun q hq => ⟨hq.volume, fun _ => hq⟩
  split at c
  · exact fit _ (fits_none (Prod.mk.inj (Res.ok.inj c)).2.symm)
  · generalize flags i = fl at c
    cases fl with
    | false => exact fit _ (fits_none (Rib.envelopMesh_false c))
    | true =>
      have ht' : ∀ t ∈ Shell.ribCandidates pose method loc r, lo ≤ t.friction ∧ t.friction ≤ hi := fun t h =>
        ht t (List.mem_filter.1 (hperm.mem_iff.1 (List.mem_filter.1 h).1)).1
      by_cases hme : method = "geometric"
      · subst hme
        have c' : r.envelopGeometricMesh (Shell.ribCandidates pose "geometric" loc r) pose = .ok (true, recs i) := by
          simpa [Rib.envelopMesh] using c
        exact ⟨fun hv => (C36_weights_partial hr pose _ _ _ c').2.2.2 rfl hv lo hi ht', fun h => absurd h (by decide)⟩
      · have hms : method = "sampling" := by
          by_contra hms
          simp [Rib.envelopMesh, hme, hms] at c
        subst hms
        exact fit _ (fits_some (sampling_mesh ht' c))

end OneFriction

/-- **C147, the ribs.**  On ground whose friction lies between two values every rib with a positive contact volume reports a friction
between them; on flat ground, and with the sampling method, a rib with a positive depth does and any other rib reports friction zero. -/
theorem C147_ribs {pol : Policy} {lo hi : ℝ} {s s' : Shell ℝ} (hs : s.Reachable pol) {pose : Affine ℝ} (hp : IsRigid pose)
    {method : String} {b : Bool} (h : OnMeshFriction pol lo hi s pose method s' b ∨ OnFlatFriction pol lo hi s pose method s' b)
    {o : Nat → Output ℝ} (ho : Reports pol s' o) :
    ∀ i < s'.size, ((o i).volume ≠ 0 → lo ≤ (o i).friction ∧ (o i).friction ≤ hi) ∧
      (method = "sampling" ∨ OnFlatFriction pol lo hi s pose method s' b →
        (0 < (o i).depth → lo ≤ (o i).friction ∧ (o i).friction ≤ hi) ∧ (¬ 0 < (o i).depth → (o i).friction = 0)) := by
  intro i hi'
  rcases h with h | h
  · obtain ⟨h1, h2⟩ := OneFriction.ribs_mesh hs h ho i hi'
    refine ⟨h1, fun hx => ?_⟩
    rcases hx with hx | hx
    · exact ⟨(h2 hx).1, fun hd => ((h2 hx).2 hd).1⟩
    · have := OneFriction.ribs_flat hs hp hx ho i hi'
      exact ⟨this.1, fun hd => (this.2 hd).1⟩
  · have := OneFriction.ribs_flat hs hp h ho i hi'
    exact ⟨this.volume, fun _ => ⟨this.1, fun hd => (this.2 hd).1⟩⟩

/-- **C147, the tyre (partial).**  If the total volume reaches the threshold, the friction the tyre reports lies between the least and the
greatest friction of the ground; on ground of one friction it is that friction. -/
theorem C147_tyre_partial {pol : Policy} {lo hi : ℝ} {s s' : Shell ℝ} (hs : s.Reachable pol) {pose : Affine ℝ} (hp : IsRigid pose)
    {method : String} {b : Bool} (h : OnMeshFriction pol lo hi s pose method s' b ∨ OnFlatFriction pol lo hi s pose method s' b)
    {v : ℝ} (hv : s'.contactVolume pol = .ok v) (hheavy : Scalar.eps ≤ v) :
    (∃ f, s'.contactFriction pol = .ok f ∧ lo ≤ f ∧ f ≤ hi) ∧ (lo = hi → s'.contactFriction pol = .ok lo) := by
  have key : ∃ f, s'.contactFriction pol = .ok f ∧ lo ≤ f ∧ f ≤ hi := by
    obtain ⟨o, ho, hvol⟩ := C43_after_setup hs hp (OneFriction.setUp h)
    have hr := C147_ribs hs hp h ho
    have hV : v = ∑ i ∈ Finset.range s'.size, (o i).volume := by
      rw [C42_total_real ho] at hv; exact (Res.ok.inj hv).symm
    have heps := real_eps_pos
    have hn : 1 ≤ s'.size := by
      by_contra hn
      have : s'.size = 0 := by omega
      rw [this] at hV
      simp at hV
      linarith
    have hpos : 0 < ∑ i ∈ Finset.range s'.size, (o i).volume := by linarith
    obtain ⟨-, -, -, h4, -⟩ := C43_average ho hn hvol
    refine ⟨_, h4, ?_⟩
    rw [ribWeight_heavy (by rw [← hV]; exact not_lt.2 hheavy) fun i => (o i).friction, le_div_iff₀ hpos, div_le_iff₀ hpos,
      Finset.mul_sum, Finset.mul_sum]
    constructor <;> refine Finset.sum_le_sum fun i hi => ?_
    all_goals
      have hi := Finset.mem_range.1 hi
      rcases eq_or_ne (o i).volume 0 with h0 | h0
      · simp [h0]
      · have hb := (hr i hi).1 h0
        have h1 := hvol i hi
        nlinarith
  refine ⟨key, ?_⟩
  rintro rfl
  obtain ⟨f, h1, h2, h3⟩ := key
  rw [h1, le_antisymm h3 h2]

/-- **C147, light contact (partial).**  Below the threshold, on flat ground or with the sampling method, on ground of one friction: the
tyre reports that friction times the share of its ribs that have a positive depth. -/
theorem C147_light_partial {pol : Policy} {μ : ℝ} {s s' : Shell ℝ} (hs : s.Reachable pol) {pose : Affine ℝ} (hp : IsRigid pose)
    {method : String} {b : Bool} (h : (method = "sampling" ∧ OnMeshFriction pol μ μ s pose method s' b) ∨ OnFlatFriction pol μ μ s pose method s' b)
    (hn : 1 ≤ s'.size) {v : ℝ} (hv : s'.contactVolume pol = .ok v) (hlight : v < Scalar.eps) {o : Nat → Output ℝ} (ho : Reports pol s' o) :
    s'.contactFriction pol = .ok (μ * (((Finset.range s'.size).filter fun i => 0 < (o i).depth).card / s'.size)) := by
  have hor : OnMeshFriction pol μ μ s pose method s' b ∨ OnFlatFriction pol μ μ s pose method s' b := h.imp (·.2) id
  have hr := C147_ribs hs hp hor ho
  have hV : v = ∑ i ∈ Finset.range s'.size, (o i).volume := by
    rw [C42_total_real ho] at hv; exact (Res.ok.inj hv).symm
  obtain ⟨o', ho', hvol'⟩ := C43_after_setup hs hp (OneFriction.setUp hor)
  have hvol : ∀ i < s'.size, 0 ≤ (o i).volume := fun i hi => by
    rw [Res.ok.inj ((Shell.reports_iff.1 ho i hi).symm.trans (Shell.reports_iff.1 ho' i hi))]
    exact hvol' i hi
  obtain ⟨-, -, -, h4, -⟩ := C43_average ho hn hvol
  rw [h4]
  congr 1
  have e : ∀ i ∈ Finset.range s'.size, ribWeight s'.size (fun i => (o i).volume) i * (o i).friction =
      if 0 < (o i).depth then μ / s'.size else 0 := by
    intro i hi
    have hb := (hr i (Finset.mem_range.1 hi)).2 (h.imp (·.1) id)
    rw [ribWeight, if_pos (by rw [← hV]; exact hlight)]
    split
    · rename_i hd
      have := hb.1 hd
      rw [le_antisymm this.2 this.1]; ring
    · rename_i hd
      rw [hb.2 hd, mul_zero]
  rw [Finset.sum_congr rfl e, ← Finset.sum_filter, Finset.sum_const, nsmul_eq_mul]
  ring

/-- A tyre of two ribs leans on a road of friction `1`, one rib lightly on the road and the other above it. -/
theorem Demo.leaning (fresh : Nat → Output ℝ) :
    ∃ (s s' : Shell ℝ) (pose : Affine ℝ) (q q' : Output ℝ) (v : ℝ),
      Shell.make fresh 2 1 2 2 2 1 = .ok s ∧ IsRigid pose ∧ s.setupFlat .raw Demo.road pose "geometric" = .ok s' true ∧
      s'.size = 2 ∧ Reports .raw s' (fun i => if i = 0 then q else q') ∧ ¬ 0 < q.depth ∧ 0 < q'.depth ∧ q'.friction = 1 ∧
      0 ≤ q.volume ∧ 0 ≤ q'.volume ∧ 0 < q.point.z ∧ q'.point.z = 0 ∧
      s'.contactVolume .raw = .ok v ∧ 0 < v ∧ v < Scalar.eps := by
  have hv : ValidProfile (1 : ℝ) 2 2 2 1 :=
    ⟨by norm_num, by norm_num, by norm_num, by norm_num, by norm_num, by norm_num⟩
  obtain ⟨s, h1, h2, -, -, h5, -⟩ := C04_construct fresh 2 (by norm_num) 1 2 2 2 1 hv
  obtain ⟨r0, hr0, c0, w0, e0, p0⟩ := h5 0 (by norm_num)
  obtain ⟨r1, hr1, c1, w1, e1, p1⟩ := h5 1 (by norm_num)
  have hreach : s.Reachable .raw := .make h1
  have hrib := hreach.isRib
  have hrad : ∀ r y : ℝ, |y| = 1 / 2 → OnProfile 1 2 2 2 y r → r ^ 2 = 15 / 16 := by
    intro r y hy h
    have := h.2
    rw [hy, div_one, Real.rpow_two, Real.rpow_two] at this
    linarith
  have hq0 := hrad r0 _ (by norm_num) p0
  have hq1 := hrad r1 _ (by norm_num) p1
  obtain ⟨a, b, hab⟩ : ∃ a b, s.ribs = [a, b] := by
    have hl : s.ribs.length = 2 := h2
    match hs : s.ribs, hl with
    | [a, b], _ => exact ⟨a, b, rfl⟩
  have ha : IsRib a := hrib a (by rw [hab]; simp)
  have hb : IsRib b := hrib b (by rw [hab]; simp)
  simp only [Shell.ribCenter, Shell.ribRadius, Shell.ribWidth, Shell.ribAt, hab, List.getElem?_cons_zero,
    List.getElem?_cons_succ, Res.bind_ok, Res.pure_eq, Res.ok.injEq] at c0 c1 e0 e1 w1
  have hac : a.center = ⟨0, -1 / 2, 0⟩ := by rw [c0]; norm_num
  have hbc : b.center = ⟨0, 1 / 2, 0⟩ := by rw [c1]; norm_num
  have hbw : b.width = 1 := by rw [w1]; norm_num
  set θ : ℝ := 1 / 2048 with hθ
  have hpi := Real.pi_gt_d2
  have hpi4 := Real.pi_lt_four
  have heps : (Scalar.eps : ℝ) = 1 / 67108864 := by rw [real_eps]; norm_num
  have hc0 : 0 ≤ Real.cos θ := Real.cos_nonneg_of_mem_Icc ⟨by rw [hθ]; linarith, by rw [hθ]; linarith⟩
  have hs0 : 0 < Real.sin θ := Real.sin_pos_of_pos_of_lt_pi (by rw [hθ]; norm_num) (by rw [hθ]; linarith)
  have hslow : θ / 2 < Real.sin θ := by
    have := Real.sin_gt_sub_cube (x := θ) (by rw [hθ]; norm_num)
    have h3 : θ - θ ^ 3 / 4 > θ / 2 := by rw [hθ]; norm_num
    linarith
  have hsq := Real.sin_sq_add_cos_sq θ
  have hs2 : (θ / 2) ^ 2 < Real.sin θ ^ 2 := by
    have : 0 < θ := by rw [hθ]; norm_num
    nlinarith
  set H : ℝ := 3 / 5 * (r1 * Real.cos θ) with hH
  have hH0 : 0 ≤ H := by positivity
  have hHsq : H ^ 2 = 9 / 25 * (15 / 16 * Real.cos θ ^ 2) := by rw [hH, ← hq1]; ring
  set pose : Affine ℝ := ⟨⟨⟨1, 0, 0⟩, ⟨0, 3 / 5, -(4 / 5)⟩, ⟨0, 4 / 5, 3 / 5⟩⟩, ⟨0, 0, 2 / 5 + H⟩⟩ with hpose
  have hp : IsRigid pose :=
    ⟨by norm_num [pose], by norm_num [pose], by norm_num [pose], by norm_num [pose], by norm_num [pose],
      by norm_num [pose], by norm_num [pose]⟩
  have hS : sinSq Demo.road.plane.normal pose.linear.c1 = 9 / 25 := by
    norm_num [sinSq, dot3, Demo.road, pose]
  have hha : height Demo.road.plane (ribCentre pose a) = 4 / 5 + H := by
    unfold height ribCentre
    rw [hac]
    simp only [dot3, minus, Demo.road, pose]
    v3
    ring
  have hhb : height Demo.road.plane (ribCentre pose b) = H := by
    unfold height ribCentre
    rw [hbc]
    simp only [dot3, minus, Demo.road, pose]
    v3
    ring
  have hpos := real_eps_pos
  have hcb : FlatContact Demo.road.plane pose b := by
    unfold FlatContact
    dsimp only
    rw [hS, hhb, e1, hq1, hHsq]
    have hc : Real.cos θ ^ 2 = 1 - Real.sin θ ^ 2 := by linarith
    rw [hc]
    have hθ2 : (θ / 2) ^ 2 = 1 / 16777216 := by rw [hθ]; norm_num
    refine ⟨by rw [heps]; norm_num, by rw [heps]; nlinarith, ?_⟩
    have : Real.sqrt ((1 / 16384) ^ 2) ≤ Real.sqrt (15 / 16 - 9 / 25 * (15 / 16 * (1 - Real.sin θ ^ 2)) / (9 / 25)) :=
      Real.sqrt_le_sqrt (by nlinarith)
    rw [Real.sqrt_sq (by norm_num)] at this
    rw [heps]
    linarith
  have hca : ¬ FlatContact Demo.road.plane pose a := by
    unfold FlatContact
    dsimp only
    rw [hS, hha, e0, hq0]
    rintro ⟨-, h, -⟩
    nlinarith
  have hn := Flat.make_unit Demo.road_make
  have hoa : a.envelopGeometricFlat Demo.road pose = (false, a.noContact pose) := by
    rcases Rib.geometricFlat_closed ha hp hn with ⟨h, -⟩ | ⟨-, h⟩
    · exact absurd h hca
    · exact h
  have hs35 : Real.sqrt (9 / 25 : ℝ) = 3 / 5 := by
    rw [show (9 / 25 : ℝ) = (3 / 5) ^ 2 by norm_num, Real.sqrt_sq (by norm_num)]
  have hdep : sectionDepth Demo.road.plane pose b = r1 - r1 * Real.cos θ := by
    rw [sectionDepth, hS, hhb, hs35, e1, abs_of_nonneg hH0, hH]; ring
  have hvol : Rib.depthVolume r1 1 (r1 - r1 * Real.cos θ) = 15 / 16 * (θ - Real.sin (2 * θ) / 2) := by
    simp only [Rib.depthVolume, real_mul, real_sub, real_div, real_acos, real_sqrt, real_two]
    rw [show r1 - (r1 - r1 * Real.cos θ) = r1 * Real.cos θ by ring, mul_div_cancel_left₀ _ hr1.ne',
      Real.arccos_cos (by rw [hθ]; norm_num) (by rw [hθ]; linarith),
      show (r1 - r1 * Real.cos θ) * (2 * r1 - (r1 - r1 * Real.cos θ)) = (r1 * Real.sin θ) ^ 2 by
        linear_combination (-r1 ^ 2) * hsq, Real.sqrt_sq (by positivity), Real.sin_two_mul, ← hq1]
    ring
  obtain ⟨ob, hob, hbd, hbf, hbz, hbv⟩ : ∃ ob, b.envelopGeometricFlat Demo.road pose = (true, ob) ∧ 0 < ob.depth ∧ ob.friction = 1 ∧
      ob.point.z = 0 ∧ ob.volume = 15 / 16 * (θ - Real.sin (2 * θ) / 2) := by
    rcases Rib.geometricFlat_closed hb hp hn with ⟨-, h⟩ | ⟨h, -⟩
    · have hc := C32_contact hb hp Demo.road_make (by rw [h])
      refine ⟨_, h, ?_, rfl, ?_, ?_⟩
      · rw [h] at hc; exact hc.2.2.2.2.2.2.1
      · have := hc.1.1
        rw [h] at this
        simpa [OnPlane, dot3, minus, Demo.road] using this
      · dsimp only
        rw [hdep, hbw, e1, hvol]
    · exact absurd hcb h
  have hcap := hreach.inv.out_cap
  have hrun : s.setupFlat .raw Demo.road pose "geometric" =
      .ok { (s.transform pose).updateBBox with out := (s.out.set 0 (a.noContact pose)).set 1 ob } true := by
    rw [Shell.setupFlat_eq]
    have hribs : (s.transform pose).updateBBox.ribs = [a, b] := hab
    have hout : (s.transform pose).updateBBox.out = s.out := rfl
    simp only [hab, Shell.ribLoop, RecVec.accessible, RecVec.set, hcap, Rib.envelopFlat, hoa, hob,
      Shell.withOut, if_true]
    simp
  set s' : Shell ℝ := { (s.transform pose).updateBBox with out := (s.out.set 0 (a.noContact pose)).set 1 ob } with hs'
  have hsize : s'.size = 2 := h2
  have ho : Reports .raw s' fun i => if i = 0 then a.noContact pose else ob := by
    refine Shell.reports_iff.2 fun i hi => ?_
    rw [hsize] at hi
    have : i = 0 ∨ i = 1 := by omega
    rcases this with rfl | rfl <;> simp [s', RecVec.read, RecVec.accessible, RecVec.set, hcap]
  have hV := C42_total_real ho
  have hsum : ∑ i ∈ Finset.range s'.size, (if i = 0 then a.noContact pose else ob).volume = 15 / 16 * (θ - Real.sin (2 * θ) / 2) := by
    rw [hsize, Finset.sum_range_succ, Finset.sum_range_one, if_pos rfl, if_neg (by norm_num), hbv]
    simp [Rib.noContact]
  rw [hsum] at hV
  have hup : 2 * θ - Real.sin (2 * θ) < (2 * θ) ^ 3 / 4 := by
    have := Real.sin_gt_sub_cube (x := 2 * θ) (by rw [hθ]; norm_num)
    linarith
  have hlow : Real.sin (2 * θ) < 2 * θ := Real.sin_lt (by rw [hθ]; norm_num)
  have h3 : (2 * θ) ^ 3 / 4 = 1 / 4294967296 := by rw [hθ]; norm_num
  have hv0 : 0 < 15 / 16 * (θ - Real.sin (2 * θ) / 2) :=
    mul_pos (by norm_num) (sub_pos.2 ((div_lt_iff₀ two_pos).2 (by rw [mul_comm θ 2]; exact hlow)))
  refine ⟨s, s', pose, a.noContact pose, ob, _, h1, hp, hrun, hsize, ho, by simp [Rib.noContact], hbd, hbf, by simp [Rib.noContact],
    by rw [hbv]; exact hv0.le, ?_, hbz, hV, hv0, by rw [heps]; linarith⟩
  have h0 : r0 ≤ 1 := by nlinarith
  simp only [Rib.noContact, hac, e0, pose]
  v3
  linarith

/-- **C147 is false of a light contact.**  A tyre of two ribs leans on a road of friction `1`, one rib lightly on the road and the other
above it.  The rib reports friction `1`; the tyre, on the same road, reports `1/2`. -/
theorem C147_light_refuted (fresh : Nat → Output ℝ) :
    ∃ (s s' : Shell ℝ) (g : Flat ℝ) (pose : Affine ℝ) (v : ℝ),
      Shell.make fresh 2 1 2 2 2 1 = .ok s ∧ IsRigid pose ∧ Flat.make 1 ⟨0, 0, 0⟩ ⟨0, 0, 1⟩ = .ok g ∧
      s.setupFlat .raw g pose "geometric" = .ok s' true ∧ s'.contactFrictionAt .raw 1 = .ok 1 ∧
      s'.contactVolume .raw = .ok v ∧ 0 < v ∧ s'.contactFriction .raw = .ok (1 / 2) := by
  obtain ⟨s, s', pose, q, q', v, h1, hp, hrun, hsize, ho, hq, hq', hf, -, -, -, -, hV, hv0, hve⟩ := Demo.leaning fresh
  have hlight := C147_light_partial (μ := 1) (.make h1) hp (.inr ⟨1, _, _, _, le_rfl, le_rfl, Demo.road_make, hrun⟩) (by omega) hV hve ho
  refine ⟨s, s', Demo.road, pose, v, h1, hp, Demo.road_make, hrun, by rw [ho.friction 1 (by omega)]; simp [hf], hV, hv0, ?_⟩
  rw [hlight, hsize]
  have hcard : ((Finset.range 2).filter fun i => 0 < (if i = 0 then q else q').depth) = {1} := by
    ext i
    simp only [Finset.mem_filter, Finset.mem_range, Finset.mem_singleton]
    constructor
    · rintro ⟨hi, hd⟩
      by_contra hne
      have : i = 0 := by omega
      subst this
      exact hq (by simpa using hd)
    · rintro rfl
      simpa using hq'
  rw [hcard]
  norm_num

/-- A tyre half sunk in the road of friction `1`. -/
theorem Demo.sunk (fresh : Nat → Output ℝ) : ∃ (s s' : Shell ℝ) (v : ℝ), Shell.make fresh 1 1 2 2 2 1 = .ok s ∧
    s.setupFlat .raw Demo.road (Demo.upright 0) "geometric" = .ok s' true ∧ s'.contactVolume .raw = .ok v ∧ Scalar.eps ≤ v := by
  have heps := real_eps_le_half
  obtain ⟨s, a, h1, -, hab, ha, hac, haR, haw⟩ := Demo.oneRib fresh
  have hreach : s.Reachable .raw := .make h1
  have hcap := hreach.inv.out_cap
  have henv := Demo.oneRib_eval ha hac haR (h := 0) le_rfl (by norm_num; linarith)
  obtain ⟨q, henv, hq⟩ : ∃ q, a.envelopGeometricFlat Demo.road (Demo.upright 0) = (true, q) ∧ q.volume = Real.pi := by
    refine ⟨_, henv, ?_⟩
    simp [Rib.depthVolume, haw]
  have hrun : s.setupFlat .raw Demo.road (Demo.upright 0) "geometric" =
      .ok { (s.transform (Demo.upright 0)).updateBBox with out := s.out.set 0 q } true := by
    rw [Shell.setupFlat_eq]
    have hout : (s.transform (Demo.upright 0)).updateBBox.out = s.out := rfl
    simp only [hab, Shell.ribLoop, RecVec.accessible, RecVec.set, hcap, Rib.envelopFlat, henv, Shell.withOut, if_true]
    simp
  set s' : Shell ℝ := { (s.transform (Demo.upright 0)).updateBBox with out := s.out.set 0 q } with hs'
  have hsize : s'.size = 1 := by
    have : s'.ribs = [a] := hab
    simp [Shell.size, this]
  have ho : Reports .raw s' fun _ => q := by
    refine Shell.reports_iff.2 fun i hi => ?_
    obtain rfl : i = 0 := by omega
    simp [s', RecVec.read, RecVec.accessible, RecVec.set, hcap]
  refine ⟨s, s', _, h1, hrun, C42_total_real ho, ?_⟩
  have hpi := Real.pi_gt_three
  rw [hsize, Finset.sum_range_one, hq]
  linarith

/-- The hypotheses of the heavy case are met: a tyre half sunk in a road of friction `1`. -/
example (fresh : Nat → Output ℝ) : ∃ (s s' : Shell ℝ) (pose : Affine ℝ) (v : ℝ), s.Reachable .raw ∧ IsRigid pose ∧
    OnFlatFriction .raw 1 1 s pose "geometric" s' true ∧ s'.contactVolume .raw = .ok v ∧ Scalar.eps ≤ v := by
  obtain ⟨s, s', v, h1, h2, h3, h4⟩ := Demo.sunk fresh
  exact ⟨s, s', _, v, .make h1, Demo.upright_rigid 0, ⟨1, _, _, _, le_rfl, le_rfl, Demo.road_make, h2⟩, h3, h4⟩

end Enve
