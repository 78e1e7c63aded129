import Verif.Props.SectionProps
import Mathlib.Algebra.BigOperators.Fin
import Mathlib.Analysis.Real.Pi.Bounds
import Mathlib.Algebra.Order.BigOperators.Group.Finset

/-! # Aggregated contact quantities of a shell (C41–C47) -/

namespace Enve
open Scalar Spec
variable {α : Type} [Scalar α]

/-! ## Specification -/

/-- The per-rib getters of the shell return the entries of `o`, rib by rib. -/
structure Spec.Reports (pol : Policy) (s : Shell α) (o : Nat → Output α) : Prop where
  point : ∀ i < s.size, s.contactPointAt pol i = .ok (o i).point
  normal : ∀ i < s.size, s.contactNormalAt pol i = .ok (o i).normal
  friction : ∀ i < s.size, s.contactFrictionAt pol i = .ok (o i).friction
  depth : ∀ i < s.size, s.contactDepthAt pol i = .ok (o i).depth
  area : ∀ i < s.size, s.contactAreaAt pol i = .ok (o i).area
  volume : ∀ i < s.size, s.contactVolumeAt pol i = .ok (o i).volume

/-- The sum over the ribs, in the order of the ribs, starting from zero. -/
def Spec.ribSum (n : Nat) (f : Nat → α) : α := (List.range n).foldl (fun a i => a +. f i) zero

theorem Spec.ribSum_succ (n : Nat) (f : Nat → α) : ribSum (n + 1) f = ribSum n f +. f n := by
  simp [ribSum, List.range_succ]

theorem Spec.ribSum_real (n : Nat) (f : Nat → ℝ) : ribSum n f = ∑ i ∈ Finset.range n, f i := by
  induction n with
  | zero => simp [ribSum]
  | succ n ih => rw [ribSum_succ, ih, Finset.sum_range_succ, real_add]

/-! ## Reading the records -/

omit [Scalar α] in
theorem Shell.reports_iff {pol : Policy} {s : Shell α} {o : Nat → Output α} :
    Reports pol s o ↔ ∀ i < s.size, s.out.read pol i = .ok (o i) := by
  constructor
  · intro h i hi
    obtain ⟨r, hr⟩ | hr := Shell.read_ok_or_ub pol s.out i
    · have h1 := h.point i hi
      have h2 := h.normal i hi
      have h3 := h.friction i hi
      have h4 := h.depth i hi
      have h5 := h.area i hi
      have h6 := h.volume i hi
      simp only [Shell.contactPointAt, Shell.contactNormalAt, Shell.contactFrictionAt, Shell.contactDepthAt,
        Shell.contactAreaAt, Shell.contactVolumeAt, hr, Res.bind_ok, Res.pure_eq, Res.ok.injEq] at h1 h2 h3 h4 h5 h6
      rw [hr]
      congr 1
      exact Output.ext h1 h2 h3 h4 h5 h6
    · have h1 := h.point i hi
      have : (s.contactPointAt pol i).isUb = true := Shell.isUb_bind hr
      rw [h1] at this; cases this
  · intro h
    constructor <;> intro i hi <;> simp [Shell.contactPointAt, Shell.contactNormalAt, Shell.contactFrictionAt,
      Shell.contactDepthAt, Shell.contactAreaAt, Shell.contactVolumeAt, h i hi]

omit [Scalar α] in
/-- The list of records all queries work on. -/
theorem Shell.records_of_reports {pol : Policy} {s : Shell α} {o : Nat → Output α} (h : Reports pol s o) :
    s.records pol = .ok ((List.range s.size).map o) := by
  rw [Shell.reports_iff] at h
  have hacc : ∀ i < s.size, s.out.accessible pol i = true ∧ s.out.mem i = o i := by
    intro i hi
    have := h i hi
    unfold RecVec.read at this
    split at this
    · exact ⟨by assumption, Res.ok.inj this⟩
    · cases this
  rw [Shell.records, Shell.readFrom_ok _ _ fun j hj => by simpa using (hacc j hj).1]
  congr 1
  refine List.map_congr_left fun i hi => ?_
  rw [Nat.zero_add, (hacc i (List.mem_range.1 hi)).2]

omit [Scalar α] in
/-- Reports exist whenever the records can be read. -/
theorem Shell.reports_of_records {pol : Policy} {s : Shell α} {os : List (Output α)}
    (h : s.records pol = .ok os) : Reports pol s s.out.mem := by
  rw [Shell.reports_iff]
  intro i hi
  rcases hacc : s.out.accessible pol i with _ | _
  · have := Shell.readFrom_ub s.size 0 i hi (pol := pol) (v := s.out) (by simpa using hacc)
    rw [show Shell.readFrom pol s.out s.size 0 = .ok os from h] at this
    cases this
  · rw [RecVec.read, if_pos hacc]

theorem Shell.foldl_range (o : Nat → Output α) (f : Output α → α) (n : Nat) :
    ((List.range n).map o).foldl (fun a r => a +. f r) zero = ribSum n fun i => f (o i) := by
  rw [List.foldl_map]; rfl

theorem Shell.foldl_range3 (o : Nat → Output α) (f : Output α → V3 α) (n : Nat) :
    ((List.range n).map o).foldl (fun a r => V3.add a (f r)) V3.zeros =
      ⟨ribSum n fun i => (f (o i)).x, ribSum n fun i => (f (o i)).y, ribSum n fun i => (f (o i)).z⟩ := by
  induction n with
  | zero => rfl
  | succ n ih =>
    rw [List.range_succ, List.map_append, List.foldl_append, ih]
    simp only [List.map_cons, List.map_nil, List.foldl_cons, List.foldl_nil, ribSum_succ]
    rfl

/-! ## C41, C42: totals -/

/-- **C42.**  The total contact volume is the sum of the per-rib volumes (scalars of any kind: the terms
are added in the order of the ribs). -/
theorem C42_total {pol : Policy} {s : Shell α} {o : Nat → Output α} (h : Reports pol s o) :
    s.contactVolume pol = .ok (ribSum s.size fun i => (o i).volume) := by
  rw [Shell.contactVolume, Shell.records_of_reports h, Res.bind_ok, Res.pure_eq, Shell.foldl_range]

/-- C42 on exact reals. -/
theorem C42_total_real {pol : Policy} {s : Shell ℝ} {o : Nat → Output ℝ} (h : Reports pol s o) :
    s.contactVolume pol = .ok (∑ i ∈ Finset.range s.size, (o i).volume) := by
  rw [C42_total h, ribSum_real]

/-- **C41, what holds.**  The total contact area is the sum of the per-rib *frictions*; it is the sum of
the areas only if the two sums happen to coincide. -/
theorem C41_total_partial {pol : Policy} {s : Shell α} {o : Nat → Output α} (h : Reports pol s o) :
    s.contactArea pol = .ok (ribSum s.size fun i => (o i).friction) ∧
    (s.contactArea pol = .ok (ribSum s.size fun i => (o i).area) ↔
      ribSum s.size (fun i => (o i).friction) = ribSum s.size fun i => (o i).area) := by
  have : s.contactArea pol = .ok (ribSum s.size fun i => (o i).friction) := by
    rw [Shell.contactArea, Shell.records_of_reports h, Res.bind_ok, Res.pure_eq, Shell.foldl_range]
  exact ⟨this, by rw [this, Res.ok.injEq]⟩

/-! ## The records left by a setup -/

/-- `o` is the record of an evaluation of rib `r` that can occur during a setup with the given pose:
no contact, flat ground, or mesh. -/
inductive Spec.EvaluatedRib (r : Rib ℝ) (pose : Affine ℝ) (o : Output ℝ) : Prop where
  | none : o = r.noContact pose → EvaluatedRib r pose o
  | flat (f : ℝ) (og n : V3 ℝ) (g : Flat ℝ) (method : String) (b : Bool) : Flat.make f og n = .ok g →
      r.envelopFlat g pose method = .ok (b, o) → EvaluatedRib r pose o
  | mesh (ts : List (TriangleGround ℝ)) (method : String) (b : Bool) :
      r.envelopMesh ts pose method = .ok (b, o) → EvaluatedRib r pose o

/-- A setup has completed: on a mesh, or on a flat ground built by its constructor. -/
def Spec.SetUp (pol : Policy) (s : Shell ℝ) (pose : Affine ℝ) (method : String) (s' : Shell ℝ) (b : Bool) : Prop :=
  (∃ ground : Mesh ℝ, s.setupMesh pol ground pose method = .ok s' b) ∨
  (∃ f og n g, Flat.make f og n = .ok g ∧ s.setupFlat pol g pose method = .ok s' b)

theorem Spec.SetUp.rel {pol : Policy} {s s' : Shell ℝ} {pose : Affine ℝ} {method : String} {b : Bool}
    (h : SetUp pol s pose method s' b) : Shell.SetupRel s s' pose := by
  rcases h with ⟨g, h⟩ | ⟨f, og, n, g, hg, h⟩
  · exact Shell.setupMesh_rel (.inl ⟨_, h⟩)
  · exact Shell.setupFlat_rel (.inl ⟨_, h⟩)

/-- After a setup every rib reports the record of its evaluation. -/
theorem Spec.SetUp.reports {pol : Policy} {s s' : Shell ℝ} (hs : s.Reachable pol) {pose : Affine ℝ}
    {method : String} {b : Bool} (h : SetUp pol s pose method s' b) :
    ∃ o, Reports pol s' o ∧ ∀ i < s'.size, ∃ r, s'.ribs[i]? = some r ∧ IsRib r ∧ EvaluatedRib r pose (o i) := by
  have hrib : ∀ (i : Nat) r, s'.ribs[i]? = some r → IsRib r := by
    intro i r hr
    rw [h.rel.ribs] at hr
    exact hs.isRib r (List.mem_of_getElem? hr)
  have hsize : s'.size = s.size := by rw [Shell.size, h.rel.ribs]; rfl
  rw [hsize]
  rcases h with ⟨g, h⟩ | ⟨f, og, n, g, hg, h⟩
  · obtain ⟨loc, hloc⟩ : ∃ loc, g.intersection (s.transform pose).updateBBox.bbox = .ok loc := by
      cases hi : g.intersection (s.transform pose).updateBBox.bbox with
      | ok loc => exact ⟨loc, rfl⟩
      | throw m => simp [Shell.setupMesh, hi] at h
      | ub w => simp [Shell.setupMesh, hi] at h
    obtain ⟨flags, recs, h1, -⟩ := C38_mesh_flag pol s s' hs g pose method loc b hloc h
    refine ⟨recs, ?_, fun i hi => ?_⟩
    · rw [Shell.reports_iff, hsize]
      intro i hi
      obtain ⟨_, -, -, e⟩ := h1 i hi
      exact e
    · obtain ⟨r, a, c, -⟩ := h1 i hi
      refine ⟨r, a, hrib i r a, ?_⟩
      split at c
      · exact .none (Prod.mk.inj (Res.ok.inj c)).2.symm
      · exact .mesh _ _ _ c
  · obtain ⟨flags, recs, h1, -⟩ := C38_flat_flag_partial pol s s' g pose method b h
    refine ⟨recs, ?_, fun i hi => ?_⟩
    · rw [Shell.reports_iff, hsize]
      intro i hi
      obtain ⟨_, -, -, e⟩ := h1 i hi
      exact e
    · obtain ⟨r, a, c, -⟩ := h1 i hi
      exact ⟨r, a, hrib i r a, .flat f og n g method _ hg c⟩

/-- Every record has non-negative volume, area and depth bounded by the radius. -/
theorem Spec.EvaluatedRib.volume_nonneg {r : Rib ℝ} (hr : IsRib r) {pose : Affine ℝ} (hp : IsRigid pose)
    {o : Output ℝ} (h : EvaluatedRib r pose o) : 0 ≤ o.volume ∧ 0 ≤ o.area := by
  have hno : 0 ≤ (r.noContact pose).volume ∧ 0 ≤ (r.noContact pose).area := by simp [Rib.noContact]
  rcases h with rfl | ⟨f, og, n, g, method, b, hg, h⟩ | ⟨ts, method, b, h⟩
  · exact hno
  · cases b with
    | false => rw [Rib.envelopFlat_false h]; exact hno
    | true =>
      have := C31_records hr hp (.inl ⟨f, og, n, g, method, hg, h⟩)
      exact ⟨this.2.2.2.2.2.1, this.2.2.2.2.1⟩
  · cases b with
    | false => rw [Rib.envelopMesh_false h]; exact hno
    | true =>
      by_cases hm : method = "geometric"
      · subst hm
        have := C36_weights_partial hr pose ts true o (by simpa [Rib.envelopMesh] using h)
        exact ⟨this.2.1, this.1⟩
      · by_cases hm' : method = "sampling"
        · subst hm'
          have := C31_records hr hp (.inr ⟨ts, h⟩)
          exact ⟨this.2.2.2.2.2.1, this.2.2.2.2.1⟩
        · simp [Rib.envelopMesh, hm, hm'] at h

/-- **C42.**  After every setup that completes, the total contact volume is the sum of the per-rib volumes
and is not negative. -/
theorem C42_nonneg {pol : Policy} {s s' : Shell ℝ} (hs : s.Reachable pol) {pose : Affine ℝ} (hp : IsRigid pose)
    {method : String} {b : Bool} (h : SetUp pol s pose method s' b) :
    ∃ o, Reports pol s' o ∧ s'.contactVolume pol = .ok (∑ i ∈ Finset.range s'.size, (o i).volume) ∧
      0 ≤ ∑ i ∈ Finset.range s'.size, (o i).volume := by
  obtain ⟨o, h1, h2⟩ := h.reports hs
  refine ⟨o, h1, C42_total_real h1, Finset.sum_nonneg fun i hi => ?_⟩
  obtain ⟨r, -, hr, he⟩ := h2 i (Finset.mem_range.1 hi)
  exact (he.volume_nonneg hr hp).1

/-! ## The demonstration shell on the road -/

/-- A rib of radius 1 around the origin, at height `h` above the road, and its record. -/
theorem Demo.oneRib_eval {a : Rib ℝ} (ha : IsRib a) (hc : a.center = ⟨0, 0, 0⟩) (hR : a.radius = 1) {h : ℝ}
    (h0 : 0 ≤ h) (hh : h ^ 2 ≤ 1 - Scalar.eps) :
    a.envelopGeometricFlat Demo.road (Demo.upright h) = (true,
      { point := ⟨0, 0, 0⟩, normal := ⟨0, 0, 1⟩, friction := 1, depth := 1 - h
        area := Rib.depthArea 1 a.width (1 - h), volume := Rib.depthVolume 1 a.width (1 - h) }) := by
  have hS : sinSq Demo.road.plane.normal (Demo.upright h).linear.c1 = 1 := by
    simp [sinSq, dot3, Demo.road, Demo.upright]
  have hrc : ribCentre (Demo.upright h) a = ⟨0, 0, h⟩ := by
    simp only [ribCentre, hc, Demo.upright]
    v3
    congr 1 <;> ring
  have hH : height Demo.road.plane (ribCentre (Demo.upright h) a) = h := by
    rw [hrc]
    simp [height, dot3, minus, Demo.road]
  have hpos := real_eps_pos
  have heps := real_eps_le_half
  have hcon : FlatContact Demo.road.plane (Demo.upright h) a := by
    unfold FlatContact
    dsimp only
    rw [hS, hH, hR, div_one, one_pow, mul_one]
    refine ⟨by linarith, by linarith, ?_⟩
    have : Real.sqrt (Scalar.eps ^ 2) ≤ Real.sqrt (1 - h ^ 2) := Real.sqrt_le_sqrt (by nlinarith)
    rw [Real.sqrt_sq hpos.le] at this
    linarith
  rcases Rib.geometricFlat_closed ha (Demo.upright_rigid h) (Flat.make_unit Demo.road_make) with
    ⟨-, e⟩ | ⟨e, -⟩
  · have hd : sectionDepth Demo.road.plane (Demo.upright h) a = 1 - h := by
      simp only [sectionDepth]
      rw [hS, hH, hR, Real.sqrt_one, div_one, abs_of_nonneg h0]
    rw [e, hd, hR]
    refine Prod.ext rfl ?_
    refine Output.ext ?_ rfl rfl rfl rfl rfl
    simp only [sectionFoot]
    rw [hH, hS, hrc]
    simp [along, minus, dot3, Demo.road, Demo.upright]
  · exact absurd hcon e

/-- The demonstration shell set up on the road at height `h`. -/
theorem Demo.oneRib_road (fresh : Nat → Output ℝ) {h : ℝ} (h0 : 0 ≤ h) (hh : h ^ 2 ≤ 1 - Scalar.eps) :
    ∃ (s s' : Shell ℝ), Shell.make fresh 1 1 2 2 2 1 = .ok s ∧ s'.size = 1 ∧ s'.Reachable .raw ∧
      SetUp .raw s (Demo.upright h) "geometric" s' true ∧ Reports .raw s' fun _ =>
      { point := ⟨0, 0, 0⟩, normal := ⟨0, 0, 1⟩, friction := 1, depth := 1 - h
        area := Rib.depthArea 1 2 (1 - h), volume := Rib.depthVolume 1 2 (1 - h) } := by
  obtain ⟨s, a, h1, -, hab, ha, hac, haR, haw⟩ := Demo.oneRib fresh
  have hreach : s.Reachable .raw := .make h1
  have hsz : s.size = 1 := by simp [Shell.size, hab]
  have hacc : s.out.accessible .raw 0 = true := by
    rw [Shell.accessible_raw hreach.inv]; exact decide_eq_true (by omega)
  have henv : a.envelopFlat Demo.road (Demo.upright h) "geometric" = .ok (true,
      { point := ⟨0, 0, 0⟩, normal := ⟨0, 0, 1⟩, friction := 1, depth := 1 - h
        area := Rib.depthArea 1 2 (1 - h), volume := Rib.depthVolume 1 2 (1 - h) }) := by
    rw [Rib.envelopFlat, if_pos rfl, Demo.oneRib_eval ha hac haR h0 hh, haw]
  have hset : ∃ s', s.setupFlat .raw Demo.road (Demo.upright h) "geometric" = .ok s' true := by
    rw [Shell.setupFlat_eq, hab]
    simp only [Shell.ribLoop, hacc, Bool.not_true, Bool.false_eq_true, if_false, henv, Shell.withOut]
    exact ⟨_, rfl⟩
  obtain ⟨s', hset⟩ := hset
  have hsu : SetUp .raw s (Demo.upright h) "geometric" s' true := .inr ⟨_, _, _, _, Demo.road_make, hset⟩
  have hribs : s'.ribs = [a] := by rw [hsu.rel.ribs, hab]
  refine ⟨s, s', h1, by simp [Shell.size, hribs], .setupFlat hreach (.inl hset), hsu, ?_⟩
  obtain ⟨flags, recs, k, -⟩ := C38_flat_flag_partial .raw s s' Demo.road _ _ _ hset
  rw [Shell.reports_iff]
  intro i hi
  obtain rfl : i = 0 := by simp [Shell.size, hribs] at hi; exact hi
  obtain ⟨r, hr, he, hread⟩ := k 0 (by omega)
  rw [hribs] at hr
  obtain rfl : a = r := by simpa using hr
  rw [hread]
  dsimp only at he
  rw [henv] at he
  exact congrArg _ (Prod.mk.inj (Res.ok.inj he)).2.symm

/-- **C41 is false.**  The demonstration shell, half sunk into the road, has contact area 4 but reports
the total 1, which is the friction of the road. -/
theorem C41_total_refuted (fresh : Nat → Output ℝ) :
    ∃ (s s' : Shell ℝ), Shell.make fresh 1 1 2 2 2 1 = .ok s ∧ s'.size = 1 ∧
      SetUp .raw s (Demo.upright 0) "geometric" s' true ∧
      s'.contactAreaAt .raw 0 = .ok 4 ∧ s'.contactArea .raw = .ok 1 := by
  have heps := real_eps_le_half
  obtain ⟨s, s', h1, h2, -, h3, h4⟩ := Demo.oneRib_road fresh (h := 0) le_rfl (by norm_num; linarith)
  refine ⟨s, s', h1, h2, h3, ?_, ?_⟩
  · rw [h4.area 0 (by omega)]
    norm_num [Rib.depthArea]
  · rw [(C41_total_partial h4).1, ribSum_real, h2]
    simp

/-- The hypotheses of C42 are met, with a positive volume. -/
example (fresh : Nat → Output ℝ) : ∃ (s s' : Shell ℝ), s.Reachable .raw ∧
    SetUp .raw s (Demo.upright 0) "geometric" s' true ∧ s'.contactVolume .raw = .ok Real.pi := by
  have heps := real_eps_le_half
  obtain ⟨s, s', h1, h2, -, h3, h4⟩ := Demo.oneRib_road fresh (h := 0) le_rfl (by norm_num; linarith)
  refine ⟨s, s', .make h1, h3, ?_⟩
  rw [C42_total_real h4, h2]
  simp [Rib.depthVolume]

/-! ## C43, C44: averages -/

/-- The weight of rib `i`: its share of the total volume, or equal shares when the total volume is below
the threshold. -/
noncomputable def Spec.ribWeight (n : Nat) (v : Nat → ℝ) (i : Nat) : ℝ :=
  if ∑ j ∈ Finset.range n, v j < Scalar.eps then 1 / n else v i / ∑ j ∈ Finset.range n, v j

theorem Spec.ribWeight_nonneg {n : Nat} {v : Nat → ℝ} (hv : ∀ i < n, 0 ≤ v i) {i : Nat} (hi : i < n) :
    0 ≤ ribWeight n v i := by
  unfold ribWeight
  split
  · positivity
  · exact div_nonneg (hv i hi) (Finset.sum_nonneg fun j hj => hv j (Finset.mem_range.1 hj))

theorem Spec.ribWeight_sum {n : Nat} (hn : 1 ≤ n) (v : Nat → ℝ) :
    ∑ i ∈ Finset.range n, ribWeight n v i = 1 := by
  unfold ribWeight
  split
  · have : (n : ℝ) ≠ 0 := by positivity
    rw [Finset.sum_const, Finset.card_range, nsmul_eq_mul]
    field_simp
  · rename_i h
    rw [← Finset.sum_div, div_self]
    have := real_eps_pos
    linarith

theorem Spec.average_bounds {n : Nat} (hn : 1 ≤ n) {v x : Nat → ℝ} (hv : ∀ i < n, 0 ≤ v i) {lo hi : ℝ}
    (hx : ∀ i < n, lo ≤ x i ∧ x i ≤ hi) :
    lo ≤ ∑ i ∈ Finset.range n, ribWeight n v i * x i ∧ ∑ i ∈ Finset.range n, ribWeight n v i * x i ≤ hi := by
  have hs := ribWeight_sum hn v
  constructor
  · rw [← one_mul lo, ← hs, Finset.sum_mul]
    refine Finset.sum_le_sum fun i hi => mul_le_mul_of_nonneg_left (hx i (Finset.mem_range.1 hi)).1 ?_
    exact ribWeight_nonneg hv (Finset.mem_range.1 hi)
  · rw [← one_mul hi, ← hs, Finset.sum_mul]
    refine Finset.sum_le_sum fun i hi => mul_le_mul_of_nonneg_left (hx i (Finset.mem_range.1 hi)).2 ?_
    exact ribWeight_nonneg hv (Finset.mem_range.1 hi)

theorem Spec.ribWeight_light {n : Nat} {v : Nat → ℝ} (h : ∑ j ∈ Finset.range n, v j < Scalar.eps) (x : Nat → ℝ) :
    ∑ i ∈ Finset.range n, ribWeight n v i * x i = (∑ i ∈ Finset.range n, x i) / n := by
  rw [Finset.sum_div]
  refine Finset.sum_congr rfl fun i _ => ?_
  rw [ribWeight, if_pos h]; ring

theorem Spec.ribWeight_heavy {n : Nat} {v : Nat → ℝ} (h : ¬ ∑ j ∈ Finset.range n, v j < Scalar.eps) (x : Nat → ℝ) :
    ∑ i ∈ Finset.range n, ribWeight n v i * x i =
      (∑ i ∈ Finset.range n, v i * x i) / ∑ j ∈ Finset.range n, v j := by
  rw [Finset.sum_div]
  refine Finset.sum_congr rfl fun i _ => ?_
  rw [ribWeight, if_neg h]; ring

/-- **C43.**  Point, friction and (when the volume reaches the threshold) depth of the shell are weighted
averages of the ribs' values, with the same non-negative weights of sum one. -/
theorem C43_average {pol : Policy} {s : Shell ℝ} {o : Nat → Output ℝ} (h : Reports pol s o) (hn : 1 ≤ s.size)
    (hv : ∀ i < s.size, 0 ≤ (o i).volume) :
    let w := ribWeight s.size fun i => (o i).volume
    (∀ i < s.size, 0 ≤ w i) ∧ ∑ i ∈ Finset.range s.size, w i = 1 ∧
    s.contactPoint pol = .ok ⟨∑ i ∈ Finset.range s.size, w i * (o i).point.x,
      ∑ i ∈ Finset.range s.size, w i * (o i).point.y, ∑ i ∈ Finset.range s.size, w i * (o i).point.z⟩ ∧
    s.contactFriction pol = .ok (∑ i ∈ Finset.range s.size, w i * (o i).friction) ∧
    (Scalar.eps ≤ ∑ i ∈ Finset.range s.size, (o i).volume →
      s.contactDepth pol = .ok (∑ i ∈ Finset.range s.size, w i * (o i).depth)) := by
  intro w
  have hV := C42_total_real h
  have hr := Shell.records_of_reports h
  have hsz : (Scalar.ofNat s.size : ℝ) = s.size := by simp
  refine ⟨fun i hi => ribWeight_nonneg hv hi, ribWeight_sum hn _, ?_, ?_, fun he => ?_⟩
  · rw [Shell.contactPoint, hV, hr, Res.bind_ok, Res.bind_ok]
    simp only [real_lt, decide_eq_true_eq]
    split
    · rename_i hl
      simp only [Res.pure_eq, Shell.foldl_range3 o (·.point), hsz, V3.real_sdiv, ribSum_real, w, ribWeight_light hl]
    · rename_i hl
      rw [Shell.foldl_range3 o (fun r => V3.smul r.volume r.point)]
      simp only [Res.pure_eq, V3.real_sdiv, V3.real_smul, ribSum_real, w, ribWeight_heavy hl]
  · rw [Shell.contactFriction, hV, hr, Res.bind_ok, Res.bind_ok]
    simp only [real_lt, decide_eq_true_eq]
    split
    · rename_i hl
      simp only [Res.pure_eq, Shell.foldl_range o (·.friction), hsz, real_div, ribSum_real, w, ribWeight_light hl]
    · rename_i hl
      rw [Shell.foldl_range o (fun r => r.friction *. r.volume)]
      simp only [Res.pure_eq, real_div, real_mul, ribSum_real, w, ribWeight_heavy hl]
      simp only [mul_comm]
  · rw [Shell.contactDepth, hV, hr, Res.bind_ok, Res.bind_ok]
    simp only [real_lt, decide_eq_true_eq]
    rw [if_neg (not_lt.2 he)]
    rw [Shell.foldl_range o (fun r => r.depth *. r.volume)]
    simp only [Res.pure_eq, real_div, real_mul, ribSum_real, w, ribWeight_heavy (not_lt.2 he)]
    simp only [mul_comm]

/-- **C43.**  Hence each aggregated value lies between the smallest and the largest value of the ribs
(coordinate by coordinate for the point), and equal rib values are reproduced unchanged. -/
theorem C43_bounds {pol : Policy} {s : Shell ℝ} {o : Nat → Output ℝ} (h : Reports pol s o) (hn : 1 ≤ s.size)
    (hv : ∀ i < s.size, 0 ≤ (o i).volume) :
    (∃ p, s.contactPoint pol = .ok p ∧ ∀ lo hi : V3 ℝ,
      ((∀ i < s.size, lo.x ≤ (o i).point.x ∧ (o i).point.x ≤ hi.x) → lo.x ≤ p.x ∧ p.x ≤ hi.x) ∧
      ((∀ i < s.size, lo.y ≤ (o i).point.y ∧ (o i).point.y ≤ hi.y) → lo.y ≤ p.y ∧ p.y ≤ hi.y) ∧
      ((∀ i < s.size, lo.z ≤ (o i).point.z ∧ (o i).point.z ≤ hi.z) → lo.z ≤ p.z ∧ p.z ≤ hi.z)) ∧
    (∃ f, s.contactFriction pol = .ok f ∧ ∀ lo hi,
      (∀ i < s.size, lo ≤ (o i).friction ∧ (o i).friction ≤ hi) → lo ≤ f ∧ f ≤ hi) ∧
    (Scalar.eps ≤ ∑ i ∈ Finset.range s.size, (o i).volume → ∃ d, s.contactDepth pol = .ok d ∧ ∀ lo hi,
      (∀ i < s.size, lo ≤ (o i).depth ∧ (o i).depth ≤ hi) → lo ≤ d ∧ d ≤ hi) ∧
    (∀ c, (∀ i < s.size, (o i).point = c) → s.contactPoint pol = .ok c) ∧
    (∀ c, (∀ i < s.size, (o i).friction = c) → s.contactFriction pol = .ok c) ∧
    (Scalar.eps ≤ ∑ i ∈ Finset.range s.size, (o i).volume →
      ∀ c, (∀ i < s.size, (o i).depth = c) → s.contactDepth pol = .ok c) := by
  obtain ⟨-, -, h3, h4, h5⟩ := C43_average h hn hv
  have eq : ∀ (x : Nat → ℝ) (c : ℝ), (∀ i < s.size, x i = c) →
      ∑ i ∈ Finset.range s.size, ribWeight s.size (fun i => (o i).volume) i * x i = c := by
    intro x c hx
    have := average_bounds hn hv (x := x) (lo := c) (hi := c) fun i hi => by simp [hx i hi]
    linarith [this.1, this.2]
  refine ⟨⟨_, h3, fun lo hi => ⟨average_bounds hn hv, average_bounds hn hv, average_bounds hn hv⟩⟩,
    ⟨_, h4, fun lo hi hx => average_bounds hn hv hx⟩,
    fun he => ⟨_, h5 he, fun lo hi hx => average_bounds hn hv hx⟩, fun c hc => ?_, fun c hc => ?_,
    fun he c hc => ?_⟩
  · rw [h3, eq _ c.x (fun i hi => by rw [hc i hi]), eq _ c.y (fun i hi => by rw [hc i hi]),
      eq _ c.z (fun i hi => by rw [hc i hi])]
  · rw [h4, eq _ c hc]
  · rw [h5 he, eq _ c hc]

/-- C43 applies after every setup with a rigid pose of a shell that has ribs: the volumes are then
non-negative. -/
theorem C43_after_setup {pol : Policy} {s s' : Shell ℝ} (hs : s.Reachable pol) {pose : Affine ℝ}
    (hp : IsRigid pose) {method : String} {b : Bool} (h : SetUp pol s pose method s' b) :
    ∃ o, Reports pol s' o ∧ ∀ i < s'.size, 0 ≤ (o i).volume := by
  obtain ⟨o, h1, h2⟩ := h.reports hs
  refine ⟨o, h1, fun i hi => ?_⟩
  obtain ⟨r, -, hr, he⟩ := h2 i hi
  exact (he.volume_nonneg hr hp).1

/-- The hypotheses of C43 are met, in both branches: a shell half sunk, and one barely touching. -/
example (fresh : Nat → Output ℝ) : ∃ (s' : Shell ℝ) (o : Nat → Output ℝ), Reports .raw s' o ∧ s'.size = 1 ∧
    (∀ i < s'.size, 0 ≤ (o i).volume) ∧ Scalar.eps ≤ ∑ i ∈ Finset.range s'.size, (o i).volume ∧
    s'.contactPoint .raw = .ok ⟨0, 0, 0⟩ ∧ s'.contactDepth .raw = .ok 1 := by
  have heps := real_eps_le_half
  obtain ⟨s, s', h1, h2, -, h3, h4⟩ := Demo.oneRib_road fresh (h := 0) le_rfl (by norm_num; linarith)
  have hv : Rib.depthVolume 1 2 ((1 : ℝ) - 0) = Real.pi := by simp [Rib.depthVolume]
  have h1n : 1 ≤ s'.size := by omega
  have hpi := Real.pi_gt_d2
  have hvol : ∀ i < s'.size, (0 : ℝ) ≤ Rib.depthVolume 1 2 (1 - 0) := fun _ _ => by rw [hv]; linarith
  have hsum : Scalar.eps ≤ ∑ i ∈ Finset.range s'.size, Rib.depthVolume 1 2 ((1 : ℝ) - 0) := by
    rw [h2, hv]; simp; linarith
  obtain ⟨-, -, -, k1, -, k3⟩ := C43_bounds h4 h1n hvol
  exact ⟨s', _, h4, h2, hvol, hsum, k1 _ fun _ _ => rfl, k3 hsum _ fun _ _ => by norm_num⟩

/-- **C44, what holds.**  Below the threshold the reported depth is the average of the rib *volumes*; it
is the average of the depths only if the two sums happen to coincide (for instance, both zero). -/
theorem C44_light_partial {pol : Policy} {s : Shell ℝ} {o : Nat → Output ℝ} (h : Reports pol s o)
    (hn : 1 ≤ s.size) (hl : ∑ i ∈ Finset.range s.size, (o i).volume < Scalar.eps) :
    s.contactDepth pol = .ok ((∑ i ∈ Finset.range s.size, (o i).volume) / s.size) ∧
    (s.contactDepth pol = .ok ((∑ i ∈ Finset.range s.size, (o i).depth) / s.size) ↔
      ∑ i ∈ Finset.range s.size, (o i).volume = ∑ i ∈ Finset.range s.size, (o i).depth) := by
  have h1 : s.contactDepth pol = .ok ((∑ i ∈ Finset.range s.size, (o i).volume) / s.size) := by
    rw [Shell.contactDepth, C42_total_real h, Shell.records_of_reports h, Res.bind_ok, Res.bind_ok]
    simp only [real_lt, decide_eq_true_eq]
    rw [if_pos hl]
    simp
  refine ⟨h1, ?_⟩
  have : (s.size : ℝ) ≠ 0 := by positivity
  rw [h1, Res.ok.injEq, div_left_inj' this]

/-- **C44 is false.**  A tyre touching the road lightly: the rib reports the depth `1 - cos θ` for a small
`θ`, the shell reports a much smaller one. -/
theorem C44_light_refuted (fresh : Nat → Output ℝ) :
    ∃ (s s' : Shell ℝ) (v d : ℝ), Shell.make fresh 1 1 2 2 2 1 = .ok s ∧ s'.size = 1 ∧
      (∃ h, SetUp .raw s (Demo.upright h) "geometric" s' true) ∧
      s'.contactVolume .raw = .ok v ∧ 0 < v ∧ v < Scalar.eps ∧ s'.contactDepthAt .raw 0 = .ok d ∧
      ∃ d', s'.contactDepth .raw = .ok d' ∧ d' < d := by
  set θ : ℝ := 1 / 2048 with hθ
  have hpi := Real.pi_gt_d2
  have hpi4 := Real.pi_lt_four
  have heps : (Scalar.eps : ℝ) = 1 / 67108864 := by rw [real_eps]; norm_num
  have hc0 : 0 ≤ Real.cos θ := Real.cos_nonneg_of_mem_Icc ⟨by rw [hθ]; linarith, by rw [hθ]; linarith⟩
  have hc2 : Real.cos θ ≤ 1 - 2 / Real.pi ^ 2 * θ ^ 2 := Real.cos_le_one_sub_mul_cos_sq (by
    rw [abs_of_nonneg (by rw [hθ]; norm_num)]; rw [hθ]; linarith)
  have hs0 : 0 ≤ Real.sin θ := Real.sin_nonneg_of_nonneg_of_le_pi (by rw [hθ]; norm_num) (by rw [hθ]; linarith)
  have hpi2 : (1 : ℝ) / 8 ≤ 2 / Real.pi ^ 2 := by
    rw [div_le_div_iff₀ (by norm_num) (by positivity)]
    nlinarith
  have hd : (1 : ℝ) / 8 * θ ^ 2 ≤ 1 - Real.cos θ := by nlinarith [sq_nonneg θ]
  have hcos1 := Real.cos_le_one θ
  obtain ⟨s, s', h1, h2, -, h3, h4⟩ := Demo.oneRib_road fresh (h := Real.cos θ) hc0 (by
    rw [heps]
    rw [hθ] at hd
    nlinarith)
  have hvol : Rib.depthVolume 1 2 (1 - Real.cos θ) = 2 * θ - Real.sin (2 * θ) := by
    simp only [Rib.depthVolume, real_mul, real_sub, real_div, real_acos, real_sqrt, real_two]
    rw [show (1 : ℝ) - (1 - Real.cos θ) = Real.cos θ by ring, div_one,
      Real.arccos_cos (by rw [hθ]; norm_num) (by rw [hθ]; linarith),
      show (1 - Real.cos θ) * (2 * 1 - (1 - Real.cos θ)) = Real.sin θ ^ 2 by
        rw [Real.sin_sq]; ring, Real.sqrt_sq hs0, Real.sin_two_mul]
    ring
  have hup : 2 * θ - Real.sin (2 * θ) < (2 * θ) ^ 3 / 4 := by
    have := Real.sin_gt_sub_cube (x := 2 * θ) (by rw [hθ]; norm_num)
    have h3 : 0 < (2 * θ) ^ 3 := by rw [hθ]; norm_num
    linarith
  have hlow : Real.sin (2 * θ) < 2 * θ := Real.sin_lt (by rw [hθ]; norm_num)
  have hV : s'.contactVolume .raw = .ok (2 * θ - Real.sin (2 * θ)) := by
    rw [C42_total_real h4, h2]
    simp [hvol]
  have hlt : 2 * θ - Real.sin (2 * θ) < Scalar.eps := by
    refine hup.trans ?_
    rw [heps, hθ]; norm_num
  refine ⟨s, s', _, _, h1, h2, ⟨_, h3⟩, hV, by linarith, hlt, h4.depth 0 (by omega), _,
    (C44_light_partial h4 (by omega) ?_).1, ?_⟩
  · rw [h2]; simpa [hvol] using hlt
  · rw [h2]
    simp only [Finset.sum_range_one, hvol, Nat.cast_one, div_one]
    refine hup.trans (lt_of_lt_of_le ?_ hd)
    rw [hθ]; norm_num

end Enve
