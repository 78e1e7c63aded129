import Verif.Props.RoundProps
import Verif.Props.UnitProps
import Verif.Props.FollowProps
import Verif.Props.SlopeProps
import Verif.Props.RelistCornerProps

/-! # C144: a larger tyre at the same place -/

namespace Enve

open Scalar Spec

/-- Two ribs at the same place with the same width, the second not smaller than the first. -/
structure Spec.LargerRib (r r' : Rib ℝ) : Prop where
  y : r'.y = r.y
  width : r'.width = r.width
  radius : r.radius ≤ r'.radius

/-- The second result of a rib shows a contact if the first one does, and is not less in depth, area and volume. -/
structure Spec.NotLess (a b : Bool × Output ℝ) : Prop where
  flag : a.1 = true → b.1 = true
  depth : a.2.depth ≤ b.2.depth
  area : a.2.area ≤ b.2.area
  volume : a.2.volume ≤ b.2.volume

namespace Bigger

theorem area_nonneg {R w d : ℝ} (hw : 0 ≤ w) : 0 ≤ Rib.depthArea R w d := by
  simp only [Rib.depthArea, real_mul, real_sub, real_two, real_sqrt]
  positivity

theorem volume_zero {R w : ℝ} (hR : 0 < R) : Rib.depthVolume R w 0 = 0 := by
  simp [Rib.depthVolume, hR.ne']

theorem area_zero (R w : ℝ) : Rib.depthArea R w 0 = 0 := by simp [Rib.depthArea]

theorem area_le {R R' w d d' : ℝ} (hR : 0 < R) (hRR : R ≤ R') (hw : 0 ≤ w) (hd : d * R' ≤ d' * R) (hd' : d' ≤ R') :
    Rib.depthArea R w d ≤ Rib.depthArea R' w d' := by
  have hk : 1 ≤ R' / R := (one_le_div hR).2 hRR
  have hk0 : 0 < R' / R := by linarith
  have h1 := Units.depthArea hk0 R w d
  rw [div_mul_cancel₀ _ hR.ne'] at h1
  have h2 : Rib.depthArea R' (R' / R * w) (R' / R * d) = R' / R * Rib.depthArea R' w (R' / R * d) := by
    simp only [Rib.depthArea, real_mul, real_sub, real_two, real_sqrt]; ring
  rw [h2, pow_two, mul_assoc] at h1
  have h3 := mul_left_cancel₀ hk0.ne' h1
  have h4 : R' / R * d ≤ d' := by rw [div_mul_eq_mul_div, div_le_iff₀ hR]; linarith
  have h5 := Rib.depthArea_mono hw h4 hd'
  have h6 : 0 ≤ Rib.depthArea R w d := area_nonneg hw
  nlinarith

theorem volume_le {R R' w d d' : ℝ} (hR : 0 < R) (hRR : R ≤ R') (hw : 0 ≤ w) (h0 : 0 ≤ d) (hdR : d ≤ R) (hd : d * R' ≤ d' * R)
    (hd' : d' ≤ R') : Rib.depthVolume R w d ≤ Rib.depthVolume R' w d' := by
  have hk : 1 ≤ R' / R := (one_le_div hR).2 hRR
  have hk0 : 0 < R' / R := by linarith
  have h1 := Units.depthVolume hk0 R w d
  rw [div_mul_cancel₀ _ hR.ne'] at h1
  have h2 : Rib.depthVolume R' (R' / R * w) (R' / R * d) = R' / R * Rib.depthVolume R' w (R' / R * d) := by
    simp only [Rib.depthVolume, real_mul, real_sub, real_two, real_sqrt, real_div, real_acos]; ring
  rw [h2, pow_succ', mul_assoc] at h1
  have h3 := mul_left_cancel₀ hk0.ne' h1
  have h4 : R' / R * d ≤ d' := by rw [div_mul_eq_mul_div, div_le_iff₀ hR]; linarith
  have h5 := Rib.depthVolume_mono (hR.trans_le hRR) hw (by positivity) h4 hd'
  have h6 := Rib.depthVolume_mono hR hw le_rfl h0 hdR
  rw [volume_zero hR] at h6
  have h7 : 1 ≤ (R' / R) ^ 2 := one_le_pow₀ hk
  nlinarith

end Bigger

/-- **C144, geometric method on flat ground**: a larger rib at the same place shows a contact if the smaller one does, and its depth,
area and volume are not less. -/
theorem C144_geometric_flat {r r' : Rib ℝ} (hr : IsRib r) (hr' : IsRib r') (h : LargerRib r r') {pose : Affine ℝ} (hp : IsRigid pose)
    {f : ℝ} {o n : V3 ℝ} {g : Flat ℝ} (hg : Flat.make f o n = .ok g) :
    NotLess (r.envelopGeometricFlat g pose) (r'.envelopGeometricFlat g pose) := by
  have hn := Flat.make_unit hg
  have hR : 0 < r.radius := hr.radius_pos
  have hR' : 0 < r'.radius := hr'.radius_pos
  have hw := hr.width_nonneg
  have hcen : ribCentre pose r' = ribCentre pose r := by
    have e : r'.center = r.center := (show r'.center = ⟨0, r'.y, 0⟩ from hr'.center).trans ((congrArg (fun y => (⟨0, y, 0⟩ : V3 ℝ)) h.y).trans hr.center.symm)
    unfold ribCentre; rw [e]
  have hq : 0 ≤ |height g.plane (ribCentre pose r)| / Real.sqrt (sinSq g.plane.normal pose.linear.c1) := by positivity
  have hD : sectionDepth g.plane pose r ≤ sectionDepth g.plane pose r' := by
    unfold sectionDepth; rw [hcen]; linarith [h.radius]
  have hDR : sectionDepth g.plane pose r * r'.radius ≤ sectionDepth g.plane pose r' * r.radius := by
    unfold sectionDepth; rw [hcen]; nlinarith [h.radius]
  have hle : sectionDepth g.plane pose r ≤ r.radius := by unfold sectionDepth; linarith
  have hle' : sectionDepth g.plane pose r' ≤ r'.radius := by unfold sectionDepth; rw [hcen]; linarith
  have hcontact : FlatContact g.plane pose r → FlatContact g.plane pose r' := by
    rintro ⟨h1, h2, h3⟩
    have hsq : r.radius ^ 2 ≤ r'.radius ^ 2 := pow_le_pow_left₀ hR.le h.radius 2
    have hS0 := real_eps_pos.trans_le h1
    refine ⟨h1, ?_, ?_⟩
    · rw [hcen]; nlinarith
    · rw [hcen]
      exact h3.trans_le (by gcongr)
  have pos : ∀ {q : Rib ℝ}, IsRib q → FlatContact g.plane pose q → 0 < sectionDepth g.plane pose q := by
    intro q hq' hc
    rcases Rib.geometricFlat_closed hq' hp hn with ⟨-, b2⟩ | ⟨b1, -⟩
    · have hB := C32_contact hq' hp hg (by rw [b2])
      dsimp only at hB
      rw [b2] at hB
      exact hB.2.2.2.2.2.2.1
    · exact absurd hc b1
  rcases Rib.geometricFlat_closed hr hp hn with ⟨a1, a2⟩ | ⟨a1, a2⟩ <;>
  rcases Rib.geometricFlat_closed hr' hp hn with ⟨b1, b2⟩ | ⟨b1, b2⟩ <;> rw [a2, b2]
  · refine ⟨fun _ => rfl, hD, ?_, ?_⟩
    · show Rib.depthArea _ _ _ ≤ Rib.depthArea _ _ _
      rw [h.width]; exact Bigger.area_le hR h.radius hw hDR hle'
    · show Rib.depthVolume _ _ _ ≤ Rib.depthVolume _ _ _
      rw [h.width]; exact Bigger.volume_le hR h.radius hw (pos hr a1).le hle hDR hle'
  · exact absurd (hcontact a1) b1
  · have hpos := pos hr' b1
    refine ⟨fun hc => (by cases hc), ?_, ?_, ?_⟩
    · simpa [Rib.noContact] using hpos.le
    · simpa [Rib.noContact] using Bigger.area_nonneg hr'.width_nonneg
    · have := Rib.depthVolume_mono hR' hr'.width_nonneg le_rfl hpos.le hle'
      rw [Bigger.volume_zero hR'] at this
      simpa [Rib.noContact] using this
  · exact ⟨fun hc => (by cases hc), le_rfl, le_rfl, le_rfl⟩

/-- **C144, sampling method on flat ground**, ground and tyre upwards. -/
theorem C144_sampling_flat {r r' : Rib ℝ} (hr : IsRib r) (hr' : IsRib r') (hw : 0 < r.width) (h : LargerRib r r') {pose : Affine ℝ}
    (hp : IsRigid pose) (htop : 0 < pose.linear.c2.z) {f : ℝ} {o n : V3 ℝ} {g : Flat ℝ} (hg : Flat.make f o n = .ok g)
    (hup : Scalar.eps < g.plane.normal.z) :
    NotLess (r.envelopSamplingFlat g pose) (r'.envelopSamplingFlat g pose) := by
  have hu := Flat.make_unit hg
  have hu' := hu
  unfold Unit3 at hu
  obtain ⟨-, -, -, h4⟩ := C26_flat_normal f o n g hg
  have hR : 0 < r.radius := hr.radius_pos
  have hR' : 0 < r'.radius := hr'.radius_pos
  rw [Accurate.run_exact hr hw hp htop hup h4 rfl hu, Accurate.run_exact hr' (by rw [h.width]; exact hw) hp htop hup h4 rfl hu, h.y, h.width]
  set N := g.plane.normal with hN
  set q := Real.sqrt (1 - dot3 N pose.linear.c1 ^ 2) with hqd
  set v := dist3 (hub r.y pose) (footAt o N (hub r.y pose)) with hvd
  have hv0 : 0 ≤ v := Real.sqrt_nonneg _
  have hq0 : 0 ≤ q := Real.sqrt_nonneg _
  have hq1 : q ≤ 1 := Real.sqrt_le_one.2 (by nlinarith [sq_nonneg (dot3 N pose.linear.c1)])
  have e : ∀ R, sunkDepth R r.y pose o N = R * q - v := fun R => rfl
  have hD : sunkDepth r.radius r.y pose o N ≤ sunkDepth r'.radius r.y pose o N := by
    rw [e, e]; nlinarith [h.radius]
  have hDR : sunkDepth r.radius r.y pose o N * r'.radius ≤ sunkDepth r'.radius r.y pose o N * r.radius := by
    rw [e, e]; nlinarith [h.radius]
  have hle : sunkDepth r.radius r.y pose o N ≤ r.radius := by rw [e]; nlinarith
  have hle' : sunkDepth r'.radius r.y pose o N ≤ r'.radius := by rw [e]; nlinarith
  split
  · rename_i hpos
    rw [if_pos (hpos.trans_le hD)]
    exact ⟨fun _ => rfl, hD, Bigger.area_le hR h.radius hw.le hDR hle',
      Bigger.volume_le hR h.radius hw.le hpos.le hle hDR hle'⟩
  · split
    · rename_i hpos
      refine ⟨fun hc => (by cases hc), ?_, ?_, ?_⟩
      · simpa [Rib.noContact] using hpos.le
      · simpa [Rib.noContact] using Bigger.area_nonneg hw.le
      · have := Rib.depthVolume_mono hR' hw.le le_rfl hpos.le hle'
        rw [Bigger.volume_zero hR'] at this
        simpa [Rib.noContact] using this
    · exact ⟨fun hc => (by cases hc), le_rfl, le_rfl, le_rfl⟩

/-! ## Tyres -/

/-- Two tyres with the same number of ribs, rib by rib at the same place and of the same width, the second not smaller. -/
structure Spec.LargerTyre (s s' : Shell ℝ) : Prop where
  size : s'.size = s.size
  ribs : ∀ i : Nat, ∀ r r', s.ribs[i]? = some r → s'.ribs[i]? = some r' → LargerRib r r'

/-- A tyre made with a larger radius and otherwise the same profile is larger in this sense. -/
theorem C144_larger (fresh fresh' : Nat → Output ℝ) (n : Nat) (hn : 1 ≤ n) {rx rx' mx ry my ly : ℝ} (hv : ValidProfile rx mx ry my ly)
    (hrx : rx ≤ rx') : ∃ s s', Shell.make fresh n rx mx ry my ly = .ok s ∧ Shell.make fresh' n rx' mx ry my ly = .ok s' ∧
      LargerTyre s s' := by
  have hv' : ValidProfile rx' mx ry my ly := ⟨hv.rx_pos.trans_le hrx, hv.mx_pos, hv.ry_pos, hv.my_pos, hv.ly_pos, hv.ly_le⟩
  obtain ⟨s, e1, e2, -, -, e3, -⟩ := C04_construct fresh n hn rx mx ry my ly hv
  obtain ⟨s', e1', e2', -, -, e3', -⟩ := C04_construct fresh' n hn rx' mx ry my ly hv'
  refine ⟨s, s', e1, e1', by rw [e2, e2'], fun i r r' hi hi' => ?_⟩
  have hin : i < n := by rw [← e2]; exact (List.getElem?_eq_some_iff.1 hi).1
  obtain ⟨ρ, -, a1, a2, a3, a4⟩ := e3 i hin
  obtain ⟨ρ', -, b1, b2, b3, b4⟩ := e3' i hin
  rw [Shell.ribCenter, Shell.ribAt, hi] at a1
  rw [Shell.ribWidth, Shell.ribAt, hi] at a2
  rw [Shell.ribRadius, Shell.ribAt, hi] at a3
  rw [Shell.ribCenter, Shell.ribAt, hi'] at b1
  rw [Shell.ribWidth, Shell.ribAt, hi'] at b2
  rw [Shell.ribRadius, Shell.ribAt, hi'] at b3
  have a1 : r.center = _ := Res.ok.inj a1
  have b1 : r'.center = _ := Res.ok.inj b1
  have a2 : r.width = _ := Res.ok.inj a2
  have b2 : r'.width = _ := Res.ok.inj b2
  have a3 : r.radius = _ := Res.ok.inj a3
  have b3 : r'.radius = _ := Res.ok.inj b3
  have hr := (Shell.Reachable.make (pol := .raw) e1).isRib r (List.mem_of_getElem? hi)
  have hr' := (Shell.Reachable.make (pol := .raw) e1').isRib r' (List.mem_of_getElem? hi')
  have hy := (Shell.real_centre_abs hv.ly_pos hin).le
  refine ⟨?_, by rw [a2, b2], ?_⟩
  · have := a1.trans b1.symm
    have : (⟨0, r.y, 0⟩ : V3 ℝ) = ⟨0, r'.y, 0⟩ := hr.center.symm.trans (this.trans hr'.center)
    exact (V3.mk.inj this).2.1.symm
  · rw [a3, b3, (radAt_profile hv hy ρ).1 a4, (radAt_profile hv' hy ρ').1 b4]
    unfold radAt
    have : 0 ≤ radAt rx mx ry my (-ly + (2 * i + 1) * ly / n) := (radAt_mem hv hy).1
    refine mul_le_mul_of_nonneg_right hrx ?_
    unfold radAt at this
    exact nonneg_of_mul_nonneg_right this hv.rx_pos

/-- **C144, the tyre on flat ground** (partial: the sampling method with ground and tyre upwards): with the larger tyre every rib has a
contact if it has one with the smaller tyre, the records are not less in depth, area and volume, the contact volume is not less, and
the setup answers "contact" if it does with the smaller tyre. -/
theorem C144_setup_flat_partial {pol : Policy} {s s' sA sB : Shell ℝ} (hs : s.Reachable pol) (hs' : s'.Reachable pol)
    (hl : LargerTyre s s') {pose : Affine ℝ} (hp : IsRigid pose) {f : ℝ} {o n : V3 ℝ} {g : Flat ℝ} (hg : Flat.make f o n = .ok g)
    {method : String} (hm : method = "geometric" ∨ method = "sampling" ∧ 0 < pose.linear.c2.z ∧ Scalar.eps < g.plane.normal.z ∧
      ∀ r ∈ s.ribs, 0 < r.width)
    {b b' : Bool} (hA : s.setupFlat pol g pose method = .ok sA b) (hB : s'.setupFlat pol g pose method = .ok sB b') :
    (b = true → b' = true) ∧
    (∀ i < s.size, ∃ x x', sA.out.read pol i = .ok x ∧ sB.out.read pol i = .ok x' ∧ x.depth ≤ x'.depth ∧ x.area ≤ x'.area ∧
      x.volume ≤ x'.volume) ∧
    ∃ v v', sA.contactVolume pol = .ok v ∧ sB.contactVolume pol = .ok v' ∧ v ≤ v' := by
  have e1 := Shell.setupFlat_rel (.inl ⟨b, hA⟩)
  have e2 := Shell.setupFlat_rel (.inl ⟨b', hB⟩)
  have z1 : sA.size = s.size := by unfold Shell.size; rw [e1.ribs]
  have z2 : sB.size = s.size := by rw [← hl.size]; unfold Shell.size; rw [e2.ribs]
  obtain ⟨f1, r1, a1, w1, -⟩ := C38_flat_flag_partial pol s sA g pose method b hA
  obtain ⟨f2, r2, a2, w2, -⟩ := C38_flat_flag_partial pol s' sB g pose method b' hB
  have key : ∀ i < s.size, sA.out.read pol i = .ok (r1 i) ∧ sB.out.read pol i = .ok (r2 i) ∧ NotLess (f1 i, r1 i) (f2 i, r2 i) := by
    intro i hi
    obtain ⟨r, g1, g2, g3⟩ := a1 i hi
    obtain ⟨r', g1', g2', g3'⟩ := a2 i (by rw [hl.size]; exact hi)
    refine ⟨g3, g3', ?_⟩
    have q1 : s.ribs[i]? = some r := by rw [← g1]; exact congrArg (·[i]?) e1.ribs.symm
    have q2 : s'.ribs[i]? = some r' := by rw [← g1']; exact congrArg (·[i]?) e2.ribs.symm
    have hmr := hl.ribs i r r' q1 q2
    have hr := hs.isRib r (List.mem_of_getElem? q1)
    have hr' := hs'.isRib r' (List.mem_of_getElem? q2)
    have g2 : r.envelopFlat g pose method = .ok (f1 i, r1 i) := g2
    have g2' : r'.envelopFlat g pose method = .ok (f2 i, r2 i) := g2'
    rcases hm with rfl | ⟨rfl, m1, m2, m3⟩
    · simp only [Rib.envelopFlat, if_true, beq_self_eq_true] at g2 g2'
      rw [← Res.ok.inj g2, ← Res.ok.inj g2']
      exact C144_geometric_flat hr hr' hmr hp hg
    · simp only [Rib.envelopFlat, if_true, beq_self_eq_true, String.reduceBEq] at g2 g2'
      rw [← Res.ok.inj g2, ← Res.ok.inj g2']
      exact C144_sampling_flat hr hr' (m3 r (List.mem_of_getElem? q1)) hmr hp m1 hg m2
  refine ⟨?_, fun i hi => ?_, ?_⟩
  · intro hb
    rw [w1] at hb
    rw [w2, hl.size]
    rw [Bool.and_eq_true, decide_eq_true_eq] at hb ⊢
    exact ⟨hb.1, (key _ (by omega)).2.2.flag hb.2⟩
  · obtain ⟨k1, k2, k3⟩ := key i hi
    exact ⟨_, _, k1, k2, k3.depth, k3.area, k3.volume⟩
  · have hrep : Reports pol sA r1 := Shell.reports_iff.2 fun i hi => (key i (by rwa [z1] at hi)).1
    have hrep' : Reports pol sB r2 := Shell.reports_iff.2 fun i hi => (key i (by rwa [z2] at hi)).2.1
    have hV := C42_total_real hrep
    have hV' := C42_total_real hrep'
    rw [z1] at hV
    rw [z2] at hV'
    exact ⟨_, _, hV, hV', Finset.sum_le_sum fun i hi => (key i (Finset.mem_range.1 hi)).2.2.volume⟩

/-- **C144, the tyre on a mesh, geometric method** (partial: ground that the rib planes cut in a road below the centres, and up to
`eps` for every rib, the volume below which a rib reports no contact): the contact volume of the larger tyre is not less. -/
theorem C144_setup_mesh_partial {pol : Policy} {s₁ s₂ s₁' s₂' : Shell ℝ} (hu₁ : TyreInUse pol s₁) (hu₂ : TyreInUse pol s₂)
    (hl : LargerTyre s₁ s₂) {pose : Affine ℝ} {m : Mesh ℝ} {road₁ road₂ : Rib ℝ → ℝ → ℝ}
    (h₁ : StandsOn s₁ pose m road₁) (h₂ : StandsOn s₂ pose m road₂)
    (hroad : ∀ i : Nat, ∀ r r', s₁.ribs[i]? = some r → s₂.ribs[i]? = some r' → ∀ x, |x| ≤ r.radius → road₁ r x = road₂ r' x)
    {b₁ b₂ : Bool} (hs₁ : s₁.setupMesh pol m pose "geometric" = .ok s₁' b₁) (hs₂ : s₂.setupMesh pol m pose "geometric" = .ok s₂' b₂) :
    ∃ v₁ v₂, s₁'.contactVolume pol = .ok v₁ ∧ s₂'.contactVolume pol = .ok v₂ ∧ v₁ ≤ v₂ + s₁.ribs.length * Scalar.eps := by
  obtain ⟨o₁, e₁, g₁⟩ := Terrain.records hu₁ h₁ hs₁
  obtain ⟨o₂, e₂, g₂⟩ := Terrain.records hu₂ h₂ hs₂
  rw [hl.size] at e₂
  rw [show s₁.size = s₁.ribs.length from rfl] at e₁ e₂
  refine ⟨_, _, e₁, e₂, ?_⟩
  have hone : ∀ i ∈ Finset.range s₁.ribs.length, (o₁ i).volume ≤ (o₂ i).volume + Scalar.eps := by
    intro i hi
    have hlen : i < s₂.ribs.length := by
      have := hl.size; unfold Shell.size at this; rw [this]; exact Finset.mem_range.1 hi
    obtain ⟨r, hi'⟩ : ∃ r, s₁.ribs[i]? = some r := ⟨_, List.getElem?_eq_getElem (Finset.mem_range.1 hi)⟩
    obtain ⟨r', hi''⟩ : ∃ r', s₂.ribs[i]? = some r' := ⟨_, List.getElem?_eq_getElem hlen⟩
    have hmem := List.mem_of_getElem? hi'
    have hmr := hl.ribs i r r' hi' hi''
    have hR := (hu₁.reach.isRib _ hmem).radius_pos
    have ha : areaBelow r.radius (road₁ r) ≤ areaBelow r'.radius (road₂ r') := by
      refine (Terrain.area_mono (road' := road₂ r') hR.le fun x a b => (hroad i r r' hi' hi'' x (abs_le.2 ⟨a, b⟩)).le).trans ?_
      refine ENNReal.toReal_mono (Terrain.below_finite (hR.le.trans hmr.radius) _) (MeasureTheory.measure_mono ?_)
      rintro ⟨x, z⟩ ⟨k1, k2⟩
      exact ⟨k1.trans_le (pow_le_pow_left₀ hR.le hmr.radius 2), k2⟩
    have := mul_le_mul_of_nonneg_left ha (hu₁.width _ hmem).le
    have c1 := (g₁ i _ hi').1
    have c2 := (g₂ i _ hi'').2
    rw [hmr.width] at c2
    linarith
  refine (Finset.sum_le_sum hone).trans_eq ?_
  rw [Finset.sum_add_distrib, Finset.sum_const, Finset.card_range, nsmul_eq_mul]

/-- **C144 is false** for the sampling method on a mesh: the lines of the larger rib are farther apart and can miss the ground.  A rib of
radius 1 half a radius above a triangle is in contact; one of radius 400 at the same place, which cuts the triangle in a longer line,
is not. -/
theorem C144_sampling_mesh_refuted : ∃ (r r' : Rib ℝ) (pose : Affine ℝ) (t : TriangleGround ℝ), IsRib r ∧ IsRib r' ∧ LargerRib r r' ∧
    IsRigid pose ∧ TriangleGround.make 0 1 ⟨0, 10, 0⟩ ⟨-30, -10, 0⟩ ⟨30, -10, 0⟩ = .ok t ∧
    (r.envelopSamplingMesh [t] pose).1 = true ∧ (r.envelopSamplingMesh [t] pose).2.depth = 1 / 2 ∧
    (r'.envelopSamplingMesh [t] pose).1 = false ∧ (r'.envelopSamplingMesh [t] pose).2.depth = 0 := by
  have hr' : IsRib (Rib.make 0 400 0 1 0 : Rib ℝ) := Rib.make_isRib _ _ _ (by norm_num) zero_le_one
  have hd := Demo.field_sampled.1
  have hlarge : LargerRib Demo.rib (Rib.make 0 400 0 1 0) := by
    constructor <;> simp [Demo.rib, Rib.make, Rib.y, Rib.radius]
  have hline : (Rib.make 0 400 0 1 0 : Rib ℝ).lineXp (Demo.upright (1 / 2)) = ⟨⟨40, 0, 1 / 2⟩, V3.neg V3.ez⟩ := by
    simp only [Rib.lineXp, Demo.upright, Rib.make, Rib.center, Rib.radius, Disk.center, Disk.radius]
    congr 1; v3; norm_num [Scalar.lit]
  have hmiss : Rib.samplingLineMesh [Demo.field] ⟨⟨40, 0, 1 / 2⟩, V3.neg V3.ez⟩ = none := by
    have he := real_eps_le_half
    have he' : (Scalar.eps : ℝ) < 1 / 100 := by rw [real_eps]; norm_num
    unfold Rib.samplingLineMesh Rib.samplingHits
    rw [List.filterMap_cons, List.filterMap_nil, show Demo.field.tri = ⟨⟨0, 10, 0⟩, ⟨-30, -10, 0⟩, ⟨30, -10, 0⟩⟩ from rfl,
      Relist.eval (x := 1 / 2) (y := -5 / 12) (z := 11 / 12) ?_ (by norm_num) (by norm_num) (by norm_num) ⟨rfl, rfl, rfl⟩]
    · rw [if_pos (by left; linarith)]; rfl
    · refine (he.trans (by norm_num : (1 / 2 : ℝ) ≤ 1)).trans ?_
      unfold Relist.part; norm_num
  have hno : (Rib.make 0 400 0 1 0 : Rib ℝ).envelopSamplingMesh [Demo.field] (Demo.upright (1 / 2)) =
      (false, (Rib.make 0 400 0 1 0 : Rib ℝ).noContact (Demo.upright (1 / 2))) := by
    rw [Rib.envelopSamplingMesh, Rib.envelopSampling, hline, hmiss]
  refine ⟨Demo.rib, Rib.make 0 400 0 1 0, Demo.upright (1 / 2), Demo.field, Demo.rib_isRib, hr', hlarge, Demo.upright_rigid _, Demo.field_make,
    Rib.sampling_flag (by rw [show (Demo.rib.envelopSampling _ _) = Demo.rib.envelopSamplingMesh [Demo.field] (Demo.upright (1 / 2)) from rfl, hd]; norm_num), hd, ?_, ?_⟩
  · rw [hno]
  · rw [hno]; simp [Rib.noContact]

/-! ### Examples -/

/-- A tyre of radius 1 and one of radius 11/10 on the road, by both methods. -/
example (fresh : Nat → Output ℝ) (n : Nat) (hn : 1 ≤ n) (hn' : n ≤ 200) (method : String) (hm : method = "geometric" ∨ method = "sampling") (h : ℝ) :
    ∃ (s s' sA sB : Shell ℝ) (b b' : Bool) (v v' : ℝ), Shell.make fresh n 1 2 2 2 1 = .ok s ∧ Shell.make fresh n (11 / 10) 2 2 2 1 = .ok s' ∧
    s.setupFlat .raw Demo.road (Demo.upright h) method = .ok sA b ∧ s'.setupFlat .raw Demo.road (Demo.upright h) method = .ok sB b' ∧
    (b = true → b' = true) ∧ sA.contactVolume .raw = .ok v ∧ sB.contactVolume .raw = .ok v' ∧ v ≤ v' := by
  have hv : ValidProfile (1 : ℝ) 2 2 2 1 := ⟨by norm_num, by norm_num, by norm_num, by norm_num, by norm_num, by norm_num⟩
  obtain ⟨s, s', e1, e1', hl⟩ := C144_larger fresh fresh n hn hv (show (1 : ℝ) ≤ 11 / 10 by norm_num)
  obtain ⟨t, u1, u2, -, -, u3, -⟩ := C04_construct fresh n hn 1 2 2 2 1 hv
  rw [e1] at u1
  cases u1
  have hs : s.Reachable .raw := .make e1
  have hs' : s'.Reachable .raw := .make e1'
  obtain ⟨sA, b, hA⟩ := Shell.setupFlat_total hs (by rw [u2]; exact hn') Demo.road (Demo.upright h) hm
  obtain ⟨sB, b', hB⟩ := Shell.setupFlat_total hs' (by rw [hl.size, u2]; exact hn') Demo.road (Demo.upright h) hm
  have hup : Scalar.eps < Demo.road.plane.normal.z := by simpa [Demo.road] using real_eps_lt_one
  obtain ⟨k1, -, v, v', k2, k3, k4⟩ := C144_setup_flat_partial hs hs' hl (Demo.upright_rigid h) Demo.road_make
    (hm.imp id fun e => ⟨e, by norm_num [Demo.upright], hup, fun r hr => by
      obtain ⟨i, hi, e⟩ := List.mem_iff_getElem.1 hr
      have hi' : s.ribs[i]? = some r := by rw [List.getElem?_eq_getElem hi, e]
      obtain ⟨-, -, -, hw, -⟩ := u3 i (by rw [← u2]; exact hi)
      rw [Shell.ribWidth, Shell.ribAt, hi'] at hw
      rw [show r.width = _ from Res.ok.inj hw]
      have : (0 : ℝ) < n := by exact_mod_cast hn
      positivity⟩) hA hB
  exact ⟨s, s', sA, sB, b, b', v, v', e1, e1', hA, hB, k1, k2, k3, k4⟩

/-- Tyres of radius 24/25 and 1 on the field, geometric method. -/
example (fresh : Nat → Output ℝ) (n : Nat) (hn : 1 ≤ n) (hn' : n ≤ 200) (h : ℝ) (h1 : 1 / 4 ≤ h) (h2 : h ≤ 1 / 2) :
    ∃ (s s' sA sB : Shell ℝ) (b b' : Bool) (v v' : ℝ), Shell.make fresh n (24 / 25) 2 (9 / 10) 2 (1 / 8) = .ok s ∧
    Shell.make fresh n 1 2 (9 / 10) 2 (1 / 8) = .ok s' ∧
    s.setupMesh .raw (Mesh.ofTriangles [Demo.field]) (Demo.upright h) "geometric" = .ok sA b ∧
    s'.setupMesh .raw (Mesh.ofTriangles [Demo.field]) (Demo.upright h) "geometric" = .ok sB b' ∧
    sA.contactVolume .raw = .ok v ∧ sB.contactVolume .raw = .ok v' ∧ v ≤ v' + n * Scalar.eps := by
  have heps := real_eps_le_half
  have hn0 : (0 : ℝ) < n := by exact_mod_cast hn
  have hv : ValidProfile (24 / 25 : ℝ) 2 (9 / 10) 2 (1 / 8) := ⟨by norm_num, by norm_num, by norm_num, by norm_num, by norm_num, by norm_num⟩
  obtain ⟨s, s', e1, e1', hl⟩ := C144_larger fresh fresh n hn hv (show (24 / 25 : ℝ) ≤ 1 by norm_num)
  have all : ∀ (rx : ℝ) (t : Shell ℝ), 24 / 25 ≤ rx → rx ≤ 1 → Shell.make fresh n rx 2 (9 / 10) 2 (1 / 8) = .ok t →
      t.size = n ∧ TyreInUse .raw t ∧ StandsOn t (Demo.upright h) (Mesh.ofTriangles [Demo.field]) (fun _ _ => -h) ∧
      ∃ t' b, t.setupMesh .raw (Mesh.ofTriangles [Demo.field]) (Demo.upright h) "geometric" = .ok t' b := by
    intro rx t k1 k2 ht
    have hvt : ValidProfile rx 2 (9 / 10) 2 (1 / 8) := ⟨by linarith, by norm_num, by norm_num, by norm_num, by norm_num, by norm_num⟩
    obtain ⟨u, u1, u2, -, u4, hrb, -⟩ := C04_construct fresh n hn rx 2 (9 / 10) 2 (1 / 8) hvt
    rw [ht] at u1
    cases u1
    have hreach : t.Reachable .raw := .make ht
    have hall : ∀ r ∈ t.ribs, ∃ c, r.center = ⟨0, c, 0⟩ ∧ |c| ≤ 1 / 8 ∧ 0 < r.radius ∧ r.radius ^ 2 = rx ^ 2 * (1 - c ^ 2 * (100 / 81)) ∧
        0 < r.width := by
      intro r hr
      obtain ⟨i, hi, e⟩ := List.mem_iff_getElem.1 hr
      have hin : i < n := by have : t.ribs.length = n := u2; omega
      have hr1 : t.ribs[i]? = some r := by rw [List.getElem?_eq_getElem hi, e]
      obtain ⟨ρ, hρ0, hc, hw, hrad, hon⟩ := hrb i hin
      have hy : |-(1 / 8) + (2 * (i : ℝ) + 1) * (1 / 8) / n| ≤ 1 / 8 := (Shell.real_centre_abs (by norm_num) hin).le
      refine ⟨-(1 / 8) + (2 * (i : ℝ) + 1) * (1 / 8) / n, ?_, hy, ?_, ?_, ?_⟩
      · rw [Shell.ribCenter, Shell.ribAt, hr1] at hc; exact Res.ok.inj hc
      · rw [Shell.ribRadius, Shell.ribAt, hr1] at hrad; rw [show r.radius = ρ from Res.ok.inj hrad]; exact hρ0
      · rw [Shell.ribRadius, Shell.ribAt, hr1] at hrad; rw [show r.radius = ρ from Res.ok.inj hrad, (radAt_profile hvt hy ρ).1 hon]
        generalize -(1 / 8) + (2 * (i : ℝ) + 1) * (1 / 8) / n = y at hy ⊢
        have hs : y ^ 2 ≤ 1 / 64 := by rw [← sq_abs]; nlinarith [abs_nonneg y]
        unfold radAt
        rw [Real.rpow_two, div_pow, sq_abs, ← Real.sqrt_eq_rpow, mul_pow, Real.sq_sqrt (by norm_num; linarith)]
        norm_num [div_eq_mul_inv]
      · rw [Shell.ribWidth, Shell.ribAt, hr1] at hw; rw [show r.width = _ from Res.ok.inj hw]; positivity
    have hsq : ∀ r ∈ t.ribs, ∃ c, r.center = ⟨0, c, 0⟩ ∧ |c| ≤ 1 ∧ 0 < r.radius ∧ 3 / 4 ≤ r.radius ^ 2 ∧ r.radius ^ 2 + c ^ 2 ≤ rx ^ 2 ∧
        r.radius ≤ 1 := by
      intro r hr
      obtain ⟨c, f1, f2, f3, f4, -⟩ := hall r hr
      have hc2 : c ^ 2 ≤ 1 / 64 := by rw [← sq_abs]; nlinarith [abs_nonneg c]
      have hrx : 576 / 625 ≤ rx ^ 2 := by nlinarith
      have hrx1 : rx ^ 2 ≤ 1 := by nlinarith
      have hR : r.radius ^ 2 + c ^ 2 ≤ rx ^ 2 := by rw [f4]; nlinarith [sq_nonneg c]
      exact ⟨c, f1, by linarith, f3, by rw [f4]; nlinarith [sq_nonneg c], hR, by nlinarith [sq_nonneg c]⟩
    have hstand : StandsOn t (Demo.upright h) (Mesh.ofTriangles [Demo.field]) (fun _ _ => -h) := by
      refine ⟨Demo.upright_rigid h, Demo.field_built, fun r hr => ?_, fun r hr => by fun_prop, fun r hr x _ _ => by linarith, fun r hr => ?_⟩
      all_goals obtain ⟨c, f1, f2, f3, f4, f5, f6⟩ := hsq r hr
      · nlinarith
      · exact Demo.field_road_at h1 h2 f1 f2 f6 f4 f3
    refine ⟨u2, ⟨hreach, by rw [u4]; dsimp only; linarith, fun r hr => ?_, fun r hr => ?_⟩, hstand, ?_⟩
    · obtain ⟨-, -, -, -, -, f5⟩ := hall r hr; exact f5
    · obtain ⟨c, f1, -, -, -, f5, -⟩ := hsq r hr
      rw [f1, u4]; exact f5
    · refine C37_setup_partial t hreach (by rw [u2]; exact hn') _ Demo.field_built _ (Demo.upright_rigid h) (fun t' ht' _ r hr => ?_)
      obtain ⟨j, x, T, others, -, -, hT, hts, ho⟩ := hstand.cut r hr
      rcases List.mem_append.1 (hts.mem_iff.1 ht') with h | h
      · obtain ⟨i, hi, rfl⟩ := List.mem_map.1 h
        exact (hT i (List.mem_range.1 hi)).2.1.clear
      · exact (ho t' h).clear
  obtain ⟨z, hu, hst, sA, b, hA⟩ := all _ s le_rfl (by norm_num) e1
  obtain ⟨-, hu', hst', sB, b', hB⟩ := all _ s' (by norm_num) le_rfl e1'
  obtain ⟨v, v', k1, k2, k3⟩ := C144_setup_mesh_partial hu hu' hl hst hst' (fun _ _ _ _ _ _ _ => rfl) hA hB
  refine ⟨s, s', sA, sB, b, b', v, v', e1, e1', hA, hB, k1, k2, ?_⟩
  have : (s.ribs.length : ℝ) = n := by exact_mod_cast z
  rwa [this] at k3

end Enve
