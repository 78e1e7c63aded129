import Verif.Props.InsideProps
import Verif.Props.RepeatedProps
import Verif.Props.OffAxisProps

/-! # C148: the reported contact fits into the tyre -/

namespace Enve
open Scalar Spec

namespace Size

theorem area_full {R : ℝ} (hR : 0 < R) (w : ℝ) : Rib.depthArea R w R = 2 * R * w := by
  simp only [Rib.depthArea, real_mul, real_sub, real_two, real_sqrt]
  rw [show R * (2 * R - R) = R ^ 2 by ring, Real.sqrt_sq hR.le]

theorem volume_full {R : ℝ} (w : ℝ) : Rib.depthVolume R w R = w * (Real.pi * R ^ 2 / 2) := by
  simp only [Rib.depthVolume, real_mul, real_sub, real_two, real_sqrt, real_div, real_acos, sub_self, zero_div, zero_mul, sub_zero,
    Real.arccos_zero]
  ring

end Size

/-- A record that fits into the rib: the depth is at most the radius, the area at most the area of the section through the axis and the
volume at most half the volume of the rib. -/
structure Spec.FitsRib (r : Rib ℝ) (o : Output ℝ) : Prop where
  depth_nonneg : 0 ≤ o.depth
  depth : o.depth ≤ r.radius
  area_nonneg : 0 ≤ o.area
  area : o.area ≤ 2 * r.radius * r.width
  volume_nonneg : 0 ≤ o.volume
  volume : o.volume ≤ r.width * (Real.pi * r.radius ^ 2 / 2)

/-- **C148, a rib (partial).**  On flat ground with either method, and with the sampling method on every mesh, the record of a rib fits into
the rib; area and volume reach their bounds exactly if the depth is the radius. -/
theorem C148_rib_partial {r : Rib ℝ} (hr : IsRib r) {pose : Affine ℝ} (hp : IsRigid pose) {b : Bool} {o : Output ℝ}
    (h : (∃ f og n g method, Flat.make f og n = .ok g ∧ r.envelopFlat g pose method = .ok (b, o)) ∨
      ∃ ts, r.envelopMesh ts pose "sampling" = .ok (b, o)) :
    FitsRib r o ∧ (o.depth = r.radius → o.area = 2 * r.radius * r.width ∧ o.volume = r.width * (Real.pi * r.radius ^ 2 / 2)) ∧
    (0 < r.width → o.volume = r.width * (Real.pi * r.radius ^ 2 / 2) → o.depth = r.radius) := by
  have hR : 0 < r.radius := hr.radius_pos
  have hw : 0 ≤ r.width := hr.width_nonneg
  have hpi := Real.pi_pos
  have key : 0 ≤ o.depth ∧ o.depth ≤ r.radius ∧ o.area = Rib.depthArea r.radius r.width o.depth ∧
      o.volume = Rib.depthVolume r.radius r.width o.depth := by
    cases b with
    | false =>
      have : o = r.noContact pose := by
        rcases h with ⟨f, og, n, g, method, -, h⟩ | ⟨ts, h⟩
        · exact Rib.envelopFlat_false h
        · exact Rib.envelopMesh_false h
      subst this
      refine ⟨by simp [Rib.noContact], by simpa [Rib.noContact] using hR.le, by simp [Rib.noContact, Rib.depthArea], ?_⟩
      simp [Rib.noContact, Rib.depthVolume, hR.ne']
    | true =>
      rcases h with ⟨f, og, n, g, method, hg, h⟩ | ⟨ts, h⟩
      · unfold Rib.envelopFlat at h
        split at h
        · have h := Res.ok.inj h
          have hc := C32_contact hr hp hg (by rw [h])
          rw [h] at hc
          rcases Rib.geometricFlat_closed hr hp (Flat.make_unit hg) with ⟨-, h4⟩ | ⟨-, h4⟩
          · rw [h4] at h
            dsimp only at hc
            refine ⟨hc.2.2.2.2.2.2.1.le, hc.2.2.2.2.2.2.2, ?_⟩
            rw [Prod.mk.injEq] at h
            rw [← h.2]
            exact ⟨rfl, rfl⟩
          · rw [h4] at h; cases h
        · split at h
          · obtain ⟨h1, h2⟩ := Rib.envelopSampling_record hR (Res.ok.inj h)
            exact ⟨h1.le, h2⟩
          · cases h
      · unfold Rib.envelopMesh at h
        rw [if_neg (by decide), if_pos rfl] at h
        obtain ⟨h1, h2⟩ := Rib.envelopSampling_record hR (Res.ok.inj h)
        exact ⟨h1.le, h2⟩
  obtain ⟨h0, h1, h2, h3⟩ := key
  have hv0 : Rib.depthVolume r.radius r.width 0 = 0 := by simp [Rib.depthVolume, hR.ne']
  refine ⟨⟨h0, h1, ?_, ?_, ?_, ?_⟩, fun e => ?_, fun hw' e => ?_⟩
  · have := Rib.depthArea_mono hw h0 h1
    rw [h2]
    exact le_trans (by simp [Rib.depthArea]) this
  · rw [h2, ← Size.area_full hR]
    exact Rib.depthArea_mono hw h1 le_rfl
  · have := Rib.depthVolume_mono hR hw le_rfl h0 h1
    rw [hv0] at this
    rw [h3]; exact this
  · rw [h3, ← Size.volume_full]
    exact Rib.depthVolume_mono hR hw h0 h1 le_rfl
  · rw [h2, h3, e, Size.area_full hR, Size.volume_full]
    exact ⟨rfl, rfl⟩
  · by_contra hne
    have hlt : o.depth < r.radius := lt_of_le_of_ne h1 hne
    have := (C31_monotone hR hw').1 ⟨h0, by linarith⟩ ⟨by linarith, by linarith⟩ hlt
    rw [Size.volume_full, ← h3, e] at this
    exact lt_irrefl _ this

/-- **C148, every method (partial).**  On every ground and with either method: a contact that has volume is at most as deep as the radius of
the rib; area and volume are not negative. -/
theorem C148_depth_partial {r : Rib ℝ} (hr : IsRib r) {pose : Affine ℝ} (hp : IsRigid pose) {o : Output ℝ} {method : String}
    (h : EvaluatedBy method r pose o) (hv : method = "geometric" → o.area ≠ 0 → o.volume ≠ 0) :
    0 ≤ o.depth ∧ o.depth ≤ r.radius ∧ 0 ≤ o.area ∧ 0 ≤ o.volume := by
  obtain ⟨h1, h2⟩ := C130_rib_partial hr hp h hv
  obtain ⟨h3, h4⟩ := h.weights hr hp
  have : 0 ≤ dist3 o.point (pose.apply ⟨0, r.y, 0⟩) := dist3_nonneg _ _
  exact ⟨h1, by linarith, h4, h3⟩

/-- **C148, the tyre (partial).**  A tyre built with `n` ribs, set up on flat ground with either method or on any mesh with the sampling
method: every record fits into its rib and the total volume is at most half the volume of the cylinder around the tyre. -/
theorem C148_tyre_partial {fresh : Nat → Output ℝ} {n : Nat} (hn : 1 ≤ n) {rx mx ry my ly : ℝ} (hv : ValidProfile rx mx ry my ly)
    {s s' : Shell ℝ} (hmake : Shell.make fresh n rx mx ry my ly = .ok s) {pol : Policy} {pose : Affine ℝ} (hp : IsRigid pose)
    {method : String} {b : Bool}
    (h : (∃ f og m g, Flat.make f og m = .ok g ∧ s.setupFlat pol g pose method = .ok s' b) ∨
      (method = "sampling" ∧ ∃ m, s.setupMesh pol m pose method = .ok s' b)) :
    (∃ o, Reports pol s' o ∧ ∀ i < s'.size, ∃ r, s'.ribs[i]? = some r ∧ FitsRib r (o i)) ∧
    ∃ v, s'.contactVolume pol = .ok v ∧ 0 ≤ v ∧ v ≤ (Real.pi * rx ^ 2 * (2 * ly)) / 2 := by
  have hs : s.Reachable pol := .make hmake
  have hsu : SetUp pol s pose method s' b := by
    rcases h with ⟨f, og, m, g, hg, h⟩ | ⟨-, m, h⟩
    · exact .inr ⟨f, og, m, g, hg, h⟩
    · exact .inl ⟨m, h⟩
  have hsize : s'.size = s.size := by rw [Shell.size, hsu.rel.ribs]; rfl
  have hribs : s'.ribs = s.ribs := hsu.rel.ribs
  obtain ⟨o, ho, hev⟩ := hsu.evaluated hs
  have hfit : ∀ i < s'.size, ∃ r, s'.ribs[i]? = some r ∧ FitsRib r (o i) := by
    intro i hi
    rcases h with ⟨f, og, m, g, hg, h⟩ | ⟨rfl, -⟩
    · obtain ⟨flags, recs, k1, -⟩ := C38_flat_flag_partial pol s s' g pose method b h
      obtain ⟨r, a, c, e⟩ := k1 i (by omega)
      rw [Res.ok.inj ((Shell.reports_iff.1 ho i hi).symm.trans e)]
      have hr : IsRib r := by
        rw [hribs] at a
        exact hs.isRib r (List.mem_of_getElem? a)
      exact ⟨r, a, (C148_rib_partial hr hp (.inl ⟨f, og, m, g, method, hg, c⟩)).1⟩
    · obtain ⟨r, a, hr, he⟩ := hev i hi
      refine ⟨r, a, ?_⟩
      have hR : 0 < r.radius := hr.radius_pos
      have hw : 0 ≤ r.width := hr.width_nonneg
      have hpi := Real.pi_pos
      rcases he with he | ⟨f, og, m, g, b, hg, he⟩ | ⟨ts, b, he⟩
      · rw [he]
        constructor <;> simp only [Rib.noContact, real_zero] <;> positivity
      · exact (C148_rib_partial hr hp (.inl ⟨f, og, m, g, _, hg, he⟩)).1
      · exact (C148_rib_partial hr hp (.inr ⟨ts, he⟩)).1
  refine ⟨⟨o, ho, hfit⟩, _, C42_total_real ho, Finset.sum_nonneg fun i hi => ?_, ?_⟩
  · obtain ⟨r, -, hf⟩ := hfit i (Finset.mem_range.1 hi)
    exact hf.volume_nonneg
  obtain ⟨s1, e1, hsz, -, -, hrb, -⟩ := C04_construct fresh n hn rx mx ry my ly hv
  rw [hmake] at e1
  cases e1
  obtain ⟨-, hbd⟩ := Shell.make_ribs_bounds hn hv hmake
  have hone : ∀ i ∈ Finset.range s'.size, (o i).volume ≤ (2 * ly / n) * (Real.pi * rx ^ 2 / 2) := by
    intro i hi
    have hi := Finset.mem_range.1 hi
    obtain ⟨r, a, hf⟩ := hfit i hi
    rw [hribs] at a
    obtain ⟨-, -, -, hw, -⟩ := hrb i (by omega)
    simp only [Shell.ribWidth, Shell.ribAt, a, Res.bind_ok, Res.pure_eq, Res.ok.injEq] at hw
    have hr := hs.isRib r (List.mem_of_getElem? a)
    have hR : 0 < r.radius := hr.radius_pos
    have hle := (hbd r (List.mem_of_getElem? a)).1
    have hpi := Real.pi_pos
    refine hf.volume.trans ?_
    rw [← hw]
    have hw0 : 0 ≤ r.width := hr.width_nonneg
    gcongr
  refine (Finset.sum_le_sum hone).trans (le_of_eq ?_)
  rw [Finset.sum_const, Finset.card_range, hsize, hsz, nsmul_eq_mul]
  have : (n : ℝ) ≠ 0 := by positivity
  field_simp

/-- **C148 is false of the geometric method on a mesh.**  A mesh that lists one face often enough makes a rib report more contact volume than
it has volume. -/
theorem C148_mesh_refuted : ∃ (r : Rib ℝ) (pose : Affine ℝ) (ts : List (TriangleGround ℝ)) (o : Output ℝ), IsRib r ∧ IsRigid pose ∧
    (∀ t ∈ ts, ∃ i f a b c, TriangleGround.make i f a b c = .ok t) ∧ r.envelopMesh ts pose "geometric" = .ok (true, o) ∧
    r.width * (Real.pi * r.radius ^ 2) < o.volume := by
  obtain ⟨o, ho⟩ := Demo.field_contact (w := 2) (by norm_num)
  have hr : IsRib (Demo.ribOf 2) := Demo.ribOf_isRib (by norm_num)
  have hp := Demo.upright_rigid (1 / 2)
  have hv : 0 < o.volume := (C36_volume_pos_partial hr hp (fun t ht => by
    rw [List.mem_singleton] at ht
    subst ht
    rw [Demo.field_plane]
    simp only [Affine.apply, Demo.upright]
    v3
    norm_num) ho).1
  obtain ⟨k, hk⟩ := exists_nat_gt ((Demo.ribOf 2).width * (Real.pi * (Demo.ribOf 2).radius ^ 2) / o.volume)
  have hk1 : 1 ≤ k + 1 := by omega
  obtain ⟨h1, -⟩ := C136_geometric_refuted (k := k + 1) (by
      intro t ht seg hseg
      rw [List.mem_singleton] at ht
      subst ht
      have hcut : Inter.triangleDisk Demo.field.tri ((Demo.ribOf 2).diskGrd (Demo.upright (1 / 2))) Scalar.eps =
          .ok (some ⟨⟨Real.sqrt (3 / 4), 0, 0⟩, ⟨-Real.sqrt (3 / 4), 0, 0⟩⟩) := Demo.field_cut
      rw [hcut] at hseg
      cases hseg
      obtain ⟨q1, -, -⟩ := Demo.sqrt34
      have heps := real_eps_le_half
      unfold dist3
      dsimp only
      rw [show (Real.sqrt (3 / 4) - -Real.sqrt (3 / 4)) ^ 2 + (0 - 0) ^ 2 + (0 - 0) ^ 2 = (2 * Real.sqrt (3 / 4)) ^ 2 by ring,
        Real.sqrt_sq (by linarith)]
      linarith) ho hk1
  refine ⟨_, _, _, _, hr, hp, fun t ht => ?_, by simpa [Rib.envelopMesh] using h1, ?_⟩
  · have : t = Demo.field := by
      simp only [repeated, List.mem_flatten, List.mem_replicate] at ht
      obtain ⟨l, ⟨-, rfl⟩, h⟩ := ht
      simpa using h
    exact ⟨_, _, _, _, _, this ▸ Demo.field_make⟩
  · rw [div_lt_iff₀ hv] at hk
    dsimp only
    push_cast
    nlinarith

/-- The hypotheses of the tyre's claim are met: a tyre of one rib, half sunk in a road. -/
example (fresh : Nat → Output ℝ) : ∃ (s s' : Shell ℝ) (pose : Affine ℝ) (b : Bool), ValidProfile (1 : ℝ) 2 2 2 1 ∧
    Shell.make fresh 1 1 2 2 2 1 = .ok s ∧ IsRigid pose ∧
    ∃ f og m g, Flat.make f og m = .ok g ∧ s.setupFlat .raw g pose "geometric" = .ok s' b := by
  have hv : ValidProfile (1 : ℝ) 2 2 2 1 :=
    ⟨by norm_num, by norm_num, by norm_num, by norm_num, by norm_num, by norm_num⟩
  obtain ⟨s, a, h1, -, hab, ha, hac, haR, haw⟩ := Demo.oneRib fresh
  have hreach : s.Reachable .raw := .make h1
  have hacc : s.out.accessible .raw 0 = true := by
    rw [Shell.accessible_raw hreach.inv]
    have : s.size = 1 := by simp [Shell.size, hab]
    exact decide_eq_true (by omega)
  have heps := real_eps_le_half
  have henv := Demo.oneRib_eval ha hac haR (h := 0) le_rfl (by norm_num; linarith)
  have hset : ∃ s', s.setupFlat .raw Demo.road (Demo.upright 0) "geometric" = .ok s' true := by
    rw [Shell.setupFlat_eq, hab]
    simp only [Shell.ribLoop, hacc, Bool.not_true, Bool.false_eq_true, if_false, Rib.envelopFlat, if_true, henv, Shell.withOut]
    exact ⟨_, rfl⟩
  obtain ⟨s', hset⟩ := hset
  exact ⟨s, s', _, true, hv, h1, Demo.upright_rigid 0, _, _, _, _, Demo.road_make, hset⟩

end Enve
