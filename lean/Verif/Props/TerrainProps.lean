import Verif.Props.RoadCutProps
import Verif.Props.VolumeProps
import Verif.Props.SearchProps
import Verif.Spec.Terrain

/-! # The whole tyre on a terrain of triangles: C125 -/

namespace Enve
open Scalar Spec MeasureTheory

/-! ## Areas below roads -/

namespace Terrain

/-- The area of the disk below the road as an integral, for any radius. -/
theorem area_integral {R : ℝ} {road : ℝ → ℝ} (hR : 0 ≤ R) (hlow : ∀ x, -R ≤ x → x ≤ R → road x < 0) (hc : Continuous road) :
    areaBelow R road = ∫ x in (-R)..R, Max.max 0 (road x + √(R ^ 2 - x ^ 2)) := by
  rcases hR.eq_or_lt with rfl | hR
  · have : belowRoad 0 road = ∅ := by
      ext p
      simp only [belowRoad, Set.mem_ofPred_eq, Set.mem_empty_iff_false, iff_false, not_and]
      intro h
      nlinarith [sq_nonneg p.1, sq_nonneg p.2]
    rw [areaBelow, this]; simp
  · rw [RoadArea.areaBelow_eq hR hlow hc]
    refine intervalIntegral.integral_congr fun x hx => ?_
    rw [Set.uIcc_of_le (by linarith)] at hx
    have hz := hlow x hx.1 hx.2
    have hsq : 0 ≤ R ^ 2 - x ^ 2 := by nlinarith [hx.1, hx.2]
    simp only [RoadArea.gap]
    split
    · rename_i h
      have : -road x ≤ √(R ^ 2 - x ^ 2) := Real.le_sqrt_of_sq_le (by rw [neg_sq]; linarith)
      rw [max_eq_right (by linarith)]
    · rename_i h
      have : √(R ^ 2 - x ^ 2) ≤ -road x := Real.sqrt_le_iff.2 ⟨by linarith, by rw [neg_sq]; linarith⟩
      rw [max_eq_left (by linarith)]

/-- Raising the road by at most `δ` adds at most the diameter times `δ`. -/
theorem area_lip {R δ : ℝ} {road road' : ℝ → ℝ} (hR : 0 ≤ R) (hlow : ∀ x, -R ≤ x → x ≤ R → road x < 0)
    (hlow' : ∀ x, -R ≤ x → x ≤ R → road' x < 0) (hc : Continuous road) (hc' : Continuous road')
    (h : ∀ x, -R ≤ x → x ≤ R → |road x - road' x| ≤ δ) : |areaBelow R road - areaBelow R road'| ≤ 2 * R * δ := by
  have i1 : ∀ f : ℝ → ℝ, Continuous f → IntervalIntegrable (fun x => Max.max 0 (f x + √(R ^ 2 - x ^ 2))) volume (-R) R :=
    fun f hf => Continuous.intervalIntegrable (by fun_prop) _ _
  rw [area_integral hR hlow hc, area_integral hR hlow' hc', ← intervalIntegral.integral_sub (i1 _ hc) (i1 _ hc')]
  have := intervalIntegral.norm_integral_le_of_norm_le_const (C := δ) (a := -R) (b := R)
    (f := fun x => Max.max 0 (road x + √(R ^ 2 - x ^ 2)) - Max.max 0 (road' x + √(R ^ 2 - x ^ 2))) (by
      intro x hx
      rw [Set.uIoc_of_le (by linarith)] at hx
      rw [Real.norm_eq_abs]
      refine (abs_max_sub_max_le_max _ _ _ _).trans ?_
      have h1 := h x hx.1.le hx.2
      have h0 := (abs_nonneg _).trans h1
      refine max_le (by simpa using h0) ?_
      rw [show road x + √(R ^ 2 - x ^ 2) - (road' x + √(R ^ 2 - x ^ 2)) = road x - road' x by ring]
      exact h1)
  rw [Real.norm_eq_abs] at this
  refine this.trans_eq ?_
  rw [show R - -R = 2 * R by ring, abs_of_nonneg (by linarith)]; ring

/-- The part of the disk of radius `R` farther than `h` below the centre. -/
def Bottom (R h : ℝ) : Set (ℝ × ℝ) := {p | p.1 ^ 2 + p.2 ^ 2 < R ^ 2 ∧ p.2 < -h}

theorem bottom_volume (R h : ℝ) : volume (Bottom R h) = volume (Seg R h) := by
  have := segAt_turned (R := R) (H := h) (a := 0) (b := 1) (σ := 1) one_pos (by norm_num)
  rw [div_one] at this
  rw [← this]
  congr 1
  ext p
  simp only [Bottom, Set.mem_ofPred_eq]
  constructor
  · rintro ⟨h1, h2⟩; exact ⟨h1, by linarith⟩
  · rintro ⟨h1, h2⟩; exact ⟨h1, by linarith⟩

theorem below_finite {R : ℝ} (hR : 0 ≤ R) (road : ℝ → ℝ) : volume (belowRoad R road) ≠ ⊤ := by
  refine ne_top_of_le_ne_top (b := volume (Set.Ioo (-R) R ×ˢ Set.Ioo (-R) R)) ?_ (measure_mono ?_)
  · rw [Measure.volume_eq_prod, Measure.prod_prod, Real.volume_Ioo]
    exact ENNReal.mul_ne_top ENNReal.ofReal_ne_top ENNReal.ofReal_ne_top
  · rintro ⟨x, z⟩ ⟨h1, -⟩
    dsimp only at h1
    have hx := abs_lt_of_sq_lt_sq (a := x) (b := R) (by nlinarith [sq_nonneg z]) hR
    have hz := abs_lt_of_sq_lt_sq (a := z) (b := R) (by nlinarith [sq_nonneg x]) hR
    exact ⟨abs_lt.1 hx, abs_lt.1 hz⟩

/-- A larger disk has a larger part below the road, but the difference is at most that for a road at the height of the highest point. -/
theorem area_radius {R R' low : ℝ} {road : ℝ → ℝ} (hR : 0 ≤ R) (hRR : R ≤ R') (hlow : ∀ x, -R' ≤ x → x ≤ R' → road x ≤ -low) :
    |areaBelow R' road - areaBelow R road| ≤ segAt R' low - segAt R low := by
  have hR' := hR.trans hRR
  have hx : ∀ p : ℝ × ℝ, p.1 ^ 2 + p.2 ^ 2 < R' ^ 2 → -R' ≤ p.1 ∧ p.1 ≤ R' := by
    intro p hp
    have := abs_lt.1 (abs_lt_of_sq_lt_sq (a := p.1) (by nlinarith [sq_nonneg p.2]) hR')
    exact ⟨this.1.le, this.2.le⟩
  have hmeas : MeasurableSet (Bottom R low) := by unfold Bottom; measurability
  have hmono : belowRoad R road ⊆ belowRoad R' road := by
    rintro p ⟨a, b⟩; exact ⟨by nlinarith, b⟩
  have h1 := measure_union_add_inter (μ := volume) (belowRoad R' road) hmeas
  have h2 : belowRoad R' road ∩ Bottom R low = belowRoad R road := by
    ext p
    constructor
    · rintro ⟨⟨-, a⟩, b, -⟩; exact ⟨b, a⟩
    · rintro ⟨a, b⟩
      have ha : p.1 ^ 2 + p.2 ^ 2 < R' ^ 2 := by nlinarith
      have := hx p ha
      exact ⟨⟨ha, b⟩, a, b.trans_le (hlow p.1 this.1 this.2)⟩
  have h3 : volume (belowRoad R' road ∪ Bottom R low) ≤ volume (Bottom R' low) := by
    refine measure_mono (Set.union_subset ?_ ?_)
    · rintro p ⟨a, b⟩
      have := hx p a
      exact ⟨a, b.trans_le (hlow p.1 this.1 this.2)⟩
    · rintro p ⟨a, b⟩; exact ⟨by nlinarith, b⟩
  have fin : ∀ {R : ℝ}, 0 ≤ R → volume (Bottom R low) ≠ ⊤ := fun h => by rw [bottom_volume]; exact Seg.finite h _
  rw [h2] at h1
  have f3 := ENNReal.toReal_mono (fin hR') h3
  have f1 := congrArg ENNReal.toReal h1
  rw [ENNReal.toReal_add (ne_top_of_le_ne_top (fin hR') h3) (below_finite hR road),
    ENNReal.toReal_add (below_finite hR' road) (fin hR)] at f1
  have f0 := ENNReal.toReal_mono (below_finite hR' road) (measure_mono (μ := volume) hmono)
  rw [bottom_volume] at f3
  rw [bottom_volume R] at f1
  unfold areaBelow segAt
  rw [abs_of_nonneg (by linarith)]
  linarith

/-- The volume below the terrain is the integral of the areas of the slices. -/
theorem volume_eq {rx mx ry my ly : ℝ} (hv : ValidProfile rx mx ry my ly) {H : ℝ → ℝ → ℝ} (hH : Continuous fun p : ℝ × ℝ => H p.1 p.2) :
    terrainVolume rx mx ry my ly H = ∫ y in -ly..ly, areaBelow (radAt rx mx ry my y) (fun x => H x y) := by
  have hset : terrainPart rx mx ry my ly H =
      {p : ℝ × ℝ × ℝ | |p.1| < ly ∧ p.2.1 ^ 2 + p.2.2 ^ 2 < radAt rx mx ry my p.1 ^ 2 ∧ p.2.2 < H p.2.1 p.1} := by
    ext p
    unfold terrainPart tyreSolid
    simp only [Set.mem_ofPred_eq]
    constructor
    · rintro ⟨⟨h1, r, h2, h3⟩, h4⟩
      rw [radAt_profile hv h1.le] at h2
      rw [h2] at h3
      exact ⟨h1, h3, h4⟩
    · rintro ⟨h1, h3, h4⟩
      exact ⟨⟨h1, _, (radAt_profile hv h1.le _).2 rfl, h3⟩, h4⟩
  have hm : MeasurableSet (terrainPart rx mx ry my ly H) := by
    rw [hset]
    have hR := radAt_measurable rx mx ry my
    have m1 : Measurable fun p : ℝ × ℝ × ℝ => |p.1| := by fun_prop
    have m2 : Measurable fun p : ℝ × ℝ × ℝ => p.2.1 ^ 2 + p.2.2 ^ 2 := by fun_prop
    have m3 : Measurable fun p : ℝ × ℝ × ℝ => radAt rx mx ry my p.1 ^ 2 := by fun_prop
    have m4 : Measurable fun p : ℝ × ℝ × ℝ => H p.2.1 p.1 :=
      (hH.comp (by fun_prop : Continuous fun p : ℝ × ℝ × ℝ => (p.2.1, p.1))).measurable
    exact (measurableSet_lt m1 measurable_const).inter
      ((measurableSet_lt m2 m3).inter (measurableSet_lt (by fun_prop) m4))
  have hslice : ∀ y, volume (Prod.mk y ⁻¹' terrainPart rx mx ry my ly H) =
      if y ∈ Set.Ioo (-ly) ly then volume (belowRoad (radAt rx mx ry my y) (fun x => H x y)) else 0 := by
    intro y
    rw [hset]
    split
    · rename_i hy
      congr 1
      ext p
      simp only [Set.mem_preimage, Set.mem_ofPred_eq, abs_lt.2 hy, true_and, belowRoad]
    · rename_i hy
      convert measure_empty (μ := volume)
      ext p
      simp only [Set.mem_preimage, Set.mem_ofPred_eq, Set.mem_empty_iff_false, iff_false]
      exact fun h => hy (abs_lt.1 h.1)
  unfold terrainVolume
  rw [Measure.volume_eq_prod, Measure.prod_apply hm, ← integral_toReal (measurable_measure_prodMk_left hm).aemeasurable]
  · rw [intervalIntegral.integral_of_le (by linarith [hv.ly_pos]), integral_Ioc_eq_integral_Ioo,
      ← integral_indicator measurableSet_Ioo]
    · congr 1
      ext y
      rw [hslice, Set.indicator_apply]
      split <;> simp [areaBelow]
  · refine Filter.Eventually.of_forall fun y => ?_
    rw [hslice]
    split
    · rename_i hy
      exact (below_finite (radAt_mem hv (abs_lt.2 hy).le).1 _).lt_top
    · exact ENNReal.zero_lt_top

/-- How much the slices change. -/
theorem variation {rx mx ry my ly : ℝ} (hv : ValidProfile rx mx ry my ly) {H : ℝ → ℝ → ℝ} (hH : Continuous fun p : ℝ × ℝ => H p.1 p.2)
    {low L : ℝ} (h0 : 0 < low) (hL : 0 ≤ L) (hlow : ∀ x y, |x| ≤ rx → |y| ≤ ly → H x y ≤ -low)
    (hlip : ∀ x y y', |x| ≤ rx → |y| ≤ ly → |y'| ≤ ly → |H x y - H x y'| ≤ L * |y - y'|) :
    ∃ V : ℝ → ℝ, (∀ x y, -ly ≤ x → x ≤ y → y ≤ ly →
      |areaBelow (radAt rx mx ry my x) (fun t => H t x) - areaBelow (radAt rx mx ry my y) (fun t => H t y)| ≤ V y - V x) ∧
      V ly - V (-ly) ≤ 2 * segAt rx low + 4 * rx * L * ly := by
  obtain ⟨U, hU, hU'⟩ := slice_variation hv (h0 := low) (k := 0) (hm := low) (by simp)
  simp only [mul_zero, add_zero, abs_zero, zero_mul] at hU hU'
  have hcont : ∀ y, Continuous fun t => H t y := fun y => hH.comp (by fun_prop : Continuous fun t : ℝ => (t, y))
  refine ⟨fun y => U y + 2 * rx * L * y, fun x y hx hxy hy => ?_, ?_⟩
  · have hxl : |x| ≤ ly := abs_le.2 ⟨hx, hxy.trans hy⟩
    have hyl : |y| ≤ ly := abs_le.2 ⟨hx.trans hxy, hy⟩
    have rx' := radAt_mem hv hxl
    have ry' := radAt_mem hv hyl
    have hrad : |areaBelow (radAt rx mx ry my x) (fun t => H t x) - areaBelow (radAt rx mx ry my y) (fun t => H t x)| ≤ U y - U x := by
      refine le_trans ?_ (hU x y hx hxy hy)
      rcases le_total (radAt rx mx ry my x) (radAt rx mx ry my y) with h | h
      · rw [abs_sub_comm, abs_sub_comm (segAt _ _)]
        exact (area_radius rx'.1 h fun t h1 h2 => hlow t x (abs_le.2 ⟨by linarith, by linarith⟩) hxl).trans (le_abs_self _)
      · exact (area_radius ry'.1 h fun t h1 h2 => hlow t x (abs_le.2 ⟨by linarith, by linarith⟩) hxl).trans (le_abs_self _)
    have hhei : |areaBelow (radAt rx mx ry my y) (fun t => H t x) - areaBelow (radAt rx mx ry my y) (fun t => H t y)| ≤
        2 * rx * L * (y - x) := by
      have ht : ∀ t, -radAt rx mx ry my y ≤ t → t ≤ radAt rx mx ry my y → |t| ≤ rx := fun t h1 h2 => abs_le.2 ⟨by linarith, by linarith⟩
      refine (area_lip (δ := L * (y - x)) ry'.1 (fun t h1 h2 => (hlow t x (ht t h1 h2) hxl).trans_lt (by linarith))
        (fun t h1 h2 => (hlow t y (ht t h1 h2) hyl).trans_lt (by linarith)) (hcont x) (hcont y) fun t h1 h2 => ?_).trans ?_
      · have := hlip t x y (ht t h1 h2) hxl hyl
        rwa [abs_sub_comm x y, abs_of_nonneg (by linarith : 0 ≤ y - x)] at this
      · have := mul_nonneg hL (show 0 ≤ y - x by linarith)
        calc 2 * radAt rx mx ry my y * (L * (y - x)) ≤ 2 * rx * (L * (y - x)) := by
              apply mul_le_mul_of_nonneg_right _ this; linarith
          _ = _ := by ring
    refine (abs_sub_le _ (areaBelow (radAt rx mx ry my y) (fun t => H t x)) _).trans ?_
    dsimp only
    linarith
  · dsimp only
    linarith

end Terrain

/-! ## The theorem -/

/-- In the plane of the rib the mesh `ts` is the road: its triangles are cut in the pieces of a road — the graph of `road` over the whole
width of the disk of the rib — apart from triangles clear of that plane.  The triangles are in any order, and of any shape, number and size,
as long as each of them is cut away from the tolerances of the intersection (`CleanCut`, `ClearPiece`), and no piece that reaches the disk
is overhead. -/
def Spec.RoadOf (pose : Affine ℝ) (r : Rib ℝ) (road : ℝ → ℝ) (ts : List (TriangleGround ℝ)) : Prop :=
  ∃ (k : ℕ) (x : ℕ → ℝ) (T : ℕ → TriangleGround ℝ) (others : List (TriangleGround ℝ)), x 0 ≤ -r.radius ∧ r.radius ≤ x k ∧
    (∀ i < k, CutOver pose r road (T i).tri (x i) (x (i + 1)) ∧ CleanCut pose r (T i).tri ∧ ClearPiece r.radius road (x i) (x (i + 1)) ∧
      (Reaches r.radius road (x i) (x (i + 1)) → ¬ Overhead road (x i) (x (i + 1)))) ∧
    ts.Perm ((List.range k).map T ++ others) ∧ ∀ t ∈ others, Aside pose r t.tri

theorem Spec.Separates.clear {pose : Affine ℝ} {r : Rib ℝ} {A B C : V3 ℝ} (h : Separates pose r A B C) :
    ∀ u ∈ [A, B, C], ∀ v ∈ [A, B, C], 0 < side pose r u * side pose r v →
      Scalar.eps * |side pose r u - side pose r v| < |side pose r u| := by
  have hab := h.ab
  have hac := h.ac
  have hb := h.clearB
  have hc := h.clearC
  have hself : ∀ u : V3 ℝ, 0 < side pose r u * side pose r u → Scalar.eps * |side pose r u - side pose r u| < |side pose r u| := by
    intro u hu
    rw [sub_self, abs_zero, mul_zero]
    exact abs_pos.2 fun h => by rw [h, mul_zero] at hu; exact lt_irrefl _ hu
  intro u hu v hv huv
  simp only [List.mem_cons, List.not_mem_nil, or_false] at hu hv
  rcases hu with rfl | rfl | rfl <;> rcases hv with rfl | rfl | rfl
  · exact hself _ huv
  · linarith
  · linarith
  · rw [mul_comm] at huv; linarith
  · exact hself _ huv
  · exact hb
  · rw [mul_comm] at huv; linarith
  · rw [abs_sub_comm]; exact hc
  · exact hself _ huv

theorem Spec.CleanCut.clear {pose : Affine ℝ} {r : Rib ℝ} {T : Triangle ℝ} (h : CleanCut pose r T) : ClearOfRib pose r T := by
  intro u hu v hv huv
  simp only [List.mem_cons, List.not_mem_nil, or_false] at hu hv
  rcases h.sep with h | h | h
  · exact h.clear u (by simp only [List.mem_cons, List.not_mem_nil, or_false]; tauto) v (by simp only [List.mem_cons, List.not_mem_nil, or_false]; tauto) huv
  · exact h.clear u (by simp only [List.mem_cons, List.not_mem_nil, or_false]; tauto) v (by simp only [List.mem_cons, List.not_mem_nil, or_false]; tauto) huv
  · exact h.clear u (by simp only [List.mem_cons, List.not_mem_nil, or_false]; tauto) v (by simp only [List.mem_cons, List.not_mem_nil, or_false]; tauto) huv

/-- Without contact the volume is zero. -/
theorem Rib.geometricMesh_false {r : Rib ℝ} {ts : List (TriangleGround ℝ)} {pose : Affine ℝ} {out : Output ℝ}
    (h : r.envelopGeometricMesh ts pose = .ok (false, out)) : out.volume = 0 := by
  rw [Rib.envelopGeometricMesh] at h
  cases e : r.geomLoop pose ts Rib.Acc.init with
  | ok acc =>
    rw [e, Res.bind_ok] at h
    have h : r.geomFinish pose acc = (false, out) := Res.ok.inj h
    unfold Rib.geomFinish at h
    split at h
    · cases h
    · cases h; simp [Rib.noContact]
  | throw _ => rw [e] at h; cases h
  | ub _ => rw [e] at h; cases h

/-- One rib. -/
theorem Terrain.rib {r : Rib ℝ} (hr : IsRib r) (hw : 0 < r.width) (hrad : Scalar.eps ≤ r.radius) {pose : Affine ℝ} (hp : IsRigid pose)
    {road : ℝ → ℝ} (hc : Continuous road) (hlow : ∀ x, -r.radius ≤ x → x ≤ r.radius → road x < 0) {ts : List (TriangleGround ℝ)}
    (h : RoadOf pose r road ts) :
    (∀ t ∈ ts, ClearOfRib pose r t.tri) ∧
    (∀ t ∈ ts, ∀ seg, Inter.triangleDisk t.tri (r.diskGrd pose) Scalar.eps = .ok (some seg) → Scalar.eps ≤ dist3 seg.v0 seg.v1) ∧
    ∃ b out, r.envelopGeometricMesh ts pose = .ok (b, out) ∧ |out.volume - r.width * areaBelow r.radius road| ≤ Scalar.eps ∧
      (Scalar.eps < r.width * areaBelow r.radius road → b = true) := by
  obtain ⟨k, x, T, others, h0, hn, hT, hts, ho⟩ := h
  refine ⟨?_, ?_, ?_⟩
  · intro t ht
    rcases List.mem_append.1 (hts.mem_iff.1 ht) with h | h
    · obtain ⟨i, hi, rfl⟩ := List.mem_map.1 h
      exact (hT i (List.mem_range.1 hi)).2.1.clear
    · exact (ho t h).clear
  · intro t ht seg hseg
    rcases List.mem_append.1 (hts.mem_iff.1 ht) with h | h
    · obtain ⟨i, hi, rfl⟩ := List.mem_map.1 h
      obtain ⟨a, b, c, -⟩ := hT i (List.mem_range.1 hi)
      rcases (RoadCut.piece hr hrad hp hlow a b c).1 with e | ⟨seg', -, e, -, hl⟩
      · rw [e] at hseg; cases hseg
      · rw [e] at hseg; cases hseg; exact hl
    · rw [RoadCut.aside hr hp (ho t h)] at hseg; cases hseg
  · obtain ⟨b, out, h1, h2, h3, -⟩ := C122_volume_partial hr hw hrad hp hc hlow h0 hn (fun i hi => ⟨(hT i hi).1, (hT i hi).2.1, (hT i hi).2.2.1⟩)
      hts ho
    refine ⟨b, out, h1, ?_, h2⟩
    cases b with
    | true => rw [h3 rfl fun i hi => (hT i hi).2.2.2, sub_self, abs_zero]; exact real_eps_pos.le
    | false =>
      have hv := Rib.geometricMesh_false h1
      have hle : r.width * areaBelow r.radius road ≤ Scalar.eps := by
        by_contra hc
        cases h2 (not_le.1 hc)
      rw [hv, zero_sub, abs_neg, abs_of_nonneg (mul_nonneg hw.le (show 0 ≤ areaBelow r.radius road from ENNReal.toReal_nonneg))]
      exact hle

set_option maxHeartbeats 1000000 in
/-- **C125 (partial).**  Put a tyre of `n` ribs on a terrain of triangles: the graph of `H` in the axes of the wheel, at least `low` below the
wheel axis, with slope at most `L` along the axis.  The contact volume that the geometric method reports differs from the volume of the part
of the tyre below the terrain by an amount of order `1/n` (the slices a rib stands for are not all alike) and by at most `eps` for every rib
(the threshold below which a rib reports no contact).  The plane of every rib cuts the triangles in a road without overhead faces, away
from the tolerances (`RoadOf`), and the disks of the ribs are inside the sphere of radius `rx` around the hub, as they must be for the search
to find all their triangles. -/
theorem C125_volume_partial {fresh : Nat → Output ℝ} {n : Nat} (hn : 1 ≤ n) {rx mx ry my ly : ℝ}
    (hv : ValidProfile rx mx ry my ly) {s s' : Shell ℝ} (hmake : Shell.make fresh n rx mx ry my ly = .ok s)
    {pose : Affine ℝ} (hp : IsRigid pose) {m : Mesh ℝ} (hm : BuiltMesh m)
    {H : ℝ → ℝ → ℝ} (hH : Continuous fun p : ℝ × ℝ => H p.1 p.2) {low L : ℝ} (h0 : 0 < low) (hL : 0 ≤ L)
    (hlow : ∀ x y, |x| ≤ rx → |y| ≤ ly → H x y ≤ -low)
    (hlip : ∀ x y y', |x| ≤ rx → |y| ≤ ly → |y'| ≤ ly → |H x y - H x y'| ≤ L * |y - y'|)
    (hribs : ∀ r ∈ s.ribs, Scalar.eps ≤ r.radius ∧ r.radius ^ 2 + r.center.y ^ 2 ≤ rx ^ 2 ∧
      RoadOf pose r (fun x => H x r.center.y) m.triangles)
    {pol : Policy} {b : Bool} (hs : s.setupMesh pol m pose "geometric" = .ok s' b) :
    ∃ v, s'.contactVolume pol = .ok v ∧
      |v - terrainVolume rx mx ry my ly H| ≤
        2 * ly / n * (2 * segmentArea rx (rx - low) + 4 * rx * L * ly) + n * Scalar.eps ∧
      ((∃ r ∈ s.ribs, Scalar.eps < r.width * areaBelow r.radius (fun x => H x r.center.y)) → b = true) := by
  have ly0 := hv.ly_pos
  have hn' : (0 : ℝ) < n := by exact_mod_cast hn
  have hreach : s.Reachable pol := .make hmake
  obtain ⟨s1, e1, hsize, -, hshape, hrb, -⟩ := C04_construct fresh n hn rx mx ry my ly hv
  rw [hmake] at e1
  cases e1
  have hcont : ∀ y, Continuous fun t => H t y := fun y => hH.comp (by fun_prop : Continuous fun t : ℝ => (t, y))
  -- the ribs
  have hone : ∀ i < n, ∃ r, s.ribs[i]? = some r ∧ IsRib r ∧ r.width = 2 * ly / n ∧ r.center.y = -ly + (2 * i + 1) * ly / n ∧
      r.radius = radAt rx mx ry my (-ly + (2 * i + 1) * ly / n) ∧ |r.center.y| ≤ ly := by
    intro i hi
    obtain ⟨ρ, hρ0, hc, hw, hrad, hon⟩ := hrb i hi
    have hlen : i < s.ribs.length := by have : s.ribs.length = n := hsize; omega
    have hr1 : s.ribs[i]? = some s.ribs[i] := List.getElem?_eq_getElem hlen
    have hy : |-ly + (2 * i + 1) * ly / n| ≤ ly := (Shell.real_centre_abs ly0 hi).le
    have hc' : (s.ribs[i]).center = ⟨0, -ly + (2 * i + 1) * ly / n, 0⟩ := by
      rw [Shell.ribCenter, Shell.ribAt, hr1] at hc; exact Res.ok.inj hc
    have hw' : (s.ribs[i]).width = 2 * ly / n := by
      rw [Shell.ribWidth, Shell.ribAt, hr1] at hw; exact Res.ok.inj hw
    have hrad' : (s.ribs[i]).radius = ρ := by
      rw [Shell.ribRadius, Shell.ribAt, hr1] at hrad; exact Res.ok.inj hrad
    refine ⟨_, hr1, hreach.isRib _ (List.mem_of_getElem? hr1), hw', by rw [hc'], ?_, by rw [hc']; exact hy⟩
    rw [hrad', (radAt_profile hv hy ρ).1 hon]
  have hall : ∀ r ∈ s.ribs, IsRib r ∧ 0 < r.width ∧ ∀ x, -r.radius ≤ x → x ≤ r.radius → H x r.center.y < 0 := by
    intro r hr
    obtain ⟨i, hi, e⟩ := List.mem_iff_getElem.1 hr
    obtain ⟨r', g1, g2, g3, g4, g5, g6⟩ := hone i (by have : s.ribs.length = n := hsize; omega)
    rw [List.getElem?_eq_getElem hi] at g1
    have er : r = r' := by rw [← e]; exact Option.some.inj g1
    subst er
    refine ⟨g2, by rw [g3]; positivity, fun x h1 h2 => ?_⟩
    have hle : r.radius ≤ rx := by rw [g5]; exact (radAt_mem hv (by rw [← g4]; exact g6)).2
    exact (hlow x _ (abs_le.2 ⟨by linarith, by linarith⟩) g6).trans_lt (by linarith)
  have hev := fun r hr => Terrain.rib (hall r hr).1 (hall r hr).2.1 (hribs r hr).1 hp (hcont r.center.y) (hall r hr).2.2 (hribs r hr).2.2
  obtain ⟨k1, k2⟩ := C61_search_geometric_partial pol s s' hreach (by rw [hshape]; exact hv.rx_pos.le) m hm pose hp
    (fun r hr => by rw [hshape]; exact (hribs r hr).2.1) (fun t ht r hr => (hev r hr).1 t ht) (fun t ht r hr => (hev r hr).2.1 t ht) b hs
  have hrel := Shell.setupMesh_rel (.inl ⟨b, hs⟩)
  have hsize' : s'.size = n := by rw [Shell.size, hrel.ribs]; exact hsize
  have hrec : ∀ i, ∃ o, i < n → s'.out.read pol i = .ok o ∧
      |o.volume - 2 * ly / n * areaBelow (radAt rx mx ry my (-ly + (2 * i + 1) * ly / n)) (fun x => H x (-ly + (2 * i + 1) * ly / n))| ≤
        Scalar.eps := by
    intro i
    by_cases hi : i < n
    · obtain ⟨r, g1, g2, g3, g4, g5, -⟩ := hone i hi
      obtain ⟨flag, o, e, e'⟩ := k1 i r (by rw [hrel.ribs]; exact g1)
      obtain ⟨-, -, b', o', e2, h2, -⟩ := hev r (List.mem_of_getElem? g1)
      have : o = o' := (Prod.mk.inj (Res.ok.inj (e.symm.trans e2))).2
      subst this
      refine ⟨o, fun _ => ⟨e', ?_⟩⟩
      rw [g3, g5, g4] at h2
      exact h2
    · exact ⟨⟨V3.nan, V3.nan, 0, 0, 0, 0⟩, fun h => absurd h hi⟩
  choose recs hrecs using hrec
  have hrep : Reports pol s' recs := by
    rw [Shell.reports_iff, hsize']
    exact fun i hi => (hrecs i hi).1
  refine ⟨_, C42_total_real hrep, ?_, ?_⟩
  · rw [hsize', Terrain.volume_eq hv hH]
    obtain ⟨V, hV, hV'⟩ := Terrain.variation hv hH h0 hL hlow hlip
    have hmid := Riemann.midpoint (g := fun y => areaBelow (radAt rx mx ry my y) (fun t => H t y)) ly0.le hn hV
    have hsum := (Finset.abs_sum_le_sum_abs _ (Finset.range n)).trans
      (Finset.sum_le_sum fun i hi => (hrecs i (Finset.mem_range.1 hi)).2)
    rw [Finset.sum_sub_distrib, Finset.sum_const, Finset.card_range, nsmul_eq_mul] at hsum
    have e3 : 2 * ly / n * (V ly - V (-ly)) ≤ 2 * ly / n * (2 * segmentArea rx (rx - low) + 4 * rx * L * ly) := by
      refine mul_le_mul_of_nonneg_left ?_ (by positivity)
      rw [← segAt_eq]; exact hV'
    exact (abs_sub_le _ _ _).trans ((add_le_add hsum (hmid.trans e3)).trans (le_of_eq (by ring)))
  · rintro ⟨r, hr, hlarge⟩
    obtain ⟨-, -, b', o', e2, -, h2⟩ := hev r hr
    have hb' := h2 hlarge
    subst hb'
    exact k2.2 ⟨r, by rw [hrel.ribs]; exact hr, o', e2⟩

/-! ### An example -/

/-- A rib at `y = c` of a wheel one half above the field: the field is the road `z = -1/2`. -/
theorem Demo.field_road {r : Rib ℝ} {c : ℝ} (hc : r.center = ⟨0, c, 0⟩) (hc' : |c| ≤ 1) (hR : r.radius ≤ 1) (hR' : 3 / 4 ≤ r.radius ^ 2)
    (hR0 : 0 < r.radius) : RoadOf (Demo.upright (1 / 2)) r (fun _ => -(1 / 2)) [Demo.field] := by
  have heps := real_eps_pos
  have heps' := real_eps_le_half
  have hc1 := (abs_le.1 hc').1
  have hc2 := (abs_le.1 hc').2
  have hside : ∀ p : V3 ℝ, side (Demo.upright (1 / 2)) r p = p.y - c := by
    intro p
    simp only [side, dot3, minus, ribCentre, hc, Demo.upright]
    v3
    ring
  have hpt : ∀ x z : ℝ, ribPoint (Demo.upright (1 / 2)) r x z = ⟨x, c, 1 / 2 + z⟩ := by
    intro x z
    simp only [ribPoint, hc, Demo.upright, Affine.apply]
    v3
    congr 1 <;> ring
  have hf : Demo.field.tri = ⟨⟨0, 10, 0⟩, ⟨-30, -10, 0⟩, ⟨30, -10, 0⟩⟩ := rfl
  obtain ⟨l, hl⟩ : ∃ l : ℝ, l = 15 - 3 / 2 * c := ⟨_, rfl⟩
  refine ⟨1, fun i => if i = 0 then -l else l, fun _ => Demo.field, [], ?_, ?_, ?_, by simp, by simp⟩
  · beta_reduce; rw [if_pos rfl]; linarith
  · beta_reduce; rw [if_neg (by norm_num)]; linarith
  · intro i hi
    have : i = 0 := by omega
    subst this
    beta_reduce
    rw [if_pos rfl, if_neg (by norm_num)]
    have hdist : ∀ A B : V3 ℝ, dist3 A B ^ 2 ≤ 1600 → (Scalar.eps : ℝ) * dist3 A B ≤ 20 := by
      intro A B hd
      have h40 : dist3 A B ≤ 40 := by
        refine le_of_sq_le_sq ?_ (by norm_num)
        linarith
      nlinarith [dist3_nonneg A B]
    refine ⟨⟨by linarith, fun X => ?_⟩, ⟨?_, ?_, .inl ⟨?_, ?_, ?_, ?_, ?_, ?_⟩⟩, ⟨.inl ?_, fun _ => ⟨?_, -(1 / 2), 1 / 2, by linarith, by norm_num,
      by linarith, by linarith, by linarith, ?_⟩⟩, fun _ => ?_⟩
    · rw [hf, hside]
      constructor
      · rintro ⟨⟨a, b, d, ha, hb, hd, hsum, rfl⟩, hy⟩
        dsimp only at hy ⊢
        refine ⟨30 * (d - b), by linarith, by linarith, ?_⟩
        rw [hpt]
        congr 1 <;> linarith
      · rintro ⟨x, h1, h2, rfl⟩
        rw [hpt]
        refine ⟨⟨(10 + c) / 20, ((10 - c) / 20 - x / 30) / 2, ((10 - c) / 20 + x / 30) / 2, by linarith, by linarith, by linarith, by ring, ?_⟩, ?_⟩
        · dsimp only
          congr 1 <;> ring
        · dsimp only; ring
    · rw [hf, V3.real_cross]; norm_num [minus]
    · have hn : Demo.field.tri.normal.y = 0 := by
        rw [hf]
        unfold Triangle.normal
        have hne : V3.cross (V3.sub (⟨-30, -10, 0⟩ : V3 ℝ) ⟨0, 10, 0⟩) (V3.sub ⟨30, -10, 0⟩ ⟨0, 10, 0⟩) ≠ ⟨0, 0, 0⟩ := by
          v3; norm_num
        rw [V3.normalized_of_ne hne]; v3; simp
      simp only [sinSq, dot3, Demo.upright, hn]
      have := real_eps_lt_one
      simpa using this.le
    all_goals try simp only [hside, hf]
    · nlinarith
    · nlinarith
    · refine (hdist _ _ ?_).trans ?_
      · rw [dist3_sq]; norm_num
      · rw [show (10 - c - (-10 - c) : ℝ) = 20 by ring]; norm_num
    · refine (hdist _ _ ?_).trans ?_
      · rw [dist3_sq]; norm_num
      · rw [show (10 - c - (-10 - c) : ℝ) = 20 by ring]; norm_num
    · rw [sub_self, abs_zero, mul_zero, abs_pos]; intro h; linarith
    · rw [sub_self, abs_zero, mul_zero, abs_pos]; intro h; linarith
    · have h14 : 14 ≤ l - -l := by linarith
      have e : r.radius ^ 2 * ((l - -l) ^ 2 + (-(1 / 2) - -(1 / 2)) ^ 2) - (-l * -(1 / 2) - l * -(1 / 2)) ^ 2 =
          (l - -l) ^ 2 * (r.radius ^ 2 - 1 / 4) := by ring
      rw [e]
      nlinarith
    · have : -l * -(1 / 2) - l * -(1 / 2) = l := by ring
      rw [this]; intro h; linarith
    · rw [show ((1 / 2 : ℝ) - -(1 / 2)) ^ 2 + (-(1 / 2) - -(1 / 2)) ^ 2 = 1 by norm_num, Real.sqrt_one]; linarith
    · unfold Overhead; linarith

/-- The hypotheses of `C125_volume_partial` are met by spherical tyres of 1 to 200 ribs whose hub is one half above the field. -/
example (fresh : Nat → Output ℝ) (n : Nat) (hn : 1 ≤ n) (hn' : n ≤ 200) : ∃ (s s' : Shell ℝ) (b : Bool) (v : ℝ),
    Shell.make fresh n 1 2 1 2 (1 / 2) = .ok s ∧
    s.setupMesh .raw (Mesh.ofTriangles [Demo.field]) (Demo.upright (1 / 2)) "geometric" = .ok s' b ∧ s'.contactVolume .raw = .ok v ∧
    |v - terrainVolume 1 2 1 2 (1 / 2) (fun _ _ => -(1 / 2))| ≤ 2 / n * segmentArea 1 (1 / 2) + n * Scalar.eps := by
  have hv : ValidProfile (1 : ℝ) 2 1 2 (1 / 2) :=
    ⟨by norm_num, by norm_num, by norm_num, by norm_num, by norm_num, by norm_num⟩
  have heps := real_eps_le_half
  obtain ⟨s, h1, h2, -, -, hrb, -⟩ := C04_construct fresh n hn 1 2 1 2 (1 / 2) hv
  have hreach : s.Reachable .raw := .make h1
  have hall : ∀ r ∈ s.ribs, ∃ c, r.center = ⟨0, c, 0⟩ ∧ |c| ≤ 1 / 2 ∧ 0 < r.radius ∧ r.radius ^ 2 = 1 - c ^ 2 := by
    intro r hr
    obtain ⟨i, hi, e⟩ := List.mem_iff_getElem.1 hr
    have hin : i < n := by have : s.ribs.length = n := h2; omega
    have hr1 : s.ribs[i]? = some r := by rw [List.getElem?_eq_getElem hi, e]
    obtain ⟨ρ, hρ0, hc, hw, hrad, hon⟩ := hrb i hin
    have hy : |-(1 / 2) + (2 * (i : ℝ) + 1) * (1 / 2) / n| ≤ 1 / 2 := (Shell.real_centre_abs (by norm_num) hin).le
    refine ⟨-(1 / 2) + (2 * (i : ℝ) + 1) * (1 / 2) / n, ?_, hy, ?_, ?_⟩
    · rw [Shell.ribCenter, Shell.ribAt, hr1] at hc; exact Res.ok.inj hc
    · rw [Shell.ribRadius, Shell.ribAt, hr1] at hrad; rw [show r.radius = ρ from Res.ok.inj hrad]; exact hρ0
    · rw [Shell.ribRadius, Shell.ribAt, hr1] at hrad; rw [show r.radius = ρ from Res.ok.inj hrad, (radAt_profile hv hy ρ).1 hon]
      generalize -(1 / 2) + (2 * (i : ℝ) + 1) * (1 / 2) / n = y at hy ⊢
      have hs : y ^ 2 ≤ 1 := by rw [← sq_abs]; nlinarith [abs_nonneg y]
      unfold radAt
      rw [one_mul, div_one, Real.rpow_two, sq_abs, ← Real.sqrt_eq_rpow, Real.sq_sqrt (by linarith)]
  have hroad : ∀ r ∈ s.ribs, Scalar.eps ≤ r.radius ∧ r.radius ^ 2 + r.center.y ^ 2 ≤ 1 ^ 2 ∧
      RoadOf (Demo.upright (1 / 2)) r (fun _ => -(1 / 2)) (Mesh.ofTriangles [Demo.field]).triangles := by
    intro r hr
    obtain ⟨c, e1, e2, e3, e4⟩ := hall r hr
    have hc2 : c ^ 2 ≤ 1 / 4 := by rw [← sq_abs]; nlinarith [abs_nonneg c]
    have h34 : 3 / 4 ≤ r.radius ^ 2 := by linarith
    refine ⟨by nlinarith, by rw [e1, e4]; dsimp only; linarith, ?_⟩
    exact Demo.field_road e1 (by linarith) (by nlinarith [sq_nonneg c]) h34 e3
  obtain ⟨s', b, h⟩ := C37_setup_partial s hreach (by omega) _ Demo.field_built _ (Demo.upright_rigid (1 / 2))
    (fun t ht _ r hr => by
      obtain ⟨k, x, T, others, -, -, hT, hts, ho⟩ := (hroad r hr).2.2
      rcases List.mem_append.1 (hts.mem_iff.1 ht) with h | h
      · obtain ⟨i, hi, rfl⟩ := List.mem_map.1 h
        exact (hT i (List.mem_range.1 hi)).2.1.clear
      · exact (ho t h).clear)
  obtain ⟨v, e1, e2, -⟩ := C125_volume_partial hn hv h1 (Demo.upright_rigid (1 / 2)) Demo.field_built (H := fun _ _ => -(1 / 2))
    (by fun_prop) (low := 1 / 2) (L := 0) (by norm_num) le_rfl (fun _ _ _ _ => le_rfl) (fun _ _ _ _ _ _ => by simp) hroad h
  refine ⟨s, s', b, v, h1, h, e1, e2.trans (le_of_eq ?_)⟩
  norm_num
  ring

/-! ### Short sections -/

/-- **C125 fails for short sections.**  If every rib is clear of every triangle, or cuts it in a segment whose length times the radius of
the rib is less than the square root of `eps`, then setup reports no contact and the contact volume is zero: whatever the number of ribs and
triangles, and however deep the tyre is below the terrain. -/
theorem C125_fine {pol : Policy} {s s' : Shell ℝ} (hreach : s.Reachable pol) {m : Mesh ℝ} (hm : BuiltMesh m) {pose : Affine ℝ}
    (hp : IsRigid pose) (h : ∀ t ∈ m.triangles, ∀ r ∈ s.ribs, Aside pose r t.tri ∨ ∃ road l u, CutOver pose r road t.tri l u ∧
      CleanCut pose r t.tri ∧ r.radius * √((u - l) ^ 2 + (road u - road l) ^ 2) < √Scalar.eps)
    {b : Bool} (hs : s.setupMesh pol m pose "geometric" = .ok s' b) : b = false ∧ s'.contactVolume pol = .ok 0 := by
  have hrel := Shell.setupMesh_rel (.inl ⟨b, hs⟩)
  obtain ⟨loc, hloc, hperm⟩ := hm.query _ (Shell.updateBBox_WF (s.transform pose))
  obtain ⟨flags, recs, h1, h2⟩ := C38_mesh_flag pol s s' hreach m pose "geometric" loc b hloc hs
  have hone : ∀ i < s.size, flags i = false ∧ (recs i).volume = 0 ∧ s'.out.read pol i = .ok (recs i) := by
    intro i hi
    obtain ⟨r, hr, e, hread⟩ := h1 i hi
    have hmem : r ∈ s.ribs := by rw [← hrel.ribs]; exact List.mem_of_getElem? hr
    have hrib := hreach.isRib r hmem
    split at e
    · have e := Prod.mk.inj (Res.ok.inj e)
      refine ⟨e.1.symm, ?_, hread⟩
      rw [← e.2]; simp [Rib.noContact]
    · obtain ⟨out, ho⟩ := C122_fine_refuted hrib hp (Shell.ribCandidates pose "geometric" loc r) (by
        intro t ht
        refine h t ?_ r hmem
        have : t ∈ loc := (List.mem_filter.1 ht).1
        exact (List.mem_filter.1 (hperm.mem_iff.1 this)).1)
      have e : r.envelopGeometricMesh (Shell.ribCandidates pose "geometric" loc r) pose = .ok (flags i, recs i) := by
        rw [← e]; simp [Rib.envelopMesh]
      have e' := Prod.mk.inj (Res.ok.inj (ho.symm.trans e))
      refine ⟨e'.1.symm, ?_, hread⟩
      rw [← e'.2]; exact Rib.geometricMesh_false ho
  have hsize' : s'.size = s.size := by rw [Shell.size, hrel.ribs]; rfl
  constructor
  · by_contra hb
    obtain ⟨i, hi, hf⟩ := h2.1 (by simpa using hb)
    rw [(hone i hi).1] at hf
    cases hf
  · have hrep : Reports pol s' recs := by
      rw [Shell.reports_iff, hsize']
      exact fun i hi => (hone i hi).2.2
    rw [C42_total_real hrep, hsize']
    congr 1
    exact Finset.sum_eq_zero fun i hi => (hone i (Finset.mem_range.1 hi)).2.1

theorem Spec.CutOver.congr {pose : Affine ℝ} {r r' : Rib ℝ} {road : ℝ → ℝ} {T : Triangle ℝ} {l u : ℝ} (hc : r.center = r'.center)
    (h : CutOver pose r road T l u) : CutOver pose r' road T l u := by
  refine ⟨h.lt, fun X => ?_⟩
  have := h.cut X
  simpa only [ribPoint, side, ribCentre, hc] using this

theorem Spec.CleanCut.congr {pose : Affine ℝ} {r r' : Rib ℝ} {T : Triangle ℝ} (hc : r.center = r'.center)
    (h : CleanCut pose r T) : CleanCut pose r' T := by
  have key : ∀ {A B C : V3 ℝ}, Separates pose r A B C → Separates pose r' A B C := by
    intro A B C ⟨a, b, c, d, e, f⟩
    simp only [side, ribCentre, hc] at a b c d e f
    refine ⟨?_, ?_, ?_, ?_, ?_, ?_⟩ <;> simpa only [side, ribCentre]
  exact ⟨h.area, h.slope, h.sep.imp key (.imp key key)⟩

theorem Demo.tile_built (l u zl zu : ℝ) : BuiltMesh (Mesh.ofTriangles [Demo.tile l u zl zu]) := by
  refine .inr ⟨_, by simp, ?_, ?_, rfl⟩
  · simp only [List.mem_singleton, forall_eq]; exact ⟨_, _, _, _, _, Demo.tile_make l u zl zu⟩
  · intro i t ht
    match i, ht with
    | 0, ht => simp at ht; subst ht; rfl
    | n + 1, ht => simp at ht

/-- **C125 fails for a thin roller.**  A roller of radius 1/256 and width 1, sunk by half its radius into a road whose single triangle spans
its whole disk, reports no contact and contact volume zero, although more than ten times `eps` of its volume is below the road. -/
theorem C125_roller_refuted (fresh : Nat → Output ℝ) : ∃ (s s' : Shell ℝ) (r : Rib ℝ) (m : Mesh ℝ),
    Shell.make fresh 1 (1 / 256) 2 1 2 (1 / 2) = .ok s ∧ s.ribs = [r] ∧ r.radius = 1 / 256 ∧ BuiltMesh m ∧
    (∀ X, (∃ t ∈ m.triangles, NearTriangle 0 t.tri X) ∧ side (Demo.upright 0) r X = 0 ↔
      ∃ x, -r.radius ≤ x ∧ x ≤ r.radius ∧ X = ribPoint (Demo.upright 0) r x (-(1 / 512))) ∧
    s.setupMesh .raw m (Demo.upright 0) "geometric" = .ok s' false ∧ s'.contactVolume .raw = .ok 0 ∧
    10 * Scalar.eps ≤ terrainVolume (1 / 256) 2 1 2 (1 / 2) (fun _ _ => -(1 / 512)) := by
  have hv : ValidProfile (1 / 256 : ℝ) 2 1 2 (1 / 2) :=
    ⟨by norm_num, by norm_num, by norm_num, by norm_num, by norm_num, by norm_num⟩
  obtain ⟨s, h1, h2, -, hshape, h5, -⟩ := C04_construct fresh 1 (by norm_num) (1 / 256) 2 1 2 (1 / 2) hv
  obtain ⟨r0, hr0, c0, w0, e0, p0⟩ := h5 0 (by norm_num)
  have hreach : s.Reachable .raw := .make h1
  obtain ⟨a, hab⟩ : ∃ a, s.ribs = [a] := by
    have hl : s.ribs.length = 1 := h2
    match hs : s.ribs, hl with
    | [a], _ => exact ⟨a, rfl⟩
  have ha : IsRib a := hreach.isRib a (by rw [hab]; simp)
  simp only [Shell.ribCenter, Shell.ribRadius, Shell.ribWidth, Shell.ribAt, hab, List.getElem?_cons_zero, Res.bind_ok,
    Res.pure_eq, Res.ok.injEq] at c0 e0 w0
  have hac : a.center = ⟨0, 0, 0⟩ := by rw [c0]; norm_num
  have har : a.radius = 1 / 256 := by
    have := (radAt_profile hv (by norm_num [abs_le]) r0).1 p0
    rw [e0, this]
    norm_num [radAt]
  have hcc : (Demo.ribOf 1).center = a.center := by rw [hac]; simp [Demo.ribOf, Rib.center, Disk.center, Rib.make]
  have hcut : CutOver (Demo.upright 0) a (fun _ => -(1 / 512)) (Demo.tile (-(1 / 256)) (1 / 256) (-(1 / 512)) (-(1 / 512))).tri
      (-(1 / 256)) (1 / 256) :=
    (Demo.tile_cutOver 1 (road := fun _ => -(1 / 512)) (by norm_num) (fun t _ _ => by ring)).congr hcc
  have hclean : CleanCut (Demo.upright 0) a (Demo.tile (-(1 / 256)) (1 / 256) (-(1 / 512)) (-(1 / 512))).tri :=
    (Demo.tile_cleanCut 1 (by norm_num) (by norm_num)).congr hcc
  obtain ⟨m, em⟩ : ∃ m, m = Mesh.ofTriangles [Demo.tile (-(1 / 256)) (1 / 256) (-(1 / 512)) (-(1 / 512))] := ⟨_, rfl⟩
  have htri : m.triangles = [Demo.tile (-(1 / 256)) (1 / 256) (-(1 / 512)) (-(1 / 512))] := by rw [em]; rfl
  have hm : BuiltMesh m := by rw [em]; exact Demo.tile_built _ _ _ _
  obtain ⟨s', b, hs⟩ := C37_setup_partial s hreach (by rw [h2]; norm_num) m hm _ (Demo.upright_rigid 0) (by
    intro t ht _ r hr
    rw [htri, List.mem_singleton] at ht
    rw [hab, List.mem_singleton] at hr
    rw [ht, hr]
    exact hclean.clear)
  obtain ⟨hb, hvol⟩ := C125_fine hreach hm (Demo.upright_rigid 0) (by
    intro t ht r hr
    rw [htri, List.mem_singleton] at ht
    rw [hab, List.mem_singleton] at hr
    rw [ht, hr]
    refine .inr ⟨_, _, _, hcut, hclean, ?_⟩
    rw [har, real_eps]
    refine Real.lt_sqrt_of_sq_lt ?_
    rw [mul_pow, Real.sq_sqrt (by norm_num)]
    norm_num) hs
  subst hb
  refine ⟨s, s', a, m, h1, hab, har, hm, fun X => ?_, hs, hvol, ?_⟩
  · rw [har, htri, ← hcut.cut X]
    simp
  · have hbox : (volume (Set.Icc (-(1 / 4) : ℝ) (1 / 4) ×ˢ (Set.Icc (-(1 / 1024) : ℝ) (1 / 1024) ×ˢ Set.Icc (-(3 / 1024) : ℝ) (-(5 / 2048))))).toReal =
        1 / 2 * (1 / 512 * (1 / 2048)) := by
      rw [Measure.volume_eq_prod, Measure.prod_prod, Measure.volume_eq_prod, Measure.prod_prod, Real.volume_Icc, Real.volume_Icc, Real.volume_Icc,
        ENNReal.toReal_mul, ENNReal.toReal_mul, ENNReal.toReal_ofReal (by norm_num), ENNReal.toReal_ofReal (by norm_num),
        ENNReal.toReal_ofReal (by norm_num)]
      norm_num
    have hfin : volume (terrainPart (1 / 256) 2 1 2 (1 / 2) (fun _ _ => -(1 / 512))) ≠ ⊤ := by
      refine ne_top_of_le_ne_top (b := volume (Set.Icc (-(1 / 2) : ℝ) (1 / 2) ×ˢ (Set.Icc (-1 : ℝ) 1 ×ˢ Set.Icc (-1 : ℝ) 1))) ?_ (measure_mono ?_)
      · rw [Measure.volume_eq_prod, Measure.prod_prod, Measure.volume_eq_prod, Measure.prod_prod, Real.volume_Icc, Real.volume_Icc]
        exact ENNReal.mul_ne_top ENNReal.ofReal_ne_top (ENNReal.mul_ne_top ENNReal.ofReal_ne_top ENNReal.ofReal_ne_top)
      · rintro ⟨y, x, z⟩ ⟨⟨g1, ρ, g2, g3⟩, -⟩
        dsimp only at g1 g2 g3
        rw [radAt_profile hv g1.le] at g2
        have := radAt_mem hv g1.le
        rw [← g2] at this
        have hρ : ρ ^ 2 ≤ 1 := by nlinarith
        exact ⟨abs_le.1 g1.le, abs_le.1 (abs_le_one_iff_mul_self_le_one.2 (by nlinarith [sq_nonneg z])),
          abs_le.1 (abs_le_one_iff_mul_self_le_one.2 (by nlinarith [sq_nonneg x]))⟩
    have hle := ENNReal.toReal_mono hfin (measure_mono (μ := volume) (s := Set.Icc (-(1 / 4) : ℝ) (1 / 4) ×ˢ (Set.Icc (-(1 / 1024) : ℝ) (1 / 1024) ×ˢ
        Set.Icc (-(3 / 1024) : ℝ) (-(5 / 2048)))) (by
      rintro ⟨y, x, z⟩ ⟨⟨g1, g2⟩, ⟨g3, g4⟩, g5, g6⟩
      dsimp only at g1 g2 g3 g4 g5 g6
      have hy : |y| ≤ 1 / 4 := abs_le.2 ⟨g1, g2⟩
      refine ⟨⟨by dsimp only; linarith, _, (radAt_profile hv (by dsimp only; linarith) _).2 rfl, ?_⟩, ?_⟩
      · dsimp only
        have hs : y ^ 2 ≤ 1 / 16 := by rw [← sq_abs]; nlinarith [abs_nonneg y]
        unfold radAt
        rw [div_one, Real.rpow_two, sq_abs, ← Real.sqrt_eq_rpow, mul_pow, Real.sq_sqrt (by linarith)]
        nlinarith
      · dsimp only; linarith))
    rw [hbox] at hle
    rw [real_eps]
    refine le_trans ?_ hle
    norm_num

end Enve
