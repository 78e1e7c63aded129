import Verif.Spec.GroundVolume
import Verif.Props.CutProps
import Verif.Props.VolumeProps
import Verif.Props.WholeTyreProps
import Verif.Props.BuildRadiusProps

/-! # C121: the contact volume in doubles and the volume of the part of the tyre below the ground -/

namespace Enve

open Scalar Spec B64

namespace Ground

/-- In its own plane the centre of a rib is as far from the ground as its height says. -/
theorem cut_dist {M R y : ℝ} {P : Affine ℝ} {o n : V3 ℝ} (hs : CutScene M R y P o n) :
    dist3 (hub y P) (nearCut y P o n) =
      |dot3 (minus P.trans o) n + y * dot3 n P.linear.c1| / √(1 - dot3 n P.linear.c1 ^ 2) := by
  have hn := hs.unit
  have hN : P.linear.c1.x ^ 2 + P.linear.c1.y ^ 2 + P.linear.c1.z ^ 2 = 1 := hs.rigid.unit1
  have k := Cut.k_lo hs.side
  have k0 : (0 : ℝ) < 1 - dot3 n P.linear.c1 ^ 2 := by linarith
  rw [← Real.sqrt_sq_eq_abs, ← Real.sqrt_div (sq_nonneg _), dist3]
  congr 1
  obtain ⟨t, ht⟩ : ∃ t, t = dot3 n ⟨o.x - (hub y P).x, o.y - (hub y P).y, o.z - (hub y P).z⟩ / (1 - dot3 n P.linear.c1 ^ 2) := ⟨_, rfl⟩
  have hQ : nearCut y P o n = ⟨(hub y P).x + t * (n.x - dot3 n P.linear.c1 * P.linear.c1.x),
      (hub y P).y + t * (n.y - dot3 n P.linear.c1 * P.linear.c1.y), (hub y P).z + t * (n.z - dot3 n P.linear.c1 * P.linear.c1.z)⟩ := by
    rw [ht]; rfl
  have hH : dot3 (minus P.trans o) n + y * dot3 n P.linear.c1 = -(t * (1 - dot3 n P.linear.c1 ^ 2)) := by
    rw [ht, div_mul_cancel₀ _ k0.ne']
    simp only [dot3, minus, hub]; ring
  rw [hH, hQ, eq_div_iff k0.ne']
  dsimp only
  have e : dot3 n P.linear.c1 = n.x * P.linear.c1.x + n.y * P.linear.c1.y + n.z * P.linear.c1.z := rfl
  generalize dot3 n P.linear.c1 = s at *
  have : (t * (n.x - s * P.linear.c1.x)) ^ 2 + (t * (n.y - s * P.linear.c1.y)) ^ 2 + (t * (n.z - s * P.linear.c1.z)) ^ 2 =
      t ^ 2 * (1 - s ^ 2) := by linear_combination t ^ 2 * hn + t ^ 2 * s ^ 2 * hN + 2 * t ^ 2 * s * e
  linear_combination (1 - s ^ 2) * this

theorem mul_nan (a : B64) : a *. Scalar.nan = Scalar.nan := by
  show B64.round (a.val *. XR.nan) = _; rw [XR.mul_nan]; rfl
theorem nan_sub (a : B64) : Scalar.nan -. a = Scalar.nan := by
  show B64.round (XR.nan -. a.val) = _; rw [XR.nan_sub]; rfl

/-- Of a negative depth comes no number, or zero. -/
theorem negative {R w d : ℝ} (hRep : Rep R) (hR : 1 / 8 ≤ R) (hR' : R ≤ 2) (hd : d < 0) (hd' : -16 ≤ d) :
    Rib.depthVolume (fin R) (fin w) (fin d) = Scalar.nan ∨ Rib.depthVolume (fin R) (fin w) (fin d) = fin 0 := by
  have h2R : fin 2 *. fin R = fin (near (2 * R)) := by
    rw [mul_fin, round_near (k := 2) (by norm_num) (by rw [abs_of_nonneg (by linarith)]; linarith)]
  have h2 := near_abs (x := 2 * R) (k := 2) (by rw [abs_of_nonneg (by linarith)]; linarith)
  have h20 : 0 ≤ near (2 * R) := near_neg_le rep_zero (by linarith)
  rw [abs_of_nonneg h20] at h2
  have h3 : |near (2 * R) - d| ≤ 2 ^ 5 := by rw [abs_of_nonneg (by linarith)]; linarith
  have h30 : 0 ≤ near (near (2 * R) - d) := near_neg_le rep_zero (by linarith)
  have h4 := near_abs h3
  rw [abs_of_nonneg h30] at h4
  have h5 : |d * near (near (2 * R) - d)| ≤ 2 ^ 9 := by
    rw [abs_mul, abs_of_neg hd, abs_of_nonneg h30]; nlinarith
  have h50 : near (d * near (near (2 * R) - d)) ≤ 0 := near_le rep_zero (by nlinarith)
  have hR2 : |R * R| ≤ 2 ^ 2 := by rw [abs_of_nonneg (by nlinarith)]; nlinarith
  have hRd : |R - d| ≤ 2 ^ 5 := by rw [abs_of_nonneg (by linarith)]; linarith
  have hRd0 : R ≤ near (R - d) := near_neg_le hRep (by linarith)
  have hRd1 := near_abs hRd
  rw [abs_of_nonneg (by linarith)] at hRd1
  have hq : |near (R - d) / R| ≤ 2 ^ 8 := by
    rw [abs_of_nonneg (by apply div_nonneg <;> linarith), div_le_iff₀ (by linarith)]; nlinarith
  have hq1 : 1 ≤ near (near (R - d) / R) := near_neg_le rep_one (by rw [le_div_iff₀ (by linarith)]; linarith)
  have e1 : fin (near (2 * R)) -. fin d = fin (near (near (2 * R) - d)) := by rw [sub_fin, round_near (by norm_num) h3]
  have e2 : fin d *. fin (near (near (2 * R) - d)) = fin (near (d * near (near (2 * R) - d))) := by
    rw [mul_fin, round_near (by norm_num) h5]
  have e3 : fin R *. fin R = fin (near (R * R)) := by rw [mul_fin, round_near (by norm_num) hR2]
  have e4 : fin R -. fin d = fin (near (R - d)) := by rw [sub_fin, round_near (by norm_num) hRd]
  have e5 : fin (near (R - d)) /. fin R = fin (near (near (R - d) / R)) := by
    rw [div_fin _ (by linarith), round_near (by norm_num) hq]
  have z : B64.round (.fin 0) = fin 0 := by rw [round_near (k := 0) (by norm_num) (by norm_num), near_zero]
  rw [Rib.depthVolume, B64.two_eq, h2R, e1, e2, e3, e4, e5]
  rcases h50.lt_or_eq with h | h
  · left
    rw [Cut.sqrt_neg h, mul_nan, Cut.sub_nan, Cut.nan_mul]
  · rw [h, sqrt_fin le_rfl, Real.sqrt_zero, z, mul_fin (near (R - d)), mul_zero, z]
    have hac : Scalar.acos (fin (near (near (R - d) / R))) = B64.round (if -1 ≤ near (near (R - d) / R) ∧ near (near (R - d) / R) ≤ 1
      then .fin (Real.arccos (near (near (R - d) / R))) else .nan) := rfl
    rcases hq1.lt_or_eq with h1 | h1
    · left
      rw [hac, if_neg (by intro h; linarith [h.2]), show B64.round XR.nan = Scalar.nan from rfl, mul_nan, nan_sub, Cut.nan_mul]
    · right
      rw [hac, if_pos ⟨by linarith, h1.symm.le⟩, ← h1, Real.arccos_one, z, mul_fin, mul_zero, z, sub_fin, sub_zero, z, mul_fin,
        zero_mul, z]

theorem ribs_axis {shape : Shape B64} {w : B64} : ∀ (k i : Nat) (y : B64) (acc : List (Rib B64)),
    (∀ r ∈ acc, r.disk.plane.normal = V3.ey) → ∀ out, Shell.resizeLoop shape w k i y acc = .ok out () →
    ∀ r ∈ out, r.disk.plane.normal = V3.ey := by
  intro k
  induction k with
  | zero => intro i y acc h out he; cases he; exact h
  | succ k ih =>
    intro i y acc h out he
    rw [Shell.resizeLoop] at he
    split at he
    · rename_i r hr
      refine ih _ _ _ (fun q hq => ?_) out he
      rcases List.mem_append.1 hq with hq | hq
      · exact h q hq
      · rw [List.mem_singleton] at hq
        subst hq
        simp only [Res.bind_eq_ok] at hr
        obtain ⟨_, -, _, -, _, -, _, -, _, -, hr⟩ := hr
        cases hr
        rfl
    · cases he
    · cases he

theorem make_axis {fresh : Nat → Output B64} {n : Nat} {rx mx ry my ly : B64} {s : Shell B64}
    (h : Shell.make fresh n rx mx ry my ly = .ok s) : ∀ r ∈ s.ribs, r.disk.plane.normal = V3.ey := by
  rw [Shell.make] at h
  split at h
  · rename_i s1 _ h1
    cases h
    rw [Shell.resize] at h1
    split at h1
    · cases h1
    · dsimp only at h1
      split at h1
      · rename_i ribs _ h2
        cases h1
        exact ribs_axis _ _ _ _ (by simp) _ h2
      · cases h1
      · cases h1
  · cases h
  · cases h

theorem geometric_volume (r : Rib B64) (g : Flat B64) (p : Affine B64) :
    ((r.envelopGeometricFlat g p).1 = true →
      (r.envelopGeometricFlat g p).2.volume = Rib.depthVolume r.radius r.width (r.envelopGeometricFlat g p).2.depth) ∧
    ((r.envelopGeometricFlat g p).1 = false → (r.envelopGeometricFlat g p).2.volume = fin 0) := by
  unfold Rib.envelopGeometricFlat
  split
  · simp [Rib.noContact, B64.zero_eq]
  · dsimp only
    split
    · simp
    · simp [Rib.noContact, B64.zero_eq]

theorem small {ε M : ℝ} (hε : Fine ε) (hM : Extent M) : M ^ 2 * ε ≤ 1 / 2 ^ 20 := by
  have h0 := hM.lo
  have h1 : M ^ 2 * ε ≤ 2 ^ 20 * (1 / 2 ^ 40) := mul_le_mul (by nlinarith [hM.hi]) hε.hi hε.pos.le (by positivity)
  exact h1.trans (by norm_num)

/-- The volume one rib reports. -/
theorem record {ε : ℝ} (hε : Fine ε) {M R y w : ℝ} (hM : Extent M) {P : Affine ℝ} {o n : V3 ℝ} (hs : CutScene M R y P o n)
    {r : Rib B64} {g : Flat B64} {p : Affine B64} (hr : SolidRib r R w)
    (hc : r.disk.plane.origin = ⟨fin 0, fin y, fin 0⟩) (ha : r.disk.plane.normal = V3.ey)
    (hp : CutPose M ε p P) (hg : CutFlat M ε g o n) (hlow : 2 ^ 17 * M * ε ≤ dist3 (hub y P) (nearCut y P o n)) :
    let e := (2 ^ 19 * M ^ 2 * ε + 1 / 2 ^ 25) / R
    let D := cutDepth R y P o n
    let v := (r.envelopGeometricFlat g p).2.volume
    (v = Scalar.nan ∨ ∃ x, v = fin x ∧ |x - w * segmentArea R D| ≤ w * (2 ^ 20 * M ^ 2 * ε + 1 / 2 ^ 21)) ∧
    (e ≤ D ∨ D < -e → v ≠ Scalar.nan) := by
  intro e D v
  have hp0 := hε.pos
  have hM0 := hM.lo
  have hMε : 0 ≤ M * ε := by positivity
  have hRlo := hs.R_lo
  have hRhi := hs.R_hi
  have hR : 0 < R := by linarith
  have hw0 : 0 < w := by have := hr.w_lo; linarith [show (0:ℝ) < 1 / 2 ^ 20 by norm_num]
  have hnot : ∀ x, fin x ≠ (Scalar.nan : B64) := fun x h => by
    have := congrArg B64.val h; exact XR.noConfusion this
  have hrc : CutRib M ε r R y := by
    refine ⟨?_, ?_, ?_⟩
    · rw [show r.disk.radius = r.radius from rfl, hr.radius]
      exact ⟨_, rfl, by simpa using hp0.le⟩
    · rw [hc]; exact ⟨⟨_, rfl, by simpa using hMε⟩, ⟨_, rfl, by simpa using hMε⟩, ⟨_, rfl, by simpa using hMε⟩⟩
    · rw [ha]; exact (Accurate.ey_close (ε := ε)).mono (by rw [zero_mul]; exact hp0.le)
  obtain ⟨k1, k2, k3⟩ := C109_geometric_partial hε hM hs hrc hp hg
  change e ≤ D → _ at k1
  change D < -e → _ at k2
  obtain ⟨g1, g2⟩ := geometric_volume r g p
  have hDh : D = R - dist3 (hub y P) (nearCut y P o n) := rfl
  have he : e * R = 2 ^ 19 * M ^ 2 * ε + 1 / 2 ^ 25 := by simp only [e]; rw [div_mul_cancel₀ _ hR.ne']
  have hMM : 16 * (M * ε) ≤ M ^ 2 * ε := by
    rw [pow_two, mul_assoc]; exact mul_le_mul_of_nonneg_right hM0 hMε
  have hee : 2 ^ 17 * M * ε ≤ e := by
    have : 2 ^ 17 * M * ε * R ≤ e * R := by
      rw [he]
      calc 2 ^ 17 * M * ε * R = 2 ^ 17 * (M * ε) * R := by ring
        _ ≤ 2 ^ 17 * (M * ε) * 2 := mul_le_mul_of_nonneg_left hRhi (by positivity)
        _ ≤ _ := by linarith
    exact le_of_mul_le_mul_right this hR
  have bound : ∀ x, |x| ≤ e → 2 * R * |x| ≤ 2 ^ 20 * M ^ 2 * ε + 1 / 2 ^ 24 := by
    intro x hx
    calc 2 * R * |x| ≤ 2 * R * e := mul_le_mul_of_nonneg_left hx (by linarith)
      _ = 2 * (e * R) := by ring
      _ = _ := by rw [he]; ring
  have zero : D ≤ e → |(0 : ℝ) - w * segmentArea R D| ≤ w * (2 ^ 20 * M ^ 2 * ε + 1 / 2 ^ 21) := by
    intro hD
    have h1 : |segmentArea R D - 0| ≤ 2 ^ 20 * M ^ 2 * ε + 1 / 2 ^ 24 := by
      rcases le_total D 0 with h | h
      · rw [Whole.seg_zero hR.le h, sub_zero, abs_zero]; positivity
      · have := Whole.seg_lip (R := R) (d := D) (d' := 0) hR.le
        rw [Whole.seg_zero hR.le le_rfl] at this
        exact this.trans (bound _ (by rw [sub_zero, abs_of_nonneg h]; exact hD))
    rw [zero_sub, abs_neg, abs_mul, abs_of_pos hw0]
    rw [sub_zero] at h1
    exact mul_le_mul_of_nonneg_left (h1.trans (by norm_num)) hw0.le
  cases hf : (r.envelopGeometricFlat g p).1 with
  | false =>
    have hv : v = fin 0 := g2 hf
    have hD : D < e := by
      by_contra h
      have := k1 (not_lt.1 h)
      rw [hf] at this; cases this
    exact ⟨Or.inr ⟨0, hv, zero hD.le⟩, fun _ => by rw [hv]; exact hnot 0⟩
  | true =>
    obtain ⟨⟨d, hd, hdD⟩, -⟩ := k3 hf
    change |d - D| ≤ _ at hdD
    have hv := g1 hf
    rw [hd] at hv
    have hd' := abs_le.1 hdD
    rcases lt_or_ge d 0 with h | h
    · refine ⟨?_, ?_⟩
      · have hDe : -e ≤ D := by
          by_contra hh
          have := k2 (not_le.1 hh)
          rw [hf] at this; cases this
        have he5 : e ≤ 5 := by
          have h1 := small hε hM
          have h2 : e * R ≤ 5 * R := by
            rw [he]; norm_num at h1 ⊢; linarith
          exact le_of_mul_le_mul_right h2 hR
        have hbig : -16 ≤ d := by linarith
        rw [hr.radius, hr.width] at hv
        rcases negative hr.rep hRlo hRhi h hbig with h1 | h1
        · left; exact hv.trans h1
        · right; exact ⟨0, hv.trans h1, zero (by linarith)⟩
      · rintro (h1 | h1)
        · exfalso; linarith
        · have := k2 h1
          rw [hf] at this; cases this
    · obtain ⟨x, x1, x2, -⟩ := (C113_values hr h (by linarith)).volume
      have hx : v = fin x := hv.trans x1
      refine ⟨Or.inr ⟨x, hx, ?_⟩, fun _ => by rw [hx]; exact hnot x⟩
      have l1 := (Whole.seg_lip (R := R) (d := d) (d' := D) hR.le).trans (bound _ (hdD.trans hee))
      have l2 : w * R ^ 2 / 2 ^ 24 ≤ w * (4 / 2 ^ 24) := by
        rw [mul_div_assoc]
        exact mul_le_mul_of_nonneg_left (div_le_div_of_nonneg_right (by nlinarith) (by norm_num)) hw0.le
      calc |x - w * segmentArea R D| ≤ |x - w * segmentArea R d| + |w * segmentArea R d - w * segmentArea R D| := abs_sub_le _ _ _
        _ ≤ w * (4 / 2 ^ 24) + w * (2 ^ 20 * M ^ 2 * ε + 1 / 2 ^ 24) := by
            refine add_le_add (x2.trans l2) ?_
            rw [← mul_sub, abs_mul, abs_of_pos hw0]
            exact mul_le_mul_of_nonneg_left l1 hw0.le
        _ = w * (2 ^ 20 * M ^ 2 * ε + 5 / 2 ^ 24) := by ring
        _ ≤ _ := mul_le_mul_of_nonneg_left (by linarith [show (5 : ℝ) / 2 ^ 24 ≤ 1 / 2 ^ 21 by norm_num]) hw0.le

theorem disk_area {R : ℝ} (hR : 0 < R) {h : ℝ} (hh : h ≤ -R) : segAt R h = Real.pi * R ^ 2 := by
  have key : segAt R (-R) = Real.pi * R ^ 2 := by
    have := (C31_area_volume (d := 2 * R) 1 hR (by linarith) le_rfl).2
    rw [segAt_eq, show R - -R = 2 * R by ring]
    rw [one_mul] at this
    rw [← this, Rib.depthVolume]
    simp only [real_mul, real_sub, real_div, real_acos, real_sqrt, real_two]
    rw [show (R - 2 * R) / R = -1 by field_simp; ring, Real.arccos_neg_one, sub_self, mul_zero, Real.sqrt_zero]
    ring
  have : Seg R h = Seg R (-R) := by
    ext p
    simp only [Seg, Set.mem_setOf_eq]
    constructor
    · rintro ⟨a, b⟩
      refine ⟨a, ?_⟩
      have := abs_lt_of_sq_lt_sq (by nlinarith [sq_nonneg p.1, sq_nonneg p.2] : p.1 ^ 2 < R ^ 2) hR.le
      exact (abs_lt.1 this).1
    · rintro ⟨a, b⟩
      exact ⟨a, lt_of_le_of_lt hh b⟩
  rw [← key, segAt, segAt, this]

/-- The radius of a segment changed. -/
theorem seg_radius {R R' h : ℝ} (hR : 0 < R) (hR' : 0 < R') : |segAt R h - segAt R' h| ≤ 4 * (R + R') * |R - R'| := by
  have key : ∀ a b : ℝ, 0 < a → a ≤ b → |segAt a h - segAt b h| ≤ 4 * (a + b) * |a - b| := by
    intro a b ha hab
    have h1 := segAt_mono (h := h) ha.le hab le_rfl
    have h2 := segAt_radius (h := h) (h' := Min.min h (-b)) ha.le hab (min_le_left _ _)
    rw [disk_area (ha.trans_le hab) (min_le_right _ _), disk_area ha ((min_le_right _ _).trans (by linarith))] at h2
    rw [abs_of_nonpos (by linarith), abs_of_nonpos (by linarith)]
    have h3 : Real.pi * (b ^ 2 - a ^ 2) ≤ 4 * (b ^ 2 - a ^ 2) := mul_le_mul_of_nonneg_right Real.pi_le_four (by nlinarith)
    nlinarith
  rcases le_total R R' with h | h
  · exact key _ _ hR h
  · rw [abs_sub_comm, abs_sub_comm R, add_comm R]; exact key _ _ hR' h

theorem sum_nan {n : Nat} {t : Nat → B64} {k : Nat} (hk : k < n) (h : t k = Scalar.nan) : ribSum n t = Scalar.nan := by
  induction n with
  | zero => omega
  | succ n ih =>
    rw [ribSum_succ]
    rcases Nat.lt_succ_iff_lt_or_eq.1 hk with h1 | h1
    · rw [ih h1, Cut.nan_add]
    · rw [← h1, h, Cut.add_nan]

theorem combine {W w x a A κ m : ℝ} (hW : 0 < W) (hw : 0 < w) (hw2 : w ≤ 2 * W) (hw3 : w ≤ (1 + 1 / 2 ^ 52) * W)
    (hwW : |w - W| ≤ 1 / 2 ^ 52 * W) (hA0 : 0 ≤ A) (hA1 : A ≤ 8) (hκ : 0 ≤ κ) (hm : 0 ≤ 2 ^ 20 * m)
    (hx : |x - w * a| ≤ w * (2 ^ 20 * m + 1 / 2 ^ 21)) (ha : |a - A| ≤ 32 * κ) :
    |x - W * A| ≤ W * (2 ^ 21 * m + 1 / 2 ^ 20 + 64 * κ) ∧ |x| ≤ W * (8 + (2 ^ 21 * m + 1 / 2 ^ 20 + 64 * κ)) := by
  have total : |x - W * A| ≤ W * (2 ^ 21 * m + 1 / 2 ^ 20 + 64 * κ) := by
    calc |x - W * A| = |(x - w * a) + w * (a - A) + (w - W) * A| := by congr 1; ring
      _ ≤ |x - w * a| + |w * (a - A)| + |(w - W) * A| := abs_add_three _ _ _
      _ ≤ w * (2 ^ 20 * m + 1 / 2 ^ 21) + w * (32 * κ) + 1 / 2 ^ 52 * W * 8 := by
          rw [abs_mul, abs_mul, abs_of_pos hw, abs_of_nonneg hA0]
          exact add_le_add (add_le_add hx (mul_le_mul_of_nonneg_left ha hw.le)) (mul_le_mul hwW hA1 hA0 (by positivity))
      _ = w * (2 ^ 20 * m + 32 * κ) + w * (1 / 2 ^ 21) + 1 / 2 ^ 49 * W := by ring
      _ ≤ 2 * W * (2 ^ 20 * m + 32 * κ) + (1 + 1 / 2 ^ 52) * W * (1 / 2 ^ 21) + 1 / 2 ^ 49 * W := by
          refine add_le_add (add_le_add (mul_le_mul_of_nonneg_right hw2 (by positivity))
            (mul_le_mul_of_nonneg_right hw3 (by norm_num))) le_rfl
      _ = W * (2 ^ 21 * m + 64 * κ + ((1 + 1 / 2 ^ 52) * (1 / 2 ^ 21) + 1 / 2 ^ 49)) := by ring
      _ ≤ _ := by
          refine mul_le_mul_of_nonneg_left ?_ hW.le
          have : ((1 + 1 / 2 ^ 52) * (1 / 2 ^ 21) + 1 / 2 ^ 49 : ℝ) ≤ 1 / 2 ^ 20 := by norm_num
          linarith
  refine ⟨total, ?_⟩
  have := abs_add_le (x - W * A) (W * A)
  rw [sub_add_cancel, abs_of_nonneg (mul_nonneg hW.le hA0)] at this
  have h2 := mul_le_mul_of_nonneg_left hA1 hW.le
  linarith

theorem total_bound {n : Nat} (hn : 1 ≤ n) (hn' : n ≤ 2 ^ 20) {L E : ℝ} (hL : 0 < L) (hL1 : L ≤ 1) (hE0 : 0 ≤ E) (hE1 : E ≤ 40)
    {t : Nat → B64} {x a : Nat → ℝ} (hx : ∀ i < n, t i = fin (x i) ∧ |x i - 2 * L / n * a i| ≤ 2 * L / n * E ∧
      |x i| ≤ 2 * L / n * (8 + E)) :
    ∃ V, ribSum n t = fin V ∧ |V - ∑ i ∈ Finset.range n, 2 * L / n * a i| ≤ 2 * L * E + n * (2 * L * (8 + E) + 1) / 2 ^ 52 := by
  have hnp : (0 : ℝ) < n := by exact_mod_cast hn
  have habs : ∑ i ∈ Finset.range n, |x i| ≤ 2 * L * (8 + E) := by
    calc ∑ i ∈ Finset.range n, |x i| ≤ ∑ i ∈ Finset.range n, 2 * L / n * (8 + E) :=
          Finset.sum_le_sum fun i hi => (hx i (Finset.mem_range.1 hi)).2.2
      _ = n * (2 * L / n * (8 + E)) := by rw [Finset.sum_const, Finset.card_range, nsmul_eq_mul]
      _ = _ := by field_simp
  have hbig : 2 * L * (8 + E) ≤ 2 * 48 := by nlinarith
  obtain ⟨V, v1, v2⟩ := Mean.sum_close hn' (fun i hi => (hx i hi).1) habs
    (hbig.trans (le_trans (by norm_num : (2 * 48 : ℝ) ≤ 2 ^ 7) (pow_le_pow_right₀ (by norm_num) (by norm_num))))
  refine ⟨V, v1, ?_⟩
  have hsum : |∑ i ∈ Finset.range n, x i - ∑ i ∈ Finset.range n, 2 * L / n * a i| ≤ 2 * L * E := by
    rw [← Finset.sum_sub_distrib]
    calc _ ≤ ∑ i ∈ Finset.range n, 2 * L / n * E :=
          (Finset.abs_sum_le_sum_abs _ _).trans (Finset.sum_le_sum fun i hi => (hx i (Finset.mem_range.1 hi)).2.1)
      _ = n * (2 * L / n * E) := by rw [Finset.sum_const, Finset.card_range, nsmul_eq_mul]
      _ = _ := by field_simp
  have e4 : 2 * (n : ℝ) * (2 * L * (8 + E) / 2 ^ 53 + 1 / 2 ^ 250) ≤ n * (2 * L * (8 + E) + 1) / 2 ^ 52 := by
    have h7 : 2 * (2 * L * (8 + E) / 2 ^ 53 + 1 / 2 ^ 250) ≤ (2 * L * (8 + E) + 1) / 2 ^ 52 := by
      have : (1 : ℝ) / 2 ^ 250 ≤ 1 / 2 ^ 53 := one_div_le_one_div_of_le (by norm_num) (pow_le_pow_right₀ (by norm_num) (by norm_num))
      calc 2 * (2 * L * (8 + E) / 2 ^ 53 + 1 / 2 ^ 250) ≤ 2 * (2 * L * (8 + E) / 2 ^ 53 + 1 / 2 ^ 53) := by linarith
        _ = _ := by ring
    calc 2 * (n : ℝ) * (2 * L * (8 + E) / 2 ^ 53 + 1 / 2 ^ 250) = n * (2 * (2 * L * (8 + E) / 2 ^ 53 + 1 / 2 ^ 250)) := by ring
      _ ≤ n * ((2 * L * (8 + E) + 1) / 2 ^ 52) := mul_le_mul_of_nonneg_left h7 hnp.le
      _ = _ := by ring
  have a1 := abs_sub_le V (∑ i ∈ Finset.range n, x i) (∑ i ∈ Finset.range n, 2 * L / n * a i)
  linarith

end Ground

set_option maxHeartbeats 1000000 in
/-- **C121, what holds.**  The constructor builds a tyre of `n` ribs in doubles, and `setup` with the geometric method sets it on flat ground.
Then the contact volume the tyre reports is not a number, or it is the volume of the part of the tyre below the ground up to an error of
three terms: `2 L / n` times the variation of the cut area over the width, which shrinks with the number of ribs; `2 L E`, the error of the
cut areas in doubles (`M` bounds the coordinates, `ε` the error of the pose, `radiusError` the error of the rib radii); and a term for the
summation in doubles.  If no rib grazes the ground, that is if every rib is at least `e` deep or at least `e` clear, the volume is a number.
The camber is at most `3 / 5`, and the hub is above the ground. -/
theorem C121_volume_partial {ε : ℝ} (hε : Fine ε) (hε' : 1 / 2 ^ 49 ≤ ε) {M : ℝ} (hM : Extent M) {fresh : Nat → Output B64} {n : ℕ}
    (hn : 1 ≤ n) {rx mx ry my ly : B64} {Rx Mx Ry My L RL : ℝ} (hrx : IsDouble rx Rx) (hmx : IsDouble mx Mx) (hry : IsDouble ry Ry)
    (hmy : IsDouble my My) (hly : IsDouble ly L) (ht : RoadTyre Rx Mx Ry My L RL) (hpl : PlainProfile Rx Mx Ry My L)
    (hκ : radiusError Rx Mx My RL ≤ 1 / 2) (hnL : n ≤ 2 ^ 20 * L) {s s' : Shell B64} (hmake : Shell.make fresh n rx mx ry my ly = .ok s)
    {F : ℝ} {o nn : V3 ℝ} {g : Flat B64} (hg : Flat.make (fin F) ⟨fin o.x, fin o.y, fin o.z⟩ ⟨fin nn.x, fin nn.y, fin nn.z⟩ = .ok g)
    (hl : 1 / 2 ^ 10 ≤ length3 nn) (hl' : length3 nn ≤ 2 ^ 10) {p : Affine B64} {P : Affine ℝ} (hp : CutPose M ε p P) (hP : IsRigid P)
    (hplace : length3 P.trans ≤ M) (horigin : length3 o ≤ M) {pol : Policy} {b : Bool}
    (hset : s.setupFlat pol g p "geometric" = .ok s' b) :
    let N : V3 ℝ := ⟨nn.x / length3 nn, nn.y / length3 nn, nn.z / length3 nn⟩
    let camber := dot3 N P.linear.c1
    let hub := dot3 (minus P.trans o) N
    let low := (hub - |camber| * L) / √(1 - camber ^ 2)
    let E := 2 ^ 21 * M ^ 2 * ε + 1 / 2 ^ 20 + 64 * radiusError Rx Mx My RL
    |camber| ≤ 3 / 5 → 2 ^ 17 * M * ε ≤ low →
    ∃ v, s'.contactVolume pol = .ok v ∧
      (v = Scalar.nan ∨ ∃ V, v = fin V ∧ |V - sunkVolume Rx Mx Ry My L P o N| ≤
        2 * L / n * (2 * segmentArea Rx (Rx - low) + 4 * Rx * L * |camber| / √(1 - camber ^ 2)) +
        2 * L * E + n * (2 * L * (8 + E) + 1) / 2 ^ 52) ∧
      ((∀ i < n, ∀ x y z r, s.ribCenter i = .ok ⟨x, fin y, z⟩ → s.ribRadius i = .ok (fin r) →
        let e := (2 ^ 19 * M ^ 2 * ε + 1 / 2 ^ 25) / r
        e ≤ cutDepth r y P o N ∨ cutDepth r y P o N < -e) → v ≠ Scalar.nan) := by
  intro N camber hub low E hcam hlow
  have hv := ht.valid
  have hp0 := hε.pos
  have hM0 := hM.lo
  have hL := hv.ly_pos
  have hL1 := ht.L_le
  have hRx := ht.Rx_le
  have hRL := ht.RL_lo
  have hnr : (1 : ℝ) ≤ n := by exact_mod_cast hn
  have hnp : (0 : ℝ) < n := by linarith
  have hnr' : (n : ℝ) ≤ 2 ^ 20 := hnL.trans (by linarith)
  have hn' : n ≤ 2 ^ 20 := by exact_mod_cast hnr'
  obtain ⟨κ, hκd⟩ : ∃ κ, κ = radiusError Rx Mx My RL := ⟨_, rfl⟩
  have hE : E = 2 ^ 21 * M ^ 2 * ε + 1 / 2 ^ 20 + 64 * κ := by rw [hκd]
  rw [← hκd] at hκ
  have hRLx : RL = radAt Rx Mx Ry My L := (radAt_profile hv (by rw [abs_of_pos hL]) RL).1 ht.edge
  have hRLp : 0 < RL := by linarith
  have hRLq : 0 < (RL / Rx) ^ Mx := Real.rpow_pos_of_pos (div_pos hRLp hv.rx_pos) _
  have hκ0 : 0 ≤ κ := by
    rw [hκd, radiusError]
    have := hv.my_pos
    have := hv.mx_pos
    positivity
  -- the ground
  have hlen : 0 < length3 nn := lt_of_lt_of_le (by norm_num) hl
  have hunit : N.x ^ 2 + N.y ^ 2 + N.z ^ 2 = 1 := by
    have h1 : length3 nn ^ 2 = nn.x ^ 2 + nn.y ^ 2 + nn.z ^ 2 := Real.sq_sqrt (by positivity)
    simp only [N]
    rw [div_pow, div_pow, div_pow, ← add_div, ← add_div, ← h1, div_self (by positivity)]
  have hunit' : Unit3 N := hunit
  obtain ⟨hgf, -⟩ := Accurate.flat_make hε hε' hg hl hl'
  have hcf : CutFlat M ε g o N := ⟨Cut.flat_origin hε hM hg, hgf.normal⟩
  have hk : 16 / 25 ≤ 1 - camber ^ 2 := Cut.k_lo hcam
  set σ := √(1 - camber ^ 2) with hσ
  have hσ0 : 0 < σ := Real.sqrt_pos.2 (by linarith)
  have hrw : ∀ y, (hub + y * camber) / σ = hub / σ + y * (camber / σ) := fun y => by ring
  have hhm : ∀ y, |y| ≤ L → low ≤ hub / σ + y * (camber / σ) := by
    intro y hy
    rw [← hrw]
    refine div_le_div_of_nonneg_right ?_ hσ0.le
    have h1 : -(y * camber) ≤ |camber| * L := by
      refine (neg_le_abs _).trans ?_
      rw [abs_mul, mul_comm]
      exact mul_le_mul_of_nonneg_left hy (abs_nonneg _)
    linarith
  have hlow0 : 0 < low := lt_of_lt_of_le (by positivity) hlow
  -- the ribs
  obtain ⟨s1, e1, hsize, hribs⟩ := Shell.make_b64 fresh hn hn' hrx hmx hry hmy hly hv hpl
  rw [hmake] at e1
  cases e1
  have hax := Ground.make_axis hmake
  obtain ⟨flags, recs, hres, -⟩ := C38_flat_flag_partial pol s s' g p "geometric" b hset
  have hrel := Shell.setupFlat_rel (.inl ⟨_, hset⟩)
  have hsize' : s'.size = n := by rw [Shell.size, hrel.ribs]; exact hsize
  have hrep : Reports pol s' recs := by
    rw [Shell.reports_iff, hsize', ← hsize]
    intro i hi
    obtain ⟨_, -, -, e⟩ := hres i hi
    exact e
  have htot := C42_total hrep
  rw [hsize'] at htot
  have key : ∀ i, ∃ c, i < n → |c - (-L + (2 * i + 1) * L / n)| ≤ L / n ∧
      ((recs i).volume = Scalar.nan ∨ ∃ x, (recs i).volume = fin x ∧
        |x - 2 * L / n * segAt (radAt Rx Mx Ry My c) (hub / σ + c * (camber / σ))| ≤ 2 * L / n * E ∧ |x| ≤ 2 * L / n * (8 + E)) ∧
      (∃ r, s.ribCenter i = .ok ⟨fin 0, fin c, fin 0⟩ ∧ s.ribRadius i = .ok (fin r) ∧
        ((2 ^ 19 * M ^ 2 * ε + 1 / 2 ^ 25) / r ≤ cutDepth r c P o N ∨ cutDepth r c P o N < -((2 ^ 19 * M ^ 2 * ε + 1 / 2 ^ 25) / r) →
          (recs i).volume ≠ Scalar.nan)) := by
    intro i
    by_cases hi : i < n
    swap
    · exact ⟨0, fun h => absurd h hi⟩
    obtain ⟨rib, hr1, hr2, -⟩ := hres i (by rw [hsize]; exact hi)
    rw [hrel.ribs] at hr1
    have hr1' : s.ribs[i]? = some rib := hr1
    obtain ⟨c, w, r, k1, k2, k3, k4, k5, k6, k7, k8, k9, k10⟩ := hribs i hi
    have hc : rib.disk.plane.origin = ⟨fin 0, fin c, fin 0⟩ := by
      have := k1
      rw [Shell.ribCenter, Shell.ribAt, hr1'] at this; exact Res.ok.inj this
    have hw : rib.width = fin w := by
      have := k2
      rw [Shell.ribWidth, Shell.ribAt, hr1'] at this; exact Res.ok.inj this
    have hrad : rib.radius = fin r := by
      have := k3
      rw [Shell.ribRadius, Shell.ribAt, hr1'] at this; exact Res.ok.inj this
    have hir : (i : ℝ) ≤ 2 ^ 20 := by
      have : (i : ℝ) ≤ n := by exact_mod_cast hi.le
      linarith
    have htag : |c - (-L + (2 * i + 1) * L / n)| ≤ L / n := by
      refine k4.trans ?_
      rw [le_div_iff₀ hnp]
      have h1 : ((3 * i + 6 : ℝ)) * n ≤ 2 ^ 22 * 2 ^ 20 :=
        mul_le_mul (by linarith) hnr' hnp.le (by norm_num)
      calc (3 * i + 6) * (2 ^ (-52 : ℤ) * L) * n = (3 * i + 6) * n * 2 ^ (-52 : ℤ) * L := by ring
        _ ≤ 2 ^ 22 * 2 ^ 20 * 2 ^ (-52 : ℤ) * L := by gcongr
        _ ≤ 1 * L := mul_le_mul_of_nonneg_right (by norm_num) hL.le
        _ = L := one_mul _
    -- the radius
    set Rc := radAt Rx Mx Ry My c with hRc
    have hRcm := radAt_mem hv k5
    have hRcL : RL ≤ Rc := by
      rw [hRLx]; exact radAt_anti hv (by rw [abs_of_pos hL]) (by rw [abs_of_pos hL]; exact k5)
    have hRcp : 0 < Rc := by linarith
    have hx : |c| / Ry ≤ 1 - 1 / 2 ^ 21 := by
      rw [div_le_iff₀ hv.ry_pos]
      refine k9.trans ?_
      rw [mul_comm]
      exact mul_le_mul_of_nonneg_left hv.ly_le (by norm_num)
    have hx0 : 0 ≤ |c| / Ry := div_nonneg (abs_nonneg _) hv.ry_pos.le
    have hon : OnProfile Rx Mx Ry My c Rc := (radAt_profile hv k5 Rc).2 rfl
    have hpow : 1 - (|c| / Ry) ^ My = (Rc / Rx) ^ Mx := by linarith [hon.2]
    have hrerr : |r - Rc| ≤ κ * Rc := by
      have := Radius.real_err hpl.le_rx hpl.le_mx hpl.mx_le hpl.le_my hpl.my_le hx0 hx
      rw [← k10] at this
      refine this.trans (mul_le_mul_of_nonneg_right ?_ hRcp.le)
      rw [hκd, radiusError, hpow]
      have hmono : (RL / Rx) ^ Mx ≤ (Rc / Rx) ^ Mx :=
        Real.rpow_le_rpow (by have := hv.rx_pos; positivity) (div_le_div_of_nonneg_right hRcL hv.rx_pos.le) hv.mx_pos.le
      refine div_le_div_of_nonneg_right (add_le_add_left ?_ _) (by norm_num)
      exact div_le_div_of_nonneg_left (by linarith [hv.my_pos]) (mul_pos hv.mx_pos hRLq)
        (mul_le_mul_of_nonneg_left hmono hv.mx_pos.le)
    have hrlo : 1 / 8 ≤ r := by
      have := (abs_le.1 hrerr).1
      have := mul_le_mul_of_nonneg_right hκ hRcp.le
      linarith
    -- the width
    have hW0 : 0 < 2 * L / n := by positivity
    have hWlo : 1 / 2 ^ 19 ≤ 2 * L / n := by
      rw [le_div_iff₀ hnp]; linarith
    have hWhi : 2 * L / n ≤ 2 * L := by
      exact div_le_self (by linarith) hnr
    have k6' := abs_le.1 k6
    have hu : (2 : ℝ) ^ (-52 : ℤ) ≤ 1 / 2 ^ 52 := by norm_num
    have k6n : (2 : ℝ) ^ (-52 : ℤ) * (2 * L / n) ≤ 1 / 2 ^ 52 * (2 * L / n) := mul_le_mul_of_nonneg_right hu hW0.le
    have hw2 : w ≤ 2 * (2 * L / n) := by linarith
    have hsolid : SolidRib rib r w := by
      refine ⟨hrad, hw, ?_, ?_, ?_, ?_, ?_⟩
      · rw [k10]; exact rep_near _
      · exact le_trans (by norm_num) hrlo
      · exact (k8.trans hRx).trans (by norm_num)
      · have : (1 : ℝ) / 2 ^ 20 = 1 / 2 ^ 19 * (1 - 1 / 2) := by norm_num
        rw [this]
        linarith
      · exact (hw2.trans (by linarith : 2 * (2 * L / n) ≤ 4)).trans (by norm_num)
    have hscene : CutScene M r c P o N := ⟨hP, hplace, horigin, hunit, hcam, hrlo, k8.trans hRx, k5.trans hL1⟩
    have hH := hhm c k5
    have hdist : dist3 (Spec.hub c P) (nearCut c P o N) = hub / σ + c * (camber / σ) := by
      rw [Ground.cut_dist hscene]
      change |hub + c * camber| / σ = _
      rw [← hrw, abs_of_nonneg]
      have : 0 ≤ (hub + c * camber) / σ := by rw [hrw]; linarith
      by_contra hneg
      exact absurd this (not_le.2 (div_neg_of_neg_of_pos (not_le.1 hneg) hσ0))
    obtain ⟨r1, r2⟩ := Ground.record hε hM hscene hsolid hc (hax rib (List.mem_of_getElem? hr1')) hp hcf
      (by rw [hdist]; linarith)
    have hr3 : rib.envelopGeometricFlat g p = (flags i, recs i) := by
      have h := hr2
      dsimp only at h
      rw [Rib.envelopFlat, if_pos rfl] at h
      exact Res.ok.inj h
    rw [hr3] at r1 r2
    refine ⟨c, fun _ => ⟨htag, ?_, r, k1, k3, r2⟩⟩
    rcases r1 with r1 | ⟨x, x1, x2⟩
    · exact Or.inl r1
    · refine Or.inr ⟨x, x1, ?_⟩
      obtain ⟨h, hh⟩ : ∃ h, h = hub / σ + c * (camber / σ) := ⟨_, rfl⟩
      have hseg : segmentArea r (cutDepth r c P o N) = segAt r h := by rw [segAt_eq, cutDepth, hdist, hh]
      rw [hseg] at x2
      rw [← hh]
      have q1 := Ground.seg_radius (h := h) k7 hRcp
      have hRc2 : Rc ≤ 2 := hRcm.2.trans hRx
      have q2 : |segAt r h - segAt Rc h| ≤ 32 * κ := by
        refine q1.trans ?_
        have h1 : κ * Rc ≤ 2 * κ := by rw [mul_comm 2]; exact mul_le_mul_of_nonneg_left hRc2 hκ0
        calc 4 * (r + Rc) * |r - Rc| ≤ 4 * (2 + 2) * (2 * κ) :=
              mul_le_mul (by linarith [k8.trans hRx]) (hrerr.trans h1) (abs_nonneg _) (by norm_num)
          _ = 32 * κ := by ring
      have hA0 := segAt_nonneg Rc h
      have hA1 : segAt Rc h ≤ 8 := by
        refine (segAt_small hRcp.le (by rw [hh]; linarith)).trans ?_
        have : Max.max 0 (Rc ^ 2 - h ^ 2) ≤ 4 := max_le (by norm_num) (by have := pow_le_pow_left₀ hRcp.le hRc2 2; linarith [sq_nonneg h])
        linarith
      have hw0 : 0 < w := by linarith
      rw [hE]
      simp only [mul_assoc ((2 : ℝ) ^ 21), mul_assoc ((2 : ℝ) ^ 20)] at x2 ⊢
      exact Ground.combine hW0 hw0 hw2 (by linarith) (k6.trans k6n) hA0 hA1 hκ0 (by positivity) x2 q2
  choose c hc using key
  have hE0 : 0 ≤ E := by rw [hE]; positivity
  have hE1 : E ≤ 40 := by
    have h1 := Ground.small hε hM
    rw [hE, show (2 : ℝ) ^ 21 * M ^ 2 * ε = 2 ^ 21 * (M ^ 2 * ε) by ring]
    linarith
  refine ⟨_, htot, ?_, ?_⟩
  · by_cases hnan : ∃ i < n, (recs i).volume = Scalar.nan
    · obtain ⟨i, hi, he⟩ := hnan
      exact Or.inl (Ground.sum_nan hi he)
    right
    have key2 : ∀ i, ∃ x, i < n → (recs i).volume = fin x ∧
        |x - 2 * L / n * segAt (radAt Rx Mx Ry My (c i)) (hub / σ + c i * (camber / σ))| ≤ 2 * L / n * E ∧ |x| ≤ 2 * L / n * (8 + E) := by
      intro i
      by_cases hi : i < n
      · rcases (hc i hi).2.1 with h | ⟨x, h⟩
        · exact absurd ⟨i, hi, h⟩ hnan
        · exact ⟨x, fun _ => h⟩
      · exact ⟨0, fun h => absurd h hi⟩
    choose x hx using key2
    obtain ⟨V, v1, v2⟩ := Ground.total_bound hn hn' hL hL1 hE0 hE1 (t := fun i => (recs i).volume) hx
    refine ⟨V, v1, ?_⟩
    have hS0 : 0 < sinSq N P.linear.c1 := by
      change 0 < 1 - camber ^ 2
      linarith
    have hsunk := sunkVolume_eq hv hP (q := ⟨o, N⟩) hunit' hS0
    change sunkVolume Rx Mx Ry My L P o N = ∫ y in -L..L, segAt (radAt Rx Mx Ry My y) ((hub + y * camber) / σ) at hsunk
    simp only [hrw] at hsunk
    obtain ⟨W, hW, hW'⟩ := slice_variation hv hhm
    have hmid := Riemann.tagged (g := fun y => segAt (radAt Rx Mx Ry My y) (hub / σ + y * (camber / σ))) hL.le hn hW
      (t := c) (fun i hi => (hc i hi).1)
    rw [← hsunk] at hmid
    have e3 : 2 * L / n * (W L - W (-L)) ≤ 2 * L / n * (2 * segmentArea Rx (Rx - low) + 4 * Rx * L * |camber| / σ) := by
      refine mul_le_mul_of_nonneg_left (hW'.trans (le_of_eq ?_)) (by positivity)
      rw [segAt_eq, abs_div, abs_of_pos hσ0]
      ring
    have a1 := abs_sub_le V (∑ i ∈ Finset.range n, 2 * L / n * segAt (radAt Rx Mx Ry My (c i))
        (hub / σ + c i * (camber / σ))) (sunkVolume Rx Mx Ry My L P o N)
    linarith
  · intro hgr
    have key3 : ∀ i, ∃ x, i < n → (recs i).volume = fin x ∧
        |x - 2 * L / n * segAt (radAt Rx Mx Ry My (c i)) (hub / σ + c i * (camber / σ))| ≤ 2 * L / n * E ∧ |x| ≤ 2 * L / n * (8 + E) := by
      intro i
      by_cases hi : i < n
      · obtain ⟨-, h2, r, h3, h4, h5⟩ := hc i hi
        rcases h2 with h | ⟨x, h⟩
        · exact absurd h (h5 (hgr i hi _ _ _ r h3 h4))
        · exact ⟨x, fun _ => h⟩
      · exact ⟨0, fun h => absurd h hi⟩
    choose x hx using key3
    obtain ⟨V, v1, -⟩ := Ground.total_bound hn hn' hL hL1 hE0 hE1 (t := fun i => (recs i).volume) hx
    rw [v1]
    exact fun h => XR.noConfusion (congrArg B64.val h)

end Enve
