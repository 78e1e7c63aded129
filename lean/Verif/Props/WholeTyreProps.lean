import Verif.Spec.CalmTyre
import Verif.Lemmas.Riemann
import Verif.Props.AccurateProps
import Verif.Props.SegmentRoundProps
import Verif.Props.MeanProps

/-! # C117: the contact of a whole tyre with flat ground, in doubles -/

namespace Enve
open Scalar Spec B64

namespace Whole

theorem seg_lip {R d d' : ℝ} (hR : 0 ≤ R) : |segmentArea R d - segmentArea R d'| ≤ 2 * R * |d - d'| := by
  have key : ∀ a b : ℝ, a ≤ b → |segmentArea R a - segmentArea R b| ≤ 2 * R * |a - b| := by
    intro a b hab
    have h1 := segAt_lip (R := R) (h := R - b) (h' := R - a) hR (by linarith)
    have h2 := segAt_mono (R := R) (R' := R) (h := R - a) (h' := R - b) hR le_rfl (by linarith)
    rw [segAt_eq, segAt_eq, sub_sub_cancel, sub_sub_cancel] at h1 h2
    rw [abs_of_nonpos (by linarith), abs_of_nonpos (by linarith)]
    linarith
  rcases le_total d d' with h | h
  · exact key _ _ h
  · rw [abs_sub_comm, abs_sub_comm d]; exact key _ _ h

theorem seg_zero {R d : ℝ} (hR : 0 ≤ R) (h : d ≤ 0) : segmentArea R d = 0 := by
  have : circularSegment R d = ∅ := by
    ext p
    simp only [circularSegment, Set.mem_setOf_eq, Set.mem_empty_iff_false, iff_false, not_and, not_lt]
    intro h1
    have h2 : p.1 ^ 2 < R ^ 2 := by nlinarith [sq_nonneg p.2]
    have h3 : |p.1| < R := abs_lt_of_sq_lt_sq h2 hR
    have := le_abs_self p.1
    linarith
  rw [segmentArea, this]; simp

variable {ε R y w F : ℝ} {P : Affine ℝ} {o n : V3 ℝ} {r : Rib B64} {g : Flat B64} {p : Affine B64}

theorem close_rib (hε : Fine ε) (hs : SolidRib r R w) (hc : r.disk.plane.origin = ⟨fin 0, fin y, fin 0⟩) : CloseRib ε r R y w := by
  have h0 := hε.pos.le
  have cl : ∀ {e x : ℝ}, 0 ≤ e → Close e (fin x) x := fun he => ⟨_, rfl, by simpa using he⟩
  have e1 : r.disk.radius = fin R := hs.radius
  refine ⟨by rw [e1]; exact cl h0, ?_, by rw [hs.width]; exact cl h0⟩
  rw [hc]
  exact ⟨cl (by positivity), cl (by positivity), cl (by positivity)⟩

/-- The record without contact has finite entries. -/
theorem none_close (hε : Fine ε) (hs : CalmScene R y w P o n) (hr : CloseRib ε r R y w) (hp : ClosePose ε p P) :
    (∃ q : V3 ℝ, Stored3 (r.noContact p).point q ∧ Upto (2 ^ 14) q) ∧
      ∃ q : V3 ℝ, Stored3 (r.noContact p).normal q ∧ Upto 2 q := by
  have hR0 := hs.R_lo
  have hR1 := hs.R_hi
  have hpos := hε.pos
  have hhi := hε.hi
  have hRc : Close (1 * ε) r.radius R := by rw [one_mul]; exact hr.radius
  have ez : Close3 (0 * ε) (V3.ez : V3 B64) ⟨0, 0, 1⟩ := by
    rw [V3.ez, B64.zero_eq, B64.one_eq]; exact ⟨.exact 0, .exact 0, .exact 1⟩
  have uez : Upto 1 (⟨0, 0, 1⟩ : V3 ℝ) := ⟨by simp, by simp, by simp⟩
  have v : Close3 (3 * ε) (V3.smul r.radius V3.ez) (V3.smul R ⟨0, 0, 1⟩) :=
    Close3.smul hε hRc ez (A := 2) (B := 1) (by rw [abs_of_nonneg] <;> linarith) uez (by norm_num) le_rfl
      (δ := 1) (by norm_num) (by norm_num) (by norm_num)
  have hy := hs.y_le
  have ud : Upto 2 (V3.sub ⟨0, y, 0⟩ (V3.smul R ⟨0, 0, 1⟩) : V3 ℝ) := by
    simp only [V3.real_smul, V3.real_sub]
    refine ⟨by simp, by simp; linarith, ?_⟩
    simp only [mul_one, zero_sub, abs_neg]; rw [abs_of_nonneg] <;> linarith
  have d : Close3 (1030 * ε) (V3.sub r.center (V3.smul r.radius V3.ez)) (V3.sub ⟨0, y, 0⟩ (V3.smul R ⟨0, 0, 1⟩)) :=
    hr.center.sub (C := 2) hε v ud (by norm_num) (by norm_num) (by norm_num) (by norm_num)
  obtain ⟨k1, k2⟩ := Accurate.place hε hp hs.rigid hs.place d ud
  have u0 := Upto.unit hs.rigid.unit0
  have u1 := Upto.unit hs.rigid.unit1
  have u2 := Upto.unit hs.rigid.unit2
  have c0 : Close3 (1 * ε) p.linear.c0 P.linear.c0 := by rw [one_mul]; exact hp.c0
  have c1 : Close3 (1 * ε) p.linear.c1 P.linear.c1 := by rw [one_mul]; exact hp.c1
  have c2 : Close3 (1 * ε) p.linear.c2 P.linear.c2 := by rw [one_mul]; exact hp.c2
  have m : Close3 (10 * ε) (M3.mulVec p.linear V3.ez) (M3.mulVec P.linear ⟨0, 0, 1⟩) :=
    Close3.mulVec hε c0 c1 c2 ez u0 u1 u2 uez (δ := 1) (by norm_num) (by norm_num) (by norm_num) (by norm_num) (by norm_num)
  have e2 : (M3.mulVec P.linear ⟨0, 0, 1⟩ : V3 ℝ) = P.linear.c2 := by
    simp only [M3.mulVec, Scalar.real_add, Scalar.real_mul]
    ext <;> dsimp only <;> ring
  rw [e2] at m
  have fromClose : ∀ {e A B : ℝ} {a : V3 B64} {X : V3 ℝ}, Close3 e a X → Upto A X → A + e ≤ B →
      ∃ q : V3 ℝ, Stored3 a q ∧ Upto B q := by
    rintro e A B a X ⟨⟨x1, e1, d1⟩, ⟨x2, e2, d2⟩, ⟨x3, e3, d3⟩⟩ hX hB
    have key : ∀ {x X : ℝ}, |x - X| ≤ e → |X| ≤ A → |x| ≤ B := by
      intro x X h1 h2
      have := abs_add_le (x - X) X
      rw [sub_add_cancel] at this
      linarith
    exact ⟨⟨x1, x2, x3⟩, ⟨e1, e2, e3⟩, key d1 hX.x, key d2 hX.y, key d3 hX.z⟩
  refine ⟨fromClose k1 k2 ?_, fromClose m u2 ?_⟩
  · norm_num at hhi ⊢; linarith
  · norm_num at hhi ⊢; linarith

/-- The record of one rib. -/
theorem record (hε : Fine ε) (hs : CalmScene R y w P o n) (hr : SolidRib r R w) (hc : r.disk.plane.origin = ⟨fin 0, fin y, fin 0⟩)
    (hp : ClosePose ε p P) (hg : CloseFlat ε g o n) (hf : g.friction = fin F) (hF : 0 ≤ F) (hF' : F ≤ 8) {flag : Bool} {out : Output B64}
    (he : r.envelopSamplingFlat g p = (flag, out)) (hd : sunkDepth R y P o n + depthError ε R w ≤ R) :
    (∃ v, out.volume = fin v ∧ |v - w * segmentArea R (sunkDepth R y P o n)| ≤ w * (2 * R * depthError ε R w + R ^ 2 / 2 ^ 24)) ∧
    (sunkDepth R y P o n < -depthError ε R w → out = r.noContact p) ∧
    (R / 2 ^ 24 + depthError ε R w < sunkDepth R y P o n → (∃ v, out.volume = fin v ∧ 0 < v) ∧
      Close (depthError ε R w) out.depth (sunkDepth R y P o n) ∧ Close3 (2 ^ 34 * ε) out.normal n ∧
      Close3 (2 ^ 19 * ε) out.point (footAt o n (hub y P)) ∧ Close (16 * ε) out.friction F) := by
  have hR := hs.pos_R
  have hw := hs.pos_w
  have hrc := close_rib hε hr hc
  obtain ⟨d, q1, q2, q3⟩ := Accurate.all hε hs hrc hp hg hf hF hF'
  rw [he] at q2 q3
  dsimp only at q2 q3
  change |d - sunkDepth R y P o n| ≤ depthError ε R w at q1
  set D := sunkDepth R y P o n with hD
  set e := depthError ε R w with hee
  have he0 : 0 ≤ e := (abs_nonneg _).trans q1
  obtain ⟨a1, a2⟩ := abs_le.1 q1
  have hno : flag = false → out = r.noContact p := by
    intro hfl
    subst hfl
    exact Rib.envelopFlat_false (method := "sampling") (by rw [Rib.envelopFlat, if_neg (by decide), if_pos rfl, he])
  by_cases hpos : 0 < d
  · obtain ⟨k1, k2, k3, k4, k5, k6⟩ := q3 hpos
    have hseg := C113_values hr hpos.le (by linarith)
    obtain ⟨v, e1, e2, -⟩ := hseg.volume
    rw [← k6] at e1
    refine ⟨⟨v, e1, ?_⟩, fun h => absurd h (by linarith), fun h => ⟨?_, ⟨d, k1, q1⟩, ?_, k3, k4⟩⟩
    · have h3 := seg_lip (R := R) (d := d) (d' := D) hR.le
      have h4 : |w * segmentArea R d - w * segmentArea R D| ≤ w * (2 * R * e) := by
        rw [← mul_sub, abs_mul, abs_of_pos hw]
        exact mul_le_mul_of_nonneg_left (h3.trans (by nlinarith)) hw.le
      calc |v - w * segmentArea R D| ≤ |v - w * segmentArea R d| + |w * segmentArea R d - w * segmentArea R D| := abs_sub_le _ _ _
        _ ≤ w * R ^ 2 / 2 ^ 24 + w * (2 * R * e) := add_le_add e2 h4
        _ = _ := by ring
    · rw [k6]
      exact (C113_positive hw hR hseg (by linarith)).1 (by linarith)
    · refine k2.mono ?_
      have h5 : 1 / R + 1 / w ≤ 72 := by
        have h6 : 1 / R ≤ 8 := by rw [div_le_iff₀ hR]; linarith [hs.R_lo]
        have h7 : 1 / w ≤ 64 := by rw [div_le_iff₀ hw]; linarith [hs.w_lo]
        linarith
      have := hε.pos
      nlinarith
  · have hfl : flag = false := by rw [q2]; exact decide_eq_false hpos
    have hout := hno hfl
    refine ⟨⟨0, by rw [hout]; exact B64.zero_eq, ?_⟩, fun _ => hout, fun h => ?_⟩
    · rw [zero_sub, abs_neg, abs_mul, abs_of_pos hw]
      refine mul_le_mul_of_nonneg_left ?_ hw.le
      have h0 : segmentArea R D ≤ 2 * R * e := by
        by_cases hD0 : D ≤ 0
        · rw [seg_zero hR.le hD0]; positivity
        · have := (le_abs_self _).trans (seg_lip (R := R) (d := D) (d' := 0) hR.le)
          rw [seg_zero hR.le le_rfl, sub_zero, sub_zero, abs_of_pos (not_le.1 hD0)] at this
          exact this.trans (mul_le_mul_of_nonneg_left (by linarith) (by linarith))
      rw [abs_of_nonneg (show 0 ≤ segmentArea R D from ENNReal.toReal_nonneg)]
      have : 0 ≤ R ^ 2 / 2 ^ 24 := by positivity
      linarith
    · have : 0 ≤ R / 2 ^ 24 := by positivity
      linarith

/-- The errors and the volumes are of moderate size. -/
theorem moderate (hε : Fine ε) (hs : CalmScene R y w P o n) {D : ℝ} (hd : D + depthError ε R w ≤ R) :
    0 ≤ depthError ε R w ∧ depthError ε R w ≤ 1 ∧ 0 ≤ w * segmentArea R D ∧ w * segmentArea R D ≤ 8 ∧
      0 ≤ w * (2 * R * depthError ε R w + R ^ 2 / 2 ^ 24) ∧ w * (2 * R * depthError ε R w + R ^ 2 / 2 ^ 24) ≤ 8 := by
  have hR := hs.pos_R
  have hw := hs.pos_w
  have hw1 := hs.w_hi
  have hR1 := hs.R_hi
  have hq : R / w ≤ 128 := by rw [div_le_iff₀ hw]; linarith [hs.w_lo]
  have hq0 : 0 ≤ R / w := by positivity
  have hε0 := hε.pos
  have e0 : 0 ≤ depthError ε R w := by unfold depthError; positivity
  have e1 : depthError ε R w ≤ 1 := by
    unfold depthError
    calc 2 ^ 28 * (1 + R / w) * ε ≤ 2 ^ 28 * 129 * (1 / 2 ^ 40) :=
          mul_le_mul (by linarith) hε.hi hε0.le (by norm_num)
      _ ≤ 1 := by norm_num
  have s0 : 0 ≤ segmentArea R D := ENNReal.toReal_nonneg
  have s1 : segmentArea R D ≤ 8 := by
    by_cases hD0 : D ≤ 0
    · rw [seg_zero hR.le hD0]; norm_num
    · have := (le_abs_self _).trans (seg_lip (R := R) (d := D) (d' := 0) hR.le)
      rw [seg_zero hR.le le_rfl, sub_zero, sub_zero, abs_of_pos (not_le.1 hD0)] at this
      nlinarith [not_le.1 hD0]
  have t0 : 0 ≤ 2 * R * depthError ε R w + R ^ 2 / 2 ^ 24 := by positivity
  have t1 : 2 * R * depthError ε R w + R ^ 2 / 2 ^ 24 ≤ 8 := by
    have h1 : R * depthError ε R w ≤ 2 * 1 := mul_le_mul hR1 e1 e0 (by norm_num)
    have h2 : R ^ 2 ≤ 4 := by nlinarith
    have h3 : R ^ 2 / 2 ^ 24 ≤ 4 := by rw [div_le_iff₀ (by norm_num)]; linarith
    linarith
  refine ⟨e0, e1, by positivity, ?_, by positivity, ?_⟩ <;> nlinarith

end Whole

/-- **C117, the volume** (partial: moderate scenes).  After a setup in doubles with the sampling method on a flat ground, no hub
being in the ground: the contact volume of the tyre is the sum over its ribs of the width times the area of the circular segment below
the ground, up to the stated errors. -/
theorem C117_volume_partial {ε : ℝ} (hε : Fine ε) (hε' : 1 / 2 ^ 49 ≤ ε) {pol : Policy} {s s' : Shell B64} {F : ℝ} {o n : V3 ℝ}
    {g : Flat B64} (hg : Flat.make (fin F) ⟨fin o.x, fin o.y, fin o.z⟩ ⟨fin n.x, fin n.y, fin n.z⟩ = .ok g)
    (hl : 1 / 2 ^ 10 ≤ length3 n) (hl' : length3 n ≤ 2 ^ 10) (hF : 0 ≤ F) (hF' : F ≤ 8) {p : Affine B64} {P : Affine ℝ}
    (hp : ClosePose ε p P) {b : Bool} (hset : s.setupFlat pol g p "sampling" = .ok s' b) (hn : s.size ≤ 2 ^ 20) {R y w : Nat → ℝ}
    (hs : CalmTyre s R y w P o ⟨n.x / length3 n, n.y / length3 n, n.z / length3 n⟩)
    (hd : ∀ i < s.size, sunkDepth (R i) (y i) P o ⟨n.x / length3 n, n.y / length3 n, n.z / length3 n⟩ +
      depthError ε (R i) (w i) ≤ R i) :
    let N : V3 ℝ := ⟨n.x / length3 n, n.y / length3 n, n.z / length3 n⟩
    let T := total s.size fun i => w i * segmentArea (R i) (sunkDepth (R i) (y i) P o N)
    let E := total s.size fun i => w i * (2 * R i * depthError ε (R i) (w i) + R i ^ 2 / 2 ^ 24)
    ∃ V, s'.contactVolume pol = .ok (fin V) ∧ |V - T| ≤ E + s.size * (T + E + 1) / 2 ^ 52 := by
  intro N T E
  obtain ⟨flags, recs, h1, -⟩ := C38_flat_flag_partial pol s s' g p "sampling" b hset
  have hribs : s'.ribs = s.ribs := (Shell.setupFlat_rel (.inl ⟨b, hset⟩)).ribs
  have hsz : s'.size = s.size := by rw [Shell.size, hribs]; rfl
  have hrep : Reports pol s' recs := Shell.reports_iff.2 fun i hi => by
    rw [hsz] at hi
    obtain ⟨r, e1, e2, e3⟩ := h1 i hi
    exact e3
  obtain ⟨hgf, hf⟩ := Accurate.flat_make hε hε' hg hl hl'
  have key : ∀ i, ∃ v, i < s.size → (recs i).volume = fin v ∧ |v - w i * segmentArea (R i) (sunkDepth (R i) (y i) P o N)| ≤
      w i * (2 * R i * depthError ε (R i) (w i) + R i ^ 2 / 2 ^ 24) := by
    intro i
    by_cases hi : i < s.size
    · obtain ⟨r, e1, e2, e3⟩ := h1 i hi
      rw [hribs] at e1
      obtain ⟨⟨v, k1, k2⟩, -⟩ := Whole.record hε (hs.scene i hi) (hs.solid i r e1) (hs.center i r e1) hp hgf hf hF hF'
        (Rib.envelopFlat_sampling_eq e2) (hd i hi)
      exact ⟨v, fun _ => ⟨k1, k2⟩⟩
    · exact ⟨0, fun h => absurd h hi⟩
  choose v hv using key
  have mod := fun i hi => Whole.moderate hε (hs.scene i hi) (hd i hi)
  have hT0 : 0 ≤ T := Finset.sum_nonneg fun i hi => (mod i (Finset.mem_range.1 hi)).2.2.1
  have hE0 : 0 ≤ E := Finset.sum_nonneg fun i hi => (mod i (Finset.mem_range.1 hi)).2.2.2.2.1
  have hnr : (s.size : ℝ) ≤ 2 ^ 20 := by exact_mod_cast hn
  have bound : ∀ x : Nat → ℝ, (∀ i < s.size, x i ≤ 8) → total s.size x ≤ 8 * 2 ^ 20 := by
    intro x hx
    calc total s.size x ≤ ∑ i ∈ Finset.range s.size, (8 : ℝ) := Finset.sum_le_sum fun i hi => hx i (Finset.mem_range.1 hi)
      _ = s.size * 8 := by rw [Finset.sum_const, Finset.card_range, nsmul_eq_mul]
      _ ≤ _ := by linarith
  have hT1 : T ≤ 8 * 2 ^ 20 := bound _ fun i hi => (mod i hi).2.2.2.1
  have hE1 : E ≤ 8 * 2 ^ 20 := bound _ fun i hi => (mod i hi).2.2.2.2.2
  have habs : ∑ i ∈ Finset.range s.size, |v i| ≤ T + E := by
    show _ ≤ total _ _ + total _ _
    unfold total
    rw [← Finset.sum_add_distrib]
    refine Finset.sum_le_sum fun i hi => ?_
    have hi := Finset.mem_range.1 hi
    have h2 := (hv i hi).2
    have h3 := (mod i hi).2.2.1
    have h4 := abs_add_le (v i - w i * segmentArea (R i) (sunkDepth (R i) (y i) P o N))
      (w i * segmentArea (R i) (sunkDepth (R i) (y i) P o N))
    rw [sub_add_cancel, abs_of_nonneg h3] at h4
    linarith
  obtain ⟨V, e1, e2⟩ := Mean.sum_close hn (t := fun i => (recs i).volume) (fun i hi => (hv i hi).1) habs
    (by norm_num at hT1 hE1 ⊢; linarith)
  have hvol : s'.contactVolume pol = .ok (ribSum s.size fun i => (recs i).volume) := by
    rw [Shell.contactVolume, Shell.records_of_reports hrep, Res.bind_ok, Res.pure_eq, Shell.foldl_range recs (·.volume), hsz]
  refine ⟨V, by rw [hvol, e1], ?_⟩
  have hsum : |∑ i ∈ Finset.range s.size, v i - T| ≤ E := by
    show |_ - total _ _| ≤ total _ _
    unfold total
    rw [← Finset.sum_sub_distrib]
    exact (Finset.abs_sum_le_sum_abs _ _).trans (Finset.sum_le_sum fun i hi => (hv i (Finset.mem_range.1 hi)).2)
  have h5 : 2 * (s.size : ℝ) * ((T + E) / 2 ^ 53 + 1 / 2 ^ 250) ≤ s.size * (T + E + 1) / 2 ^ 52 := by
    have h6 : (0 : ℝ) ≤ s.size := Nat.cast_nonneg _
    have h7 : 2 * ((T + E) / 2 ^ 53 + 1 / 2 ^ 250) ≤ (T + E + 1) / 2 ^ 52 := by
      have : (1 : ℝ) / 2 ^ 250 ≤ 1 / 2 ^ 53 := one_div_le_one_div_of_le (by norm_num) (pow_le_pow_right₀ (by norm_num) (by norm_num))
      calc 2 * ((T + E) / 2 ^ 53 + 1 / 2 ^ 250) ≤ 2 * ((T + E) / 2 ^ 53 + 1 / 2 ^ 53) := by linarith
        _ = _ := by ring
    calc 2 * (s.size : ℝ) * ((T + E) / 2 ^ 53 + 1 / 2 ^ 250) = s.size * (2 * ((T + E) / 2 ^ 53 + 1 / 2 ^ 250)) := by ring
      _ ≤ s.size * ((T + E + 1) / 2 ^ 52) := mul_le_mul_of_nonneg_left h7 h6
      _ = _ := by ring
  calc |V - T| ≤ |V - ∑ i ∈ Finset.range s.size, v i| + |∑ i ∈ Finset.range s.size, v i - T| := abs_sub_le _ _ _
    _ ≤ _ := by linarith

namespace Whole

/-- What the averages need to know of the record `out` of a rib. -/
structure Entry (ε R y w F : ℝ) (P : Affine ℝ) (o n : V3 ℝ) (out : Output B64) (v f d : ℝ) (q m : V3 ℝ) : Prop where
  volume : out.volume = fin v
  v0 : 0 ≤ v
  v1 : v ≤ 16
  friction : Stored out.friction f
  f1 : |f| ≤ 16
  depth : Stored out.depth d
  d1 : |d| ≤ 4
  point : Stored3 out.point q
  q1 : Upto (2 ^ 14) q
  normal : Stored3 out.normal m
  m1 : Upto 2 m
  contact : v = 0 ∨ |f - F| ≤ 16 * ε ∧ 0 < sunkDepth R y P o n ∧ |d - sunkDepth R y P o n| ≤ depthError ε R w ∧
    Upto (2 ^ 19 * ε) (V3.sub q (footAt o n (hub y P))) ∧ Upto (2 ^ 34 * ε) (V3.sub m n)

theorem of_close {e A B : ℝ} {a : V3 B64} {X : V3 ℝ} (h : Close3 e a X) (hX : Upto A X) (hB : A + e ≤ B) :
    ∃ q : V3 ℝ, Stored3 a q ∧ Upto B q ∧ Upto e (V3.sub q X) := by
  obtain ⟨⟨x1, e1, d1⟩, ⟨x2, e2, d2⟩, ⟨x3, e3, d3⟩⟩ := h
  have key : ∀ {x X : ℝ}, |x - X| ≤ e → |X| ≤ A → |x| ≤ B := by
    intro x X h1 h2
    have := abs_add_le (x - X) X
    rw [sub_add_cancel] at this
    linarith
  exact ⟨⟨x1, x2, x3⟩, ⟨e1, e2, e3⟩, ⟨key d1 hX.x, key d2 hX.y, key d3 hX.z⟩, d1, d2, d3⟩

theorem entry {ε R y w F : ℝ} {P : Affine ℝ} {o n : V3 ℝ} {r : Rib B64} {g : Flat B64} {p : Affine B64}
    (hε : Fine ε) (hs : CalmScene R y w P o n) (hr : SolidRib r R w) (hc : r.disk.plane.origin = ⟨fin 0, fin y, fin 0⟩)
    (hp : ClosePose ε p P) (hg : CloseFlat ε g o n) (hf : g.friction = fin F) (hF : 0 ≤ F) (hF' : F ≤ 8) {flag : Bool} {out : Output B64}
    (he : r.envelopSamplingFlat g p = (flag, out)) (hd : sunkDepth R y P o n + depthError ε R w ≤ R)
    (hclear : sunkDepth R y P o n < -depthError ε R w ∨ R / 2 ^ 24 + depthError ε R w < sunkDepth R y P o n) :
    ∃ v f d q m, Entry ε R y w F P o n out v f d q m := by
  obtain ⟨⟨v, v1, v2⟩, k1, k2⟩ := record hε hs hr hc hp hg hf hF hF' he hd
  obtain ⟨m0, m1, m2, m3, m4, m5⟩ := moderate hε hs hd
  have hεp := hε.pos
  have hεh := hε.hi
  have hR := hs.pos_R
  have hR2 := hs.R_hi
  have hv16 : v ≤ 16 := by have := (abs_le.1 v2).2; linarith
  rcases hclear with h | h
  · have hout := k1 h
    obtain ⟨⟨q, q1, q2⟩, ⟨m, n1, n2⟩⟩ := none_close hε hs (close_rib hε hr hc) hp
    have hv : v = 0 := by
      rw [hout] at v1
      have : (Scalar.zero : B64) = fin v := v1
      rw [B64.zero_eq] at this
      injection this with this
      injection this with this
      exact this.symm
    refine ⟨v, 0, 0, q, m, v1, hv.ge, hv16, ?_, by simp, ?_, by simp, ?_, q2, ?_, n2, .inl hv⟩
    · rw [hout]; exact B64.zero_eq
    · rw [hout]; exact B64.zero_eq
    · rw [hout]; exact q1
    · rw [hout]; exact n1
  · obtain ⟨⟨v', a1, a2⟩, ⟨d, b1, b2⟩, c1, c2, ⟨f, d1, d2⟩⟩ := k2 h
    have hvv : v' = v := by
      rw [v1] at a1
      injection a1 with this
      injection this with this
      exact this.symm
    subst hvv
    have hD : 0 < sunkDepth R y P o n := by
      have : 0 ≤ R / 2 ^ 24 := by positivity
      linarith
    have hfoot : Upto 13390 (footAt o n (hub y P)) := by
      refine Accurate.foot_upto hs.origin hs.unit hs.up ?_
      have u1 := Upto.unit hs.rigid.unit1
      have hy := hs.y_le
      have key : ∀ a c : ℝ, |a| ≤ 2 ^ 10 → |c| ≤ 1 → |a + c * y| ≤ 1030 := by
        intro a c ha hc
        have := abs_add_le a (c * y)
        rw [abs_mul] at this
        have := mul_le_mul hc hy (abs_nonneg _) zero_le_one
        norm_num at ha
        linarith
      exact ⟨key _ _ hs.place.x u1.x, key _ _ hs.place.y u1.y, key _ _ hs.place.z u1.z⟩
    obtain ⟨q, q1, q2, q3⟩ := of_close (B := 2 ^ 14) c2 hfoot (by norm_num at hεh ⊢; linarith)
    obtain ⟨m, n1, n2, n3⟩ := of_close (B := 2) c1 (Upto.unit hs.unit) (by norm_num at hεh ⊢; linarith)
    refine ⟨v', f, d, q, m, v1, a2.le, hv16, d1, ?_, b1, ?_, q1, q2, n1, n2, .inr ⟨d2, hD, b2, q3, n3⟩⟩
    · have := abs_le.1 d2
      norm_num at hεh
      rw [abs_le]; constructor <;> linarith
    · have := abs_le.1 b2
      rw [abs_le]; constructor <;> linarith

theorem mean_in {V : ℝ} (hV : 1 / 2 ^ 26 ≤ V) {n : Nat} {v x : Nat → ℝ} (hv : ∀ i < n, 0 ≤ v i) (hp : 0 < total n v) {lo hi : ℝ}
    (hx : ∀ i < n, v i = 0 ∨ lo ≤ x i ∧ x i ≤ hi) : lo ≤ mean (1 / 2 ^ 26 ≤ V) n v x ∧ mean (1 / 2 ^ 26 ≤ V) n v x ≤ hi := by
  rw [mean, if_pos hV, le_div_iff₀ hp, div_le_iff₀ hp]
  unfold total
  rw [Finset.mul_sum, Finset.mul_sum]
  constructor <;> refine Finset.sum_le_sum fun i hi => ?_
  · rcases hx i (Finset.mem_range.1 hi) with h | h
    · rw [h]; simp
    · have := hv i (Finset.mem_range.1 hi); nlinarith [h.1]
  · rcases hx i (Finset.mem_range.1 hi) with h | h
    · rw [h]; simp
    · have := hv i (Finset.mem_range.1 hi); nlinarith [h.2]

theorem mean_near {V : ℝ} (hV : 1 / 2 ^ 26 ≤ V) {n : Nat} {v x : Nat → ℝ} (hv : ∀ i < n, 0 ≤ v i) (hp : 0 < total n v) {X e : ℝ}
    (hx : ∀ i < n, v i = 0 ∨ |x i - X| ≤ e) : |mean (1 / 2 ^ 26 ≤ V) n v x - X| ≤ e := by
  have := mean_in hV hv hp (x := x) (lo := X - e) (hi := X + e) fun i hi => (hx i hi).imp_right fun h => by
    have := abs_le.1 h
    constructor <;> linarith
  rw [abs_le]; constructor <;> linarith

theorem mean_lin {V : ℝ} (hV : 1 / 2 ^ 26 ≤ V) {n : Nat} {v x y z : Nat → ℝ} (hp : 0 < total n v) (a b c k : ℝ) :
    a * mean (1 / 2 ^ 26 ≤ V) n v x + b * mean (1 / 2 ^ 26 ≤ V) n v y + c * mean (1 / 2 ^ 26 ≤ V) n v z + k =
      mean (1 / 2 ^ 26 ≤ V) n v fun i => a * x i + b * y i + c * z i + k := by
  simp only [mean, if_pos hV]
  have e : total n (fun i => v i * (a * x i + b * y i + c * z i + k)) = a * total n (fun i => v i * x i) +
      b * total n (fun i => v i * y i) + c * total n (fun i => v i * z i) + total n v * k := by
    unfold total
    rw [Finset.mul_sum, Finset.mul_sum, Finset.mul_sum, Finset.sum_mul, ← Finset.sum_add_distrib, ← Finset.sum_add_distrib,
      ← Finset.sum_add_distrib]
    exact Finset.sum_congr rfl fun i _ => by ring
  rw [e]
  field_simp

/-- The direction of a vector close to a unit vector. -/
theorem direction_close {a N : V3 ℝ} (hN : N.x ^ 2 + N.y ^ 2 + N.z ^ 2 = 1) {δ : ℝ} (h0 : 0 ≤ δ) (h1 : δ ≤ 1 / 8)
    (h : Upto δ (V3.sub a N)) : 1 / 2 ≤ length3 a ∧
      Upto (4 * δ) (V3.sub ⟨a.x / length3 a, a.y / length3 a, a.z / length3 a⟩ N) := by
  have hnorm : ∀ v : V3 ℝ, length3 v = V3.norm v := fun v => (V3.norm_eq v).symm
  have hN1 : V3.norm N = 1 := by rw [V3.norm_eq, length3, hN, Real.sqrt_one]
  have h2 := V3.norm_sub_le a N h.x h.y h.z
  have h3 := (V3.abs_norm_sub a N).trans h2
  rw [hN1] at h3
  have hn1 := Upto.unit hN
  set ℓ := length3 a with hℓ
  rw [← hnorm a] at h3
  change |ℓ - 1| ≤ _ at h3
  obtain ⟨b1, b2⟩ := abs_le.1 h3
  have hl : 3 / 4 ≤ ℓ := by linarith
  have hl0 : 0 < ℓ := by linarith
  refine ⟨by linarith, ?_⟩
  have key : ∀ x X : ℝ, |x - X| ≤ δ → |X| ≤ 1 → |x / ℓ - X| ≤ 4 * δ := by
    intro x X hx hX
    rw [show x / ℓ - X = ((x - X) + X * (1 - ℓ)) / ℓ by field_simp; ring, abs_div, abs_of_pos hl0, div_le_iff₀ hl0]
    have e1 := abs_add_le (x - X) (X * (1 - ℓ))
    have e2 : |X * (1 - ℓ)| ≤ 1 * (2 * δ) := by
      rw [abs_mul]
      refine mul_le_mul hX ?_ (abs_nonneg _) (by norm_num)
      rw [abs_sub_comm]; linarith
    nlinarith
  exact ⟨key _ _ h.x hn1.x, key _ _ h.y hn1.y, key _ _ h.z hn1.z⟩

theorem foot_plane {o n : V3 ℝ} (hz : n.z ≠ 0) (q : V3 ℝ) :
    n.x * (footAt o n q).x + n.y * (footAt o n q).y + n.z * (footAt o n q).z - (n.x * o.x + n.y * o.y + n.z * o.z) = 0 := by
  simp only [footAt]
  field_simp
  ring

end Whole

/-- **C117, the contact** (partial: moderate scenes; no rib within the error bounds of touching the ground).  The tyre reports the
friction of the ground, the normal of the ground, a contact point on the ground, and a depth between the smallest and the largest depth
of the ribs that reach the ground, all up to the stated errors; ribs without contact have no influence. -/
theorem C117_contact_partial {ε : ℝ} (hε : Fine ε) (hε' : 1 / 2 ^ 49 ≤ ε) {pol : Policy} {s s' : Shell B64} {F : ℝ} {o n : V3 ℝ}
    {g : Flat B64} (hg : Flat.make (fin F) ⟨fin o.x, fin o.y, fin o.z⟩ ⟨fin n.x, fin n.y, fin n.z⟩ = .ok g)
    (hl : 1 / 2 ^ 10 ≤ length3 n) (hl' : length3 n ≤ 2 ^ 10) (hF : 0 ≤ F) (hF' : F ≤ 8) {p : Affine B64} {P : Affine ℝ}
    (hp : ClosePose ε p P) {b : Bool} (hset : s.setupFlat pol g p "sampling" = .ok s' b) (h1 : 1 ≤ s.size) (hn : s.size ≤ 2 ^ 20)
    {R y w : Nat → ℝ} (hs : CalmTyre s R y w P o ⟨n.x / length3 n, n.y / length3 n, n.z / length3 n⟩) :
    let N : V3 ℝ := ⟨n.x / length3 n, n.y / length3 n, n.z / length3 n⟩
    let D := fun i => sunkDepth (R i) (y i) P o N
    let e := fun i => depthError ε (R i) (w i)
    (∀ i < s.size, D i + e i ≤ R i) → (∀ i < s.size, D i < -e i ∨ R i / 2 ^ 24 + e i < D i) →
    ∀ V, s'.contactVolume pol = .ok (fin V) → 1 / 2 ^ 26 ≤ V →
    (∃ f, s'.contactFriction pol = .ok (fin f) ∧ |f - F| ≤ 16 * ε + s.size / 2 ^ 46) ∧
    (∃ m, s'.contactNormal pol = .ok m ∧ Close3 (2 ^ 36 * ε + s.size / 2 ^ 46) m N) ∧
    (∃ q : V3 ℝ, s'.contactPoint pol = .ok ⟨fin q.x, fin q.y, fin q.z⟩ ∧ |dot3 N (minus q o)| ≤ 2 ^ 21 * ε + s.size / 2 ^ 34) ∧
    (∀ lo hi, (∀ i < s.size, 0 < D i → lo ≤ D i - e i ∧ D i + e i ≤ hi) →
      ∃ d, s'.contactDepth pol = .ok (fin d) ∧ lo - s.size / 2 ^ 48 ≤ d ∧ d ≤ hi + s.size / 2 ^ 48) := by
  intro N D e hdeep hclear V hV hV26
  obtain ⟨flags, recs, hrec, -⟩ := C38_flat_flag_partial pol s s' g p "sampling" b hset
  have hribs : s'.ribs = s.ribs := (Shell.setupFlat_rel (.inl ⟨b, hset⟩)).ribs
  have hsz : s'.size = s.size := by rw [Shell.size, hribs]; rfl
  have hrep : Reports pol s' recs := Shell.reports_iff.2 fun i hi => by
    rw [hsz] at hi
    obtain ⟨r, e1, e2, e3⟩ := hrec i hi
    exact e3
  obtain ⟨hgf, hf⟩ := Accurate.flat_make hε hε' hg hl hl'
  have key : ∀ i, ∃ v f d q m, i < s.size → Whole.Entry ε (R i) (y i) (w i) F P o N (recs i) v f d q m := by
    intro i
    by_cases hi : i < s.size
    · obtain ⟨r, e1, e2, e3⟩ := hrec i hi
      rw [hribs] at e1
      obtain ⟨v, f, d, q, m, h⟩ := Whole.entry hε (hs.scene i hi) (hs.solid i r e1) (hs.center i r e1) hp hgf hf hF hF'
        (Rib.envelopFlat_sampling_eq e2) (hdeep i hi) (hclear i hi)
      exact ⟨v, f, d, q, m, fun _ => h⟩
    · exact ⟨0, 0, 0, ⟨0, 0, 0⟩, ⟨0, 0, 0⟩, fun h => absurd h hi⟩
  choose v f d q m hE using key
  have hv0 : ∀ i < s.size, 0 ≤ v i := fun i hi => (hE i hi).v0
  have hnr : (s.size : ℝ) ≤ 2 ^ 20 := by exact_mod_cast hn
  have ht60 : total s.size v ≤ 2 ^ 60 := by
    calc total s.size v ≤ ∑ i ∈ Finset.range s.size, (16 : ℝ) := Finset.sum_le_sum fun i hi => (hE i (Finset.mem_range.1 hi)).v1
      _ = s.size * 16 := by rw [Finset.sum_const, Finset.card_range, nsmul_eq_mul]
      _ ≤ _ := by linarith [show (2 : ℝ) ^ 20 * 16 ≤ 2 ^ 60 by norm_num]
  have hstv : ∀ i < s'.size, Stored (recs i).volume (v i) ∧ 0 ≤ v i := fun i hi => by
    rw [hsz] at hi
    exact ⟨(hE i hi).volume, (hE i hi).v0⟩
  have same : ∀ {V'}, s'.contactVolume pol = .ok (fin V') → V' = V := by
    intro V' h
    rw [hV] at h
    injection h with h
    injection h with h
    injection h with h
    exact h.symm
  have avg : ∀ {B : ℝ}, 1 / 2 ^ 100 ≤ B → B ≤ 2 ^ 100 → _ := fun {B} hB0 hB1 =>
    C112_average (B := B) hrep (by rw [hsz]; exact h1) (by rw [hsz]; exact hn) hstv (by rw [hsz]; exact ht60) hB0 hB1
  have hpos : 0 < total s.size v := by
    obtain ⟨V', a1, a2, -⟩ := avg (B := 1) (by norm_num) (by norm_num)
    rw [same a1, hsz] at a2
    have ht0 : 0 ≤ total s.size v := Finset.sum_nonneg fun i hi => hv0 i (Finset.mem_range.1 hi)
    by_contra hc
    have : total s.size v = 0 := le_antisymm (not_lt.1 hc) ht0
    rw [this] at a2
    have := (abs_le.1 a2).2
    norm_num at this hV26
    linarith
  refine ⟨?_, ?_, ?_, ?_⟩
  · obtain ⟨V', a1, -, a2, -⟩ := avg (B := 16) (by norm_num) (by norm_num)
    obtain ⟨x, b1, b2⟩ := a2 f fun i hi => by rw [hsz] at hi; exact ⟨(hE i hi).friction, (hE i hi).f1⟩
    rw [same a1, hsz] at b2
    refine ⟨x, b1, ?_⟩
    have := Whole.mean_near hV26 hv0 hpos (x := f) (X := F) (e := 16 * ε) fun i hi => (hE i hi).contact.imp_right fun h => h.1
    calc |x - F| ≤ |x - mean (1 / 2 ^ 26 ≤ V) s.size v f| + |mean (1 / 2 ^ 26 ≤ V) s.size v f - F| := abs_sub_le _ _ _
      _ ≤ s.size * 16 / 2 ^ 50 + 16 * ε := add_le_add b2 this
      _ = _ := by ring
  · obtain ⟨V', a1, a2⟩ := C112_normal (N := m) hrep (by rw [hsz]; exact h1) (by rw [hsz]; exact hn) hstv (by rw [hsz]; exact ht60)
      fun i hi => by rw [hsz] at hi; exact ⟨(hE i hi).normal, (hE i hi).m1⟩
    rw [same a1, hsz] at a2
    have hu : N.x ^ 2 + N.y ^ 2 + N.z ^ 2 = 1 := (hs.scene 0 h1).unit
    have hδ : 2 ^ 34 * ε ≤ 1 / 8 := by have := hε.hi; norm_num at this ⊢; linarith
    have hδ0 : 0 ≤ 2 ^ 34 * ε := by have := hε.pos; positivity
    obtain ⟨c1, c2⟩ := Whole.direction_close (a := ⟨mean (1 / 2 ^ 26 ≤ V) s.size v fun i => (m i).x,
        mean (1 / 2 ^ 26 ≤ V) s.size v fun i => (m i).y, mean (1 / 2 ^ 26 ≤ V) s.size v fun i => (m i).z⟩) hu hδ0 hδ
      ⟨Whole.mean_near hV26 hv0 hpos fun i hi => (hE i hi).contact.imp_right fun h => h.2.2.2.2.x,
       Whole.mean_near hV26 hv0 hpos fun i hi => (hE i hi).contact.imp_right fun h => h.2.2.2.2.y,
       Whole.mean_near hV26 hv0 hpos fun i hi => (hE i hi).contact.imp_right fun h => h.2.2.2.2.z⟩
    obtain ⟨mm, b1, b2⟩ := a2 c1
    refine ⟨mm, b1, ?_⟩
    have tri : ∀ {z : B64} {X Y : ℝ}, Close (s.size / 2 ^ 46) z X → |X - Y| ≤ 4 * (2 ^ 34 * ε) →
        Close (2 ^ 36 * ε + s.size / 2 ^ 46) z Y := by
      rintro z X Y ⟨x, e1, e2⟩ hXY
      refine ⟨x, e1, (abs_sub_le x X Y).trans ?_⟩
      calc |x - X| + |X - Y| ≤ s.size / 2 ^ 46 + 4 * (2 ^ 34 * ε) := add_le_add e2 hXY
        _ = _ := by ring
    exact ⟨tri b2.x c2.x, tri b2.y c2.y, tri b2.z c2.z⟩
  · obtain ⟨V', a1, -, -, a2, -⟩ := avg (B := 2 ^ 14) (by norm_num) (by norm_num)
    obtain ⟨x, b1, b2, b3, b4⟩ := a2 q fun i hi => by rw [hsz] at hi; exact ⟨(hE i hi).point, (hE i hi).q1⟩
    rw [same a1, hsz] at b2 b3 b4
    refine ⟨x, b1, ?_⟩
    have hsc := hs.scene 0 h1
    have hu := Upto.unit hsc.unit
    have hz : N.z ≠ 0 := by have : 1 / 2 ≤ N.z := hsc.up; intro h0; rw [h0] at this; norm_num at this
    have hlin := Whole.mean_lin hV26 (x := fun i => (q i).x) (y := fun i => (q i).y) (z := fun i => (q i).z) hpos N.x N.y N.z
      (-(N.x * o.x + N.y * o.y + N.z * o.z))
    have hm := Whole.mean_near hV26 hv0 hpos (X := 0) (e := 3 * (2 ^ 19 * ε))
      (x := fun i => N.x * (q i).x + N.y * (q i).y + N.z * (q i).z + -(N.x * o.x + N.y * o.y + N.z * o.z)) fun i hi =>
        (hE i hi).contact.imp_right fun h => by
          have hfp := Whole.foot_plane (o := o) (n := N) hz (hub (y i) P)
          have t : ∀ {a c k : ℝ}, |a| ≤ 1 → |c| ≤ k → |a * c| ≤ k := by
            intro a c k ha hc
            rw [abs_mul]
            exact (mul_le_mul ha hc (abs_nonneg _) zero_le_one).trans (by rw [one_mul])
          have t1 := t hu.x h.2.2.2.1.x
          have t2 := t hu.y h.2.2.2.1.y
          have t3 := t hu.z h.2.2.2.1.z
          simp only [V3.real_sub] at t1 t2 t3
          rw [show N.x * (q i).x + N.y * (q i).y + N.z * (q i).z + -(N.x * o.x + N.y * o.y + N.z * o.z) - 0 =
            N.x * ((q i).x - (footAt o N (hub (y i) P)).x) + N.y * ((q i).y - (footAt o N (hub (y i) P)).y) +
              N.z * ((q i).z - (footAt o N (hub (y i) P)).z) by linear_combination hfp]
          exact (abs_add_three _ _ _).trans (by linarith)
    rw [← hlin, sub_zero] at hm
    set X := mean (1 / 2 ^ 26 ≤ V) s.size v fun i => (q i).x with hX
    set Y := mean (1 / 2 ^ 26 ≤ V) s.size v fun i => (q i).y with hY
    set Z := mean (1 / 2 ^ 26 ≤ V) s.size v fun i => (q i).z with hZ
    have t : ∀ {a c k : ℝ}, |a| ≤ 1 → |c| ≤ k → |a * c| ≤ k := by
      intro a c k ha hc
      rw [abs_mul]
      exact (mul_le_mul ha hc (abs_nonneg _) zero_le_one).trans (by rw [one_mul])
    have t1 := t hu.x b2
    have t2 := t hu.y b3
    have t3 := t hu.z b4
    rw [show dot3 N (minus x o) = (N.x * (x.x - X) + N.y * (x.y - Y) + N.z * (x.z - Z)) +
      (N.x * X + N.y * Y + N.z * Z + -(N.x * o.x + N.y * o.y + N.z * o.z)) by simp only [dot3, minus]; ring]
    have hsp : (0 : ℝ) ≤ s.size := Nat.cast_nonneg _
    have hεp := hε.pos
    calc _ ≤ _ := abs_add_le _ _
      _ ≤ 3 * (s.size * 2 ^ 14 / 2 ^ 50) + 3 * (2 ^ 19 * ε) := add_le_add ((abs_add_three _ _ _).trans (by linarith)) hm
      _ ≤ _ := by norm_num; linarith
  · intro lo hi hD
    obtain ⟨V', a1, -, -, -, a2⟩ := avg (B := 4) (by norm_num) (by norm_num)
    rw [same a1, hsz] at a2
    obtain ⟨x, b1, b2⟩ := a2 hV26 d fun i hi => ⟨(hE i hi).depth, (hE i hi).d1⟩
    have hm := Whole.mean_in hV26 hv0 hpos (x := d) (lo := lo) (hi := hi) fun i hi' => (hE i hi').contact.imp_right fun h => by
      obtain ⟨l1, l2⟩ := hD i hi' h.2.1
      obtain ⟨k1, k2⟩ := abs_le.1 h.2.2.1
      simp only [D, e] at l1 l2
      constructor <;> linarith
    obtain ⟨k1, k2⟩ := abs_le.1 b2
    have e4 : (s.size : ℝ) * 4 / 2 ^ 50 = s.size / 2 ^ 48 := by ring
    rw [e4] at k1 k2
    exact ⟨x, b1, by linarith, by linarith⟩

end Enve
