import Verif.Props.FollowProps

/-! # How a road is divided into triangles: C145 -/

namespace Enve
open Scalar Spec

namespace Retile

/-! ## The point of a section -/

/-- The distance at which the code puts the point of a section. -/
theorem bisector {R a b A B : ℝ} (ha : 0 < a) (hb : 0 < b) (haR : a ≤ R) (hbR : b ≤ R) (he : Scalar.eps ≤ a + b)
    (hA : |B - A| ≤ Real.pi) :
    Min.min R (Max.max 0 (2 * a * b / Max.max Scalar.eps (a + b) * Real.cos ((B - A) / 2))) =
      2 * a * b / (a + b) * Real.cos ((B - A) / 2) := by
  rw [max_eq_right he]
  have hab := abs_le.1 hA
  have hc0 : 0 ≤ Real.cos ((B - A) / 2) := Real.cos_nonneg_of_neg_pi_div_two_le_of_le (by linarith) (by linarith)
  have hs : 0 < a + b := by linarith
  have hq : 0 ≤ 2 * a * b / (a + b) := by positivity
  rw [max_eq_right (mul_nonneg hq hc0), min_eq_right]
  have h1 : 2 * a * b / (a + b) ≤ R := by
    rw [div_le_iff₀ hs]
    nlinarith [mul_nonneg ha.le (sub_nonneg.2 hbR), mul_nonneg hb.le (sub_nonneg.2 haR)]
  calc _ ≤ 2 * a * b / (a + b) * 1 := mul_le_mul_of_nonneg_left (Real.cos_le_one _) hq
    _ ≤ R := by rw [mul_one]; exact h1

/-- Its coordinate along an axis. -/
theorem weigh {a b A B : ℝ} (ha : 0 < a) (hb : 0 < b) :
    2 * a * b / (a + b) * Real.cos ((B - A) / 2) * Real.cos ((A + B) / 2) = (b * (a * Real.cos A) + a * (b * Real.cos B)) / (a + b) ∧
    2 * a * b / (a + b) * Real.cos ((B - A) / 2) * Real.sin ((A + B) / 2) = (b * (a * Real.sin A) + a * (b * Real.sin B)) / (a + b) := by
  have hA : A = (A + B) / 2 - (B - A) / 2 := by ring
  have hB : B = (A + B) / 2 + (B - A) / 2 := by ring
  have c1 : Real.cos A + Real.cos B = 2 * Real.cos ((A + B) / 2) * Real.cos ((B - A) / 2) := by
    conv_lhs => rw [hA, hB]
    rw [Real.cos_sub, Real.cos_add]
    ring_nf
  have s1 : Real.sin A + Real.sin B = 2 * Real.sin ((A + B) / 2) * Real.cos ((B - A) / 2) := by
    conv_lhs => rw [hA, hB]
    rw [Real.sin_sub, Real.sin_add]
    ring_nf
  have hs : a + b ≠ 0 := by positivity
  constructor
  · field_simp
    linear_combination -c1
  · field_simp
    linear_combination -s1

/-- The normal the code takes for a section between two directions, for a triangle with normal `n`: opposite to the bisector of the
directions in the plane of the rib, and as `n` across it. -/
noncomputable def sectionNormal (pose : Affine ℝ) (r : Rib ℝ) (n : V3 ℝ) (A B : ℝ) : V3 ℝ :=
  let nt := M3.mulVec pose.linear ⟨-Real.cos ((A + B) / 2), 0, -Real.sin ((A + B) / 2)⟩
  V3.normalized (V3.add nt (V3.smul (V3.dot (V3.sub n nt) (r.normalGrd pose)) (r.normalGrd pose)))

/-- The point and the normal of the contribution of a triangle cut from `(p, zp)` to `(q, zq)`: the point is on the section, and divides it
as the distances of the ends from the centre. -/
theorem contrib_point {r : Rib ℝ} (hr : IsRib r) {pose : Affine ℝ} (hpose : IsRigid pose) (t : TriangleGround ℝ) {p zp q zq : ℝ}
    (hp : zp < 0) (hq : zq < 0) (hdet : 0 < p * zq - q * zp) (hp' : p ^ 2 + zp ^ 2 ≤ r.radius ^ 2) (hq' : q ^ 2 + zq ^ 2 ≤ r.radius ^ 2)
    (hlen : Scalar.eps ≤ √((q - p) ^ 2 + (zq - zp) ^ 2)) {seg : Segment ℝ}
    (hseg : seg = ⟨ribPoint pose r p zp, ribPoint pose r q zq⟩ ∨ seg = ⟨ribPoint pose r q zq, ribPoint pose r p zp⟩)
    {c : Rib.Contrib ℝ} (hc : r.contrib pose t seg = some c) :
    c.point = ribPoint pose r ((√(q ^ 2 + zq ^ 2) * p + √(p ^ 2 + zp ^ 2) * q) / (√(p ^ 2 + zp ^ 2) + √(q ^ 2 + zq ^ 2)))
      ((√(q ^ 2 + zq ^ 2) * zp + √(p ^ 2 + zp ^ 2) * zq) / (√(p ^ 2 + zp ^ 2) + √(q ^ 2 + zq ^ 2))) ∧
    c.normal = sectionNormal pose r t.normal (Complex.arg ⟨p, zp⟩) (Complex.arg ⟨q, zq⟩) := by
  have hRot : IsRotation pose.linear := hpose
  obtain ⟨hlt, -⟩ := RoadCut.angles hp hq hdet
  have hR : 0 < r.radius := hr.radius_pos
  have nrm : ∀ x z : ℝ, ‖(⟨x, z⟩ : ℂ)‖ = √(x ^ 2 + z ^ 2) := by
    intro x z; rw [Complex.norm_def, Complex.normSq_mk]; congr 1; ring
  have c1 := Complex.norm_mul_cos_arg ⟨p, zp⟩
  have s1 := Complex.norm_mul_sin_arg ⟨p, zp⟩
  have c2 := Complex.norm_mul_cos_arg ⟨q, zq⟩
  have s2 := Complex.norm_mul_sin_arg ⟨q, zq⟩
  rw [nrm] at c1 s1 c2 s2
  dsimp only at c1 s1 c2 s2
  have a1 : Complex.arg ⟨p, zp⟩ < 0 := Complex.arg_neg_iff.2 hp
  have a2 : Complex.arg ⟨q, zq⟩ < 0 := Complex.arg_neg_iff.2 hq
  have b1 := Complex.neg_pi_lt_arg ⟨p, zp⟩
  have b2 := Complex.neg_pi_lt_arg ⟨q, zq⟩
  have hP : 0 < √(p ^ 2 + zp ^ 2) := Real.sqrt_pos.2 (by nlinarith [sq_nonneg p])
  have hQ : 0 < √(q ^ 2 + zq ^ 2) := Real.sqrt_pos.2 (by nlinarith [sq_nonneg q])
  have hPR : √(p ^ 2 + zp ^ 2) ≤ r.radius := (Real.sqrt_le_sqrt hp').trans_eq (Real.sqrt_sq hR.le)
  have hQR : √(q ^ 2 + zq ^ 2) ≤ r.radius := (Real.sqrt_le_sqrt hq').trans_eq (Real.sqrt_sq hR.le)
  have hsum : Scalar.eps ≤ √(p ^ 2 + zp ^ 2) + √(q ^ 2 + zq ^ 2) := by
    refine hlen.trans (Real.sqrt_le_iff.2 ⟨by positivity, ?_⟩)
    have e1 := Real.sq_sqrt (show 0 ≤ p ^ 2 + zp ^ 2 by positivity)
    have e2 := Real.sq_sqrt (show 0 ≤ q ^ 2 + zq ^ 2 by positivity)
    have hcs : -(p * q + zp * zq) ≤ √(p ^ 2 + zp ^ 2) * √(q ^ 2 + zq ^ 2) := by
      rw [← Real.sqrt_mul (by positivity)]
      refine Real.le_sqrt_of_sq_le ?_
      nlinarith [sq_nonneg (p * zq - q * zp)]
    nlinarith
  have hn : ∀ x z : ℝ, x ^ 2 + z ^ 2 ≤ r.radius ^ 2 → Min.min r.radius (V3.norm (⟨x, 0, z⟩ : V3 ℝ)) = √(x ^ 2 + z ^ 2) := by
    intro x z h
    have : V3.norm (⟨x, 0, z⟩ : V3 ℝ) = √(x ^ 2 + z ^ 2) := by
      rw [V3.norm_eq, length3]; congr 1; dsimp only; ring
    rw [this]
    exact min_eq_right ((Real.sqrt_le_sqrt h).trans_eq (Real.sqrt_sq hR.le))
  have hang : |Complex.arg ⟨q, zq⟩ - Complex.arg ⟨p, zp⟩| ≤ Real.pi := abs_le.2 ⟨by linarith, by linarith⟩
  have hbis := bisector hP hQ hPR hQR hsum hang
  have hbis' := bisector hQ hP hQR hPR (by rw [add_comm]; exact hsum) hang
  obtain ⟨w1, w2⟩ := weigh (A := Complex.arg ⟨p, zp⟩) (B := Complex.arg ⟨q, zq⟩) hP hQ
  rw [c1, c2] at w1
  rw [s1, s2] at w2
  have hpt : ∀ (k a b x z : ℝ), k * a = x → k * b = z →
      V3.add pose.trans (M3.mulVec pose.linear (V3.add r.center (V3.smul k ⟨a, 0, b⟩))) = ribPoint pose r x z := by
    intro k a b x z e1 e2
    simp only [ribPoint, Affine.apply, ← e1, ← e2]
    generalize r.center = c
    v3
    congr 1 <;> ring
  unfold Rib.contrib at hc
  dsimp only at hc
  rcases hseg with rfl | rfl
  · dsimp only at hc
    rw [RoadCut.back hpose, RoadCut.back hpose] at hc
    simp only [real_atan2, real_lt, real_sub, real_add, real_div, real_two, real_mul, real_cos, real_sin, real_min, real_max, real_neg,
      real_zero, decide_eq_true_eq, hn _ _ hp', hn _ _ hq', if_neg (not_lt.2 hlt.le)] at hc
    split at hc
    · cases hc
    · cases hc
      refine ⟨?_, rfl⟩
      dsimp only
      rw [hbis]
      exact hpt _ _ _ _ _ w1 w2
  · dsimp only at hc
    rw [RoadCut.back hpose, RoadCut.back hpose] at hc
    simp only [real_atan2, real_lt, real_sub, real_add, real_div, real_two, real_mul, real_cos, real_sin, real_min, real_max, real_neg,
      real_zero, decide_eq_true_eq, hn _ _ hp', hn _ _ hq', if_pos hlt] at hc
    split at hc
    · cases hc
    · cases hc
      refine ⟨?_, rfl⟩
      dsimp only
      rw [hbis']
      refine hpt _ _ _ _ _ ?_ ?_
      · rw [← w1]; ring
      · rw [← w2]; ring

/-! ## The section of a triangle of the road -/

/-- A section shorter than the tolerance is not cut. -/
theorem short {r : Rib ℝ} {pose : Affine ℝ} (hp : IsRigid pose) {xa za xb zb : ℝ} (hlen : √((xb - xa) ^ 2 + (zb - za) ^ 2) < Scalar.eps) :
    Inter.segmentDisk ⟨ribPoint pose r xa za, ribPoint pose r xb zb⟩ (r.diskGrd pose) Scalar.eps = none := by
  unfold Inter.segmentDisk
  rw [if_pos]
  simp only [Bool.or_eq_true]
  left
  have hRot : IsRotation pose.linear := hp
  simp only [Segment.isDegenerated, RoadCut.sub_point, hRot.norm_mulVec, V3.norm_eq, length3, Scalar.isApprox, real_lt, real_sub,
    real_zero, sub_zero, real_abs, decide_eq_true_eq]
  rw [abs_of_nonneg (Real.sqrt_nonneg _), show (xa - xb) ^ 2 + 0 ^ 2 + (za - zb) ^ 2 = (xb - xa) ^ 2 + (zb - za) ^ 2 by ring]
  exact hlen

/-- The section of a triangle of the road, if the code finds one: from the first to the last point of the piece in the disk. -/
theorem cut {r : Rib ℝ} (hr : IsRib r) (hrad : Scalar.eps ≤ r.radius) {pose : Affine ℝ} (hp : IsRigid pose) {road : ℝ → ℝ}
    {T : Triangle ℝ} {l u : ℝ} (h : CutOver pose r road T l u) (hc : CleanCut pose r T) (hs : ClearPiece r.radius road l u)
    {seg : Segment ℝ} (hseg : Inter.triangleDisk T (r.diskGrd pose) Scalar.eps = .ok (some seg)) :
    ∃ p q, l ≤ p ∧ p ≤ q ∧ q ≤ u ∧ (∀ x, l ≤ x → x ≤ u → (x ^ 2 + road x ^ 2 ≤ r.radius ^ 2 ↔ p ≤ x ∧ x ≤ q)) ∧
      (seg = ⟨ribPoint pose r p (road p), ribPoint pose r q (road q)⟩ ∨ seg = ⟨ribPoint pose r q (road q), ribPoint pose r p (road p)⟩) := by
  have hst := RoadCut.straight hp h
  have hd : 0 < u - l := by linarith [h.lt]
  have hroad : ∀ s, 0 ≤ s → s ≤ 1 → road (l + s * (u - l)) = road l + s * (road u - road l) := by
    intro s s0 s1
    have := hst s s0 s1
    rw [show (1 - s) * l + s * u = l + s * (u - l) by ring] at this
    rw [this]; ring
  have hsx : ∀ x, l ≤ x → x ≤ u → 0 ≤ (x - l) / (u - l) ∧ (x - l) / (u - l) ≤ 1 ∧ l + (x - l) / (u - l) * (u - l) = x := by
    intro x h1 h2
    exact ⟨div_nonneg (by linarith) hd.le, by rw [div_le_one hd]; linarith, by field_simp; ring⟩
  have hlsym : √((l - u) ^ 2 + (road l - road u) ^ 2) = √((u - l) ^ 2 + (road u - road l) ^ 2) := by congr 1; ring
  have hD2 : Scalar.eps ≤ r.radius ^ 2 * ((l - u) ^ 2 + (road l - road u) ^ 2) - (u * road l - l * road u) ^ 2 ∨
      r.radius ^ 2 * ((l - u) ^ 2 + (road l - road u) ^ 2) - (u * road l - l * road u) ^ 2 < -Scalar.eps := by
    rw [show r.radius ^ 2 * ((l - u) ^ 2 + (road l - road u) ^ 2) - (u * road l - l * road u) ^ 2 =
      r.radius ^ 2 * ((u - l) ^ 2 + (road u - road l) ^ 2) - (l * road u - u * road l) ^ 2 by ring]
    exact hs.disc
  unfold Inter.triangleDisk at hseg
  rcases RoadCut.section_eq hr hp h hc with e | e
  · rw [e, Res.bind_ok] at hseg
    have hseg := Res.ok.inj hseg
    rcases lt_or_ge √((u - l) ^ 2 + (road u - road l) ^ 2) Scalar.eps with hlen | hlen
    · rw [short hp hlen] at hseg; cases hseg
    rcases RoadCut.segmentDisk_eq hr hp hrad hlen hs.disc with ⟨e2, -⟩ | ⟨s0, s1, h0, h01, h1, e2, hin⟩
    · rw [e2] at hseg; cases hseg
    · have hs0 := hroad s0 h0 (h01.trans h1)
      have hs1 := hroad s1 (h0.trans h01) h1
      refine ⟨l + s0 * (u - l), l + s1 * (u - l), by linarith [mul_nonneg h0 hd.le],
        by linarith [mul_le_mul_of_nonneg_right h01 hd.le], by linarith [mul_nonneg (show 0 ≤ 1 - s1 by linarith) hd.le], ?_, .inl ?_⟩
      · intro w w1 w2
        obtain ⟨g0, g1, ge⟩ := hsx w w1 w2
        have := hin _ g0 g1
        beta_reduce at this
        rw [← hroad _ g0 g1, ge] at this
        rw [this, le_div_iff₀ hd, div_le_iff₀ hd]
        constructor <;> rintro ⟨a, b⟩ <;> constructor <;> linarith
      · rw [hs0, hs1]
        exact Option.some.inj (hseg.symm.trans e2)
  · rw [e, Res.bind_ok] at hseg
    have hseg := Res.ok.inj hseg
    rcases lt_or_ge √((l - u) ^ 2 + (road l - road u) ^ 2) Scalar.eps with hlen | hlen
    · rw [short hp hlen] at hseg; cases hseg
    rcases RoadCut.segmentDisk_eq hr hp hrad hlen hD2 with ⟨e2, -⟩ | ⟨s0, s1, h0, h01, h1, e2, hin⟩
    · rw [e2] at hseg; cases hseg
    · have hs0 := hroad (1 - s0) (by linarith) (by linarith)
      have hs1 := hroad (1 - s1) (by linarith) (by linarith)
      refine ⟨l + (1 - s1) * (u - l), l + (1 - s0) * (u - l), by linarith [mul_nonneg (show 0 ≤ 1 - s1 by linarith) hd.le],
        by linarith [mul_le_mul_of_nonneg_right h01 hd.le], by linarith [mul_nonneg h0 hd.le], ?_, .inr ?_⟩
      · intro w w1 w2
        obtain ⟨g0, g1, ge⟩ := hsx w w1 w2
        have := hin (1 - (w - l) / (u - l)) (by linarith) (by linarith)
        beta_reduce at this
        rw [show u + (1 - (w - l) / (u - l)) * (l - u) = l + (w - l) / (u - l) * (u - l) by ring,
          show road u + (1 - (w - l) / (u - l)) * (road l - road u) = road l + (w - l) / (u - l) * (road u - road l) by ring,
          ← hroad _ g0 g1, ge] at this
        rw [this]
        have hw : (w - l) / (u - l) * (u - l) = w - l := by field_simp
        generalize (w - l) / (u - l) = σ at *
        constructor
        · rintro ⟨a, b⟩
          have := mul_nonneg (show 0 ≤ 1 - s0 - σ by linarith) hd.le
          have := mul_nonneg (show 0 ≤ σ - (1 - s1) by linarith) hd.le
          constructor <;> linarith
        · rintro ⟨a, b⟩
          have c1 : (1 - s1) * (u - l) ≤ σ * (u - l) := by linarith
          have c2 : σ * (u - l) ≤ (1 - s0) * (u - l) := by linarith
          have := le_of_mul_le_mul_right c1 hd
          have := le_of_mul_le_mul_right c2 hd
          constructor <;> linarith
      · rw [hs0, hs1]
        rw [show l + (1 - s0) * (u - l) = u + s0 * (l - u) by ring, show l + (1 - s1) * (u - l) = u + s1 * (l - u) by ring,
          show road l + (1 - s0) * (road u - road l) = road u + s0 * (road l - road u) by ring,
          show road l + (1 - s1) * (road u - road l) = road u + s1 * (road l - road u) by ring]
        exact Option.some.inj (hseg.symm.trans e2)

/-- What a triangle of a straight road below the centre adds. -/
theorem straight_contrib {r : Rib ℝ} (hr : IsRib r) (hrad : Scalar.eps ≤ r.radius) {pose : Affine ℝ} (hp : IsRigid pose) {k a : ℝ}
    (ha : 0 < a) (hlow : ∀ x, -r.radius ≤ x → x ≤ r.radius → k * x - a < 0)
    {t : TriangleGround ℝ} {l u : ℝ} (h : CutOver pose r (fun x => k * x - a) t.tri l u) (hc : CleanCut pose r t.tri)
    (hs : ClearPiece r.radius (fun x => k * x - a) l u)
    {seg : Segment ℝ} (hseg : Inter.triangleDisk t.tri (r.diskGrd pose) Scalar.eps = .ok (some seg))
    (hlen : Scalar.eps ≤ dist3 seg.v0 seg.v1) {c : Rib.Contrib ℝ} (hcon : r.contrib pose t seg = some c) :
    ∃ p q, l ≤ p ∧ p < q ∧ q ≤ u ∧
      (∀ x, l ≤ x → x ≤ u → (x ^ 2 + (k * x - a) ^ 2 ≤ r.radius ^ 2 ↔ p ≤ x ∧ x ≤ q)) ∧
      c.volume = (r.radius ^ 2 * (Complex.arg ⟨q, k * q - a⟩ - Complex.arg ⟨p, k * p - a⟩) / 2 - a * (q - p) / 2) * r.width ∧
      c.normal = sectionNormal pose r t.normal (Complex.arg ⟨p, k * p - a⟩) (Complex.arg ⟨q, k * q - a⟩) ∧
      let P := √(p ^ 2 + (k * p - a) ^ 2)
      let Q := √(q ^ 2 + (k * q - a) ^ 2)
      c.point = ribPoint pose r ((Q * p + P * q) / (P + Q)) (k * ((Q * p + P * q) / (P + Q)) - a) := by
  have hR : 0 < r.radius := hr.radius_pos
  obtain ⟨p, q, hlp, hpq, hqu, hin, hsg⟩ := cut hr hrad hp h hc hs hseg
  beta_reduce at hin hsg
  have hp2 := (hin p hlp (hpq.trans hqu)).2 ⟨le_rfl, hpq⟩
  have hq2 := (hin q (hlp.trans hpq) hqu).2 ⟨hpq, le_rfl⟩
  obtain ⟨b1, b2⟩ := RoadArea.in_range hR hp2
  obtain ⟨b3, b4⟩ := RoadArea.in_range hR hq2
  have hlen' : Scalar.eps ≤ √((q - p) ^ 2 + (k * q - a - (k * p - a)) ^ 2) := by
    rcases hsg with rfl | rfl
    · dsimp only at hlen; rw [RoadCut.dist_ribPoint hp] at hlen; exact hlen.trans_eq (by congr 1; ring)
    · dsimp only at hlen; rw [RoadCut.dist_ribPoint hp] at hlen; exact hlen
  have hlt : p < q := by
    rcases hpq.lt_or_eq with h | h
    · exact h
    · rw [h] at hlen'; simp at hlen'; linarith [real_eps_pos]
  have hdet : p * (k * q - a) - q * (k * p - a) = a * (q - p) := by ring
  have hdet' : 0 < p * (k * q - a) - q * (k * p - a) := by rw [hdet]; exact mul_pos ha (by linarith)
  obtain ⟨c', hc', -, hv, -⟩ := RoadCut.contrib_eq hr hp t (hlow p b1 b2) (hlow q b3 b4) hdet' hp2 hq2 hlen' hsg
  have : c' = c := Option.some.inj (hc'.symm.trans hcon)
  subst this
  have hboth := contrib_point hr hp t (hlow p b1 b2) (hlow q b3 b4) hdet' hp2 hq2 hlen' hsg hcon
  refine ⟨p, q, hlp, hlt, hqu, hin, by rw [hv, hdet], hboth.2, ?_⟩
  dsimp only
  rw [hboth.1]
  congr 1
  have hP : 0 < √(p ^ 2 + (k * p - a) ^ 2) := Real.sqrt_pos.2 (by nlinarith [sq_nonneg p, hlow p b1 b2])
  have hQ : 0 < √(q ^ 2 + (k * q - a) ^ 2) := Real.sqrt_pos.2 (by nlinarith [sq_nonneg q, hlow q b3 b4])
  generalize √(p ^ 2 + (k * p - a) ^ 2) = P at *
  generalize √(q ^ 2 + (k * q - a) ^ 2) = Q at *
  field_simp
  ring

/-- The points of the plane of the rib, apart from the centre. -/
theorem ribPoint_split (pose : Affine ℝ) (r : Rib ℝ) (x z : ℝ) :
    ribPoint pose r x z = V3.add (ribPoint pose r 0 0) (M3.mulVec pose.linear ⟨x, 0, z⟩) := by
  simp only [ribPoint]
  generalize r.center = c
  v3; congr 1 <;> ring

/-- The sum of the points along a straight road. -/
theorem loop_point {r : Rib ℝ} {pose : Affine ℝ} {k a : ℝ} (ts : List (TriangleGround ℝ)) (h : ∀ t ∈ ts, RoadCut.Passes r pose t)
    (hpt : ∀ t ∈ ts, ∀ seg c, Inter.triangleDisk t.tri (r.diskGrd pose) Scalar.eps = .ok (some seg) → r.contrib pose t seg = some c →
      ∃ x, c.point = ribPoint pose r x (k * x - a)) {acc acc' : Rib.Acc ℝ} (hl : r.geomLoop pose ts acc = .ok acc') {X : ℝ}
    (hacc : acc.point = V3.add (V3.smul acc.volume (ribPoint pose r 0 0)) (M3.mulVec pose.linear ⟨X, 0, k * X - a * acc.volume⟩)) :
    ∃ X', acc'.point = V3.add (V3.smul acc'.volume (ribPoint pose r 0 0)) (M3.mulVec pose.linear ⟨X', 0, k * X' - a * acc'.volume⟩) := by
  induction ts generalizing acc X with
  | nil => rw [Rib.geomLoop] at hl; cases hl; exact ⟨X, hacc⟩
  | cons t ts ih =>
    have ht := fun t' ht' => h t' (List.mem_cons_of_mem _ ht')
    have hpt' := fun t' ht' => hpt t' (List.mem_cons_of_mem _ ht')
    rw [Rib.geomLoop] at hl
    rcases h t (by simp) with e | ⟨seg, c, e, hc, -⟩
    · rw [e, Res.bind_ok] at hl
      exact ih ht hpt' hl hacc
    · rw [e, Res.bind_ok] at hl
      dsimp only at hl
      rw [hc] at hl
      obtain ⟨x, hx⟩ := hpt t (by simp) seg c e hc
      refine ih ht hpt' hl (X := X + c.volume * x) ?_
      simp only [Rib.Acc.add, hacc, hx]
      rw [ribPoint_split pose r x]
      generalize ribPoint pose r 0 0 = B
      v3
      congr 1 <;> ring

/-- The reported flag. -/
theorem flag_iff {r : Rib ℝ} {pose : Affine ℝ} {ts : List (TriangleGround ℝ)} {out : Output ℝ}
    (h : r.envelopGeometricMesh ts pose = .ok (true, out)) : Scalar.eps < out.area ∨ Scalar.eps < out.volume := by
  rw [Rib.envelopGeometricMesh, Res.bind_eq_ok] at h
  obtain ⟨acc, -, h⟩ := h
  have h : r.geomFinish pose acc = (true, out) := Res.ok.inj h
  unfold Rib.geomFinish at h
  split at h
  · rename_i hc
    simp only [Bool.and_eq_true, Bool.or_eq_true, real_lt, decide_eq_true_eq] at hc
    cases h
    exact hc.2
  · cases h

end Retile

/-! ## C145 -/

/-- One list of triangles of the road. -/
theorem Retile.sums {r : Rib ℝ} (hr : IsRib r) (hw : 0 < r.width) (hrad : Scalar.eps ≤ r.radius) {pose : Affine ℝ} (hp : IsRigid pose)
    {road : ℝ → ℝ} (hc : Continuous road) (hlow : ∀ x, -r.radius ≤ x → x ≤ r.radius → road x < 0) {ts : List (TriangleGround ℝ)}
    (h : RoadOf pose r road ts) :
    ∃ b out, r.envelopGeometricMesh ts pose = .ok (b, out) ∧
      (b = true ↔ Scalar.eps < r.width * roadLength r.radius road ∨ Scalar.eps < r.width * areaBelow r.radius road) ∧
      (b = true → out.area = r.width * roadLength r.radius road ∧ out.volume = r.width * areaBelow r.radius road) := by
  obtain ⟨k, x, T, others, h0, hn, hT, hts, ho⟩ := h
  obtain ⟨b, out, h1, h2, h3, -⟩ := C122_volume_partial hr hw hrad hp hc hlow h0 hn
    (fun i hi => ⟨(hT i hi).1, (hT i hi).2.1, (hT i hi).2.2.1⟩) hts ho
  obtain ⟨b', out', h1', h2', h3'⟩ := C122_area_partial hr hw hrad hp hc hlow h0 hn
    (fun i hi => ⟨(hT i hi).1, (hT i hi).2.1, (hT i hi).2.2.1⟩) hts ho
  obtain ⟨rfl, rfl⟩ := Prod.mk.inj (Res.ok.inj (h1.symm.trans h1'))
  have h3 := fun hb => h3 hb fun i hi => (hT i hi).2.2.2
  refine ⟨b, out, h1, ⟨fun hb => ?_, fun hb => hb.elim h2' h2⟩, fun hb => ⟨h3' hb, h3 hb⟩⟩
  rw [← h3 hb, ← h3' hb]
  subst hb
  exact Retile.flag_iff h1

/-- **C145 (partial)**, one rib.  Two lists of triangles of any shape, number and order which the plane of a rib cuts in the same road below
the centre of the rib.  The geometric method returns for both, and reports contact for both or for none.  If it reports contact, the area
and the volume are the same; and the friction is, if it is the same for all triangles and the volume is not zero. -/
theorem C145_rib_partial {r : Rib ℝ} (hr : IsRib r) (hw : 0 < r.width) (hrad : Scalar.eps ≤ r.radius) {pose : Affine ℝ} (hp : IsRigid pose)
    {road : ℝ → ℝ} (hc : Continuous road) (hlow : ∀ x, -r.radius ≤ x → x ≤ r.radius → road x < 0) {ts₁ ts₂ : List (TriangleGround ℝ)}
    (h₁ : RoadOf pose r road ts₁) (h₂ : RoadOf pose r road ts₂) :
    ∃ b o₁ o₂, r.envelopGeometricMesh ts₁ pose = .ok (b, o₁) ∧ r.envelopGeometricMesh ts₂ pose = .ok (b, o₂) ∧
      o₁.area = o₂.area ∧ o₁.volume = o₂.volume ∧
      (b = true → o₁.volume ≠ 0 → ∀ μ, (∀ t ∈ ts₁ ++ ts₂, t.friction = μ) → o₁.friction = μ ∧ o₂.friction = μ) := by
  obtain ⟨b, o₁, e₁, f₁, g₁⟩ := Retile.sums hr hw hrad hp hc hlow h₁
  obtain ⟨b', o₂, e₂, f₂, g₂⟩ := Retile.sums hr hw hrad hp hc hlow h₂
  have hb : b = b' := by
    rw [Bool.eq_iff_iff, f₁, f₂]
  subst hb
  cases b with
  | false =>
    have n₁ : o₁ = r.noContact pose := Rib.envelopMesh_false (by simpa [Rib.envelopMesh] using e₁ : r.envelopMesh ts₁ pose "geometric" = .ok (false, o₁))
    have n₂ : o₂ = r.noContact pose := Rib.envelopMesh_false (by simpa [Rib.envelopMesh] using e₂ : r.envelopMesh ts₂ pose "geometric" = .ok (false, o₂))
    exact ⟨false, o₁, o₂, e₁, e₂, by rw [n₁, n₂], by rw [n₁, n₂], fun h => by cases h⟩
  | true =>
    obtain ⟨a₁, v₁⟩ := g₁ rfl
    obtain ⟨a₂, v₂⟩ := g₂ rfl
    refine ⟨true, o₁, o₂, e₁, e₂, a₁.trans a₂.symm, v₁.trans v₂.symm, fun _ hv μ hμ => ?_⟩
    have w₁ := (C36_weights_partial hr pose ts₁ true o₁ e₁).2.2.2 rfl hv μ μ fun t ht => by
      rw [hμ t (List.mem_append_left _ ht)]; exact ⟨le_rfl, le_rfl⟩
    have w₂ := (C36_weights_partial hr pose ts₂ true o₂ e₂).2.2.2 rfl (by rw [v₂, ← v₁]; exact hv) μ μ fun t ht => by
      rw [hμ t (List.mem_append_right _ ht)]; exact ⟨le_rfl, le_rfl⟩
    exact ⟨le_antisymm w₁.2 w₁.1, le_antisymm w₂.2 w₂.1⟩

/-- **C145 (partial)**, the point.  On a straight road the contact point of a rib is on the road, however the road is divided; and the
depth is how far the point is inside the disk.  So the depth is at most that of the point of the road nearest to the centre. -/
theorem C145_point_partial {r : Rib ℝ} (hr : IsRib r) (hrad : Scalar.eps ≤ r.radius) {pose : Affine ℝ} (hp : IsRigid pose)
    {k a : ℝ} (hlow : ∀ x, -r.radius ≤ x → x ≤ r.radius → k * x - a < 0) {ts : List (TriangleGround ℝ)}
    (h : RoadOf pose r (fun x => k * x - a) ts) {out : Output ℝ} (he : r.envelopGeometricMesh ts pose = .ok (true, out))
    (hv : out.volume ≠ 0) :
    (∃ x, out.point = ribPoint pose r x (k * x - a) ∧ out.depth = r.radius - √(x ^ 2 + (k * x - a) ^ 2)) ∧
    out.depth ≤ r.radius - a / √(1 + k ^ 2) := by
  have hRot : IsRotation pose.linear := hp
  have hR : 0 < r.radius := hr.radius_pos
  have ha : 0 < a := by
    have := hlow 0 (by linarith) hR.le; linarith
  obtain ⟨n, x, T, others, h0, hn, hT, hts, ho⟩ := h
  have hpass : ∀ t ∈ ts, RoadCut.Passes r pose t ∧ ∀ seg c, Inter.triangleDisk t.tri (r.diskGrd pose) Scalar.eps = .ok (some seg) →
      r.contrib pose t seg = some c → ∃ x, c.point = ribPoint pose r x (k * x - a) := by
    intro t ht
    rcases List.mem_append.1 (hts.mem_iff.1 ht) with h | h
    · obtain ⟨i, hi, rfl⟩ := List.mem_map.1 h
      obtain ⟨g1, g2, g3, -⟩ := hT i (List.mem_range.1 hi)
      have hps := (RoadCut.piece hr hrad hp hlow g1 g2 g3).1
      refine ⟨hps, fun seg c hseg hcon => ?_⟩
      have hlen : Scalar.eps ≤ dist3 seg.v0 seg.v1 := by
        rcases hps with e | ⟨seg', c', e, -, hl⟩
        · rw [e] at hseg; cases hseg
        · rw [e] at hseg; cases hseg; exact hl
      obtain ⟨p, q, -, -, -, -, -, -, hpt⟩ := Retile.straight_contrib hr hrad hp ha hlow g1 g2 g3 hseg hlen hcon
      exact ⟨_, hpt⟩
    · have := RoadCut.aside hr hp (ho t h)
      exact ⟨.inl this, fun seg c hseg => by rw [this] at hseg; cases hseg⟩
  have he' := he
  rw [Rib.envelopGeometricMesh, Res.bind_eq_ok] at he
  obtain ⟨acc, hl, he⟩ := he
  have he : r.geomFinish pose acc = (true, out) := Res.ok.inj he
  obtain ⟨X, hX⟩ := Retile.loop_point ts (fun t ht => (hpass t ht).1) (fun t ht => (hpass t ht).2) hl (X := 0) (by
    simp only [Rib.Acc.init]
    generalize ribPoint pose r 0 0 = B
    v3; simp)
  have hout : out.volume = acc.volume ∧ out.point = V3.sdiv acc.point acc.volume ∧
      out.depth = r.radius - V3.norm (V3.sub out.point (r.centerGrd pose)) := by
    unfold Rib.geomFinish at he
    split at he
    · cases he; exact ⟨rfl, rfl, rfl⟩
    · cases he
  obtain ⟨o1, o2, o3⟩ := hout
  rw [o1] at hv
  have hpoint : out.point = ribPoint pose r (X / acc.volume) (k * (X / acc.volume) - a) := by
    rw [o2, hX, Retile.ribPoint_split pose r (X / acc.volume)]
    generalize ribPoint pose r 0 0 = B
    generalize acc.volume = v at *
    v3
    congr 1 <;> (field_simp; ring)
  have hdepth : out.depth = r.radius - √((X / acc.volume) ^ 2 + (k * (X / acc.volume) - a) ^ 2) := by
    rw [o3, hpoint, RoadCut.sub_centre, hRot.norm_mulVec, V3.norm_eq, length3]
    congr 2; dsimp only; ring
  refine ⟨⟨_, hpoint, hdepth⟩, ?_⟩
  rw [hdepth]
  generalize X / acc.volume = y
  have hk : 0 < 1 + k ^ 2 := by positivity
  have : a / √(1 + k ^ 2) ≤ √(y ^ 2 + (k * y - a) ^ 2) := by
    rw [div_le_iff₀ (Real.sqrt_pos.2 hk), ← Real.sqrt_mul (by positivity)]
    refine Real.le_sqrt_of_sq_le ?_
    nlinarith [sq_nonneg (y * (1 + k ^ 2) - k * a), sq_nonneg (y + k * (k * y - a))]
  linarith

/-- **C145 (partial)**, the tyre.  Two setups of the same tyre at the same pose, with the geometric method, on two meshes which the plane of
every rib cuts in the same road below its centre: the contact volumes differ by at most `eps` for every rib, the volume below which a rib
may report no contact. -/
theorem C145_tyre_partial {pol : Policy} {s₁ s₂ s₁' s₂' : Shell ℝ} (hu₁ : TyreInUse pol s₁) (hu₂ : TyreInUse pol s₂)
    (hsame : s₂.ribs = s₁.ribs) {pose : Affine ℝ} {m₁ m₂ : Mesh ℝ} {road : Rib ℝ → ℝ → ℝ}
    (h₁ : StandsOn s₁ pose m₁ road) (h₂ : StandsOn s₂ pose m₂ road) {b₁ b₂ : Bool}
    (hs₁ : s₁.setupMesh pol m₁ pose "geometric" = .ok s₁' b₁) (hs₂ : s₂.setupMesh pol m₂ pose "geometric" = .ok s₂' b₂) :
    ∃ v₁ v₂, s₁'.contactVolume pol = .ok v₁ ∧ s₂'.contactVolume pol = .ok v₂ ∧ |v₁ - v₂| ≤ s₁.ribs.length * Scalar.eps := by
  obtain ⟨v₁, v₂, e₁, e₂, -, hd⟩ := C132_volume_partial hu₁ hu₂ hsame h₁ h₂ hs₁ hs₂
  refine ⟨v₁, v₂, e₁, e₂, ?_⟩
  have := hd 0 fun r _ x _ => by simp
  simpa using this

/-! ### A road in one piece and in two -/

namespace Retile

/-- A triangle of the road with two points of the disk adds a section. -/
theorem hits {r : Rib ℝ} (hr : IsRib r) (hw : 0 < r.width) (hrad : Scalar.eps ≤ r.radius) {pose : Affine ℝ} (hp : IsRigid pose)
    {road : ℝ → ℝ} (hlow : ∀ x, -r.radius ≤ x → x ≤ r.radius → road x < 0) {t : TriangleGround ℝ} {l u : ℝ}
    (h : CutOver pose r road t.tri l u) (hc : CleanCut pose r t.tri) (hs : ClearPiece r.radius road l u) {x y : ℝ} (hlx : l ≤ x)
    (hxy : x < y) (hyu : y ≤ u) (hx : x ^ 2 + road x ^ 2 ≤ r.radius ^ 2) (hy : y ^ 2 + road y ^ 2 ≤ r.radius ^ 2) :
    ∃ seg c, Inter.triangleDisk t.tri (r.diskGrd pose) Scalar.eps = .ok (some seg) ∧ r.contrib pose t seg = some c ∧
      Scalar.eps ≤ dist3 seg.v0 seg.v1 := by
  obtain ⟨hps, ⟨a, hL, e⟩, -⟩ := RoadCut.piece hr hrad hp hlow h hc hs
  rcases hps with hn | hps
  · exfalso
    rw [RoadCut.added, hn] at e
    have ha : a = 0 := by
      have e : 0 = a * r.width := e
      exact (mul_eq_zero.1 e.symm).resolve_right hw.ne'
    rcases hL with ⟨hout, -⟩ | ⟨p, q, -, -, -, hin, hq⟩
    · linarith [hout x hlx (hxy.le.trans hyu)]
    · have h1 := (hin x hlx (hxy.le.trans hyu)).1 hx
      have h2 := (hin y (hlx.trans hxy.le) hyu).1 hy
      have : 0 < √((q - p) ^ 2 + (road q - road p) ^ 2) :=
        Real.sqrt_pos.2 (by nlinarith [sq_nonneg (road q - road p), mul_pos (show 0 < q - p by linarith) (show 0 < q - p by linarith)])
      rw [ha] at hq
      linarith
  · exact hps

theorem arg_left : Complex.arg ⟨-(√3 / 2), -(1 / 2)⟩ = -(5 * Real.pi / 6) := by
  have hc : Real.cos (-(5 * Real.pi / 6)) = -(√3 / 2) := by
    rw [Real.cos_neg, show 5 * Real.pi / 6 = Real.pi - Real.pi / 6 by ring, Real.cos_pi_sub, Real.cos_pi_div_six]
  have hs : Real.sin (-(5 * Real.pi / 6)) = -(1 / 2) := by
    rw [Real.sin_neg, show 5 * Real.pi / 6 = Real.pi - Real.pi / 6 by ring, Real.sin_pi_sub, Real.sin_pi_div_six]
  have := Complex.arg_mul_cos_add_sin_mul_I (r := 1) (θ := -(5 * Real.pi / 6)) one_pos ⟨by linarith [Real.pi_pos], by linarith [Real.pi_pos]⟩
  rw [← Complex.ofReal_cos, ← Complex.ofReal_sin, hc, hs] at this
  rw [← this]
  congr 1
  apply Complex.ext <;> simp

theorem arg_right : Complex.arg ⟨√3 / 2, -(1 / 2)⟩ = -(Real.pi / 6) := by
  have hc : Real.cos (-(Real.pi / 6)) = √3 / 2 := by rw [Real.cos_neg, Real.cos_pi_div_six]
  have hs : Real.sin (-(Real.pi / 6)) = -(1 / 2) := by rw [Real.sin_neg, Real.sin_pi_div_six]
  have := Complex.arg_mul_cos_add_sin_mul_I (r := 1) (θ := -(Real.pi / 6)) one_pos ⟨by linarith [Real.pi_pos], by linarith [Real.pi_pos]⟩
  rw [← Complex.ofReal_cos, ← Complex.ofReal_sin, hc, hs] at this
  rw [← this]
  congr 1
  apply Complex.ext <;> simp

theorem arg_mid : Complex.arg ⟨-(√3 / 6), -(1 / 2)⟩ = -(2 * Real.pi / 3) := by
  have h3 : √3 * √3 = 3 := Real.mul_self_sqrt (by norm_num)
  have hc : Real.cos (-(2 * Real.pi / 3)) = -(1 / 2) := by
    rw [Real.cos_neg, show 2 * Real.pi / 3 = Real.pi - Real.pi / 3 by ring, Real.cos_pi_sub, Real.cos_pi_div_three]
  have hs : Real.sin (-(2 * Real.pi / 3)) = -(√3 / 2) := by
    rw [Real.sin_neg, show 2 * Real.pi / 3 = Real.pi - Real.pi / 3 by ring, Real.sin_pi_sub, Real.sin_pi_div_three]
  have := Complex.arg_mul_cos_add_sin_mul_I (r := √3 / 3) (θ := -(2 * Real.pi / 3)) (by positivity)
    ⟨by linarith [Real.pi_pos], by linarith [Real.pi_pos]⟩
  rw [← Complex.ofReal_cos, ← Complex.ofReal_sin, hc, hs] at this
  rw [← this]
  congr 1
  rw [show ((√3 / 3 : ℝ) : ℂ) * (((-(1 / 2) : ℝ) : ℂ) + ((-(√3 / 2) : ℝ) : ℂ) * Complex.I) =
    ((√3 / 3 * -(1 / 2) : ℝ) : ℂ) + ((√3 / 3 * -(√3 / 2) : ℝ) : ℂ) * Complex.I by push_cast; ring]
  apply Complex.ext
  · simp; ring
  · simp; linarith

end Retile

/-- The ends of a road in one piece, and in two. -/
noncomputable def Demo.oneEnds : ℕ → ℝ
  | 0 => -1
  | _ => 1

noncomputable def Demo.twoEnds : ℕ → ℝ
  | 0 => -1
  | 1 => -(√3 / 6)
  | _ => 1

/-- The road one half below the wheel. -/
noncomputable def Demo.half (x : ℝ) : ℝ := 0 * x - 1 / 2

theorem Demo.half_tile {l u x y : ℝ} (hlu : l < u) (hul : u - l ≤ 2) (hlx : l ≤ x) (hxy : x + 1 / 2 ≤ y) (hyu : y ≤ u) (hx : x ^ 2 ≤ 3 / 4)
    (hy : y ^ 2 ≤ 3 / 4) :
    CutOver (Demo.upright 0) (Demo.ribOf 1) (fun x => 0 * x - 1 / 2) (Demo.tile l u (Demo.half l) (Demo.half u)).tri l u ∧
    CleanCut (Demo.upright 0) (Demo.ribOf 1) (Demo.tile l u (Demo.half l) (Demo.half u)).tri ∧
    ClearPiece (Demo.ribOf 1).radius (fun x => 0 * x - 1 / 2) l u ∧
    (Reaches (Demo.ribOf 1).radius (fun x => 0 * x - 1 / 2) l u → ¬ Overhead (fun x => 0 * x - 1 / 2) l u) := by
  have heps : (Scalar.eps : ℝ) ≤ 1 / 100 := by rw [real_eps]; norm_num
  have hrad : (Demo.ribOf 1).radius = 1 := rfl
  refine ⟨Demo.tile_cutOver 1 (road := fun x => 0 * x - 1 / 2) hlu (fun s _ _ => by ring), Demo.tile_cleanCut 1 hlu ?_, ⟨?_, fun _ => ⟨?_, x, y, hlx, by linarith, hyu, ?_, ?_, ?_⟩⟩, fun _ => ?_⟩
  · simp only [Demo.half]; nlinarith
  · left; rw [hrad]; nlinarith
  · intro h; nlinarith
  · rw [hrad]; linarith
  · rw [hrad]; linarith
  · refine heps.trans (Real.le_sqrt_of_sq_le ?_)
    nlinarith
  · unfold Overhead; intro h; nlinarith

theorem Demo.one_road : RoadOf (Demo.upright 0) (Demo.ribOf 1) (fun x => 0 * x - 1 / 2) [Demo.tiles Demo.half Demo.oneEnds 0] := by
  refine ⟨1, Demo.oneEnds, Demo.tiles Demo.half Demo.oneEnds, [], le_rfl, le_rfl, ?_, by simp, by simp⟩
  intro i hi
  interval_cases i
  exact Demo.half_tile (l := -1) (u := 1) (x := 0) (y := 1 / 2) (by norm_num) (by norm_num) (by norm_num) (by norm_num) (by norm_num)
    (by norm_num) (by norm_num)

theorem Demo.two_bounds : 17 / 10 < √3 ∧ √3 < 17321 / 10000 ∧ √3 * √3 = 3 := by
  refine ⟨?_, ?_, Real.mul_self_sqrt (by norm_num)⟩
  · exact Real.lt_sqrt_of_sq_lt (by norm_num)
  · rw [Real.sqrt_lt' (by norm_num)]; norm_num

theorem Demo.two_road : RoadOf (Demo.upright 0) (Demo.ribOf 1) (fun x => 0 * x - 1 / 2)
    [Demo.tiles Demo.half Demo.twoEnds 0, Demo.tiles Demo.half Demo.twoEnds 1] := by
  refine ⟨2, Demo.twoEnds, Demo.tiles Demo.half Demo.twoEnds, [], le_rfl, le_rfl, ?_, by simp [List.range_succ], by simp⟩
  intro i hi
  interval_cases i
  · exact Demo.half_tile (l := -1) (u := -(√3 / 6)) (x := -(√3 / 2)) (y := -(√3 / 6)) (by linarith [Demo.two_bounds.2.1])
      (by linarith [Demo.two_bounds.1]) (by linarith [Demo.two_bounds.2.1]) (by linarith [Demo.two_bounds.1]) le_rfl
      (by nlinarith [Demo.two_bounds.2.2]) (by nlinarith [Demo.two_bounds.2.2])
  · exact Demo.half_tile (l := -(√3 / 6)) (u := 1) (x := -(√3 / 6)) (y := √3 / 2) (by linarith [Demo.two_bounds.1])
      (by linarith [Demo.two_bounds.2.1]) le_rfl (by linarith [Demo.two_bounds.1]) (by linarith [Demo.two_bounds.2.1])
      (by nlinarith [Demo.two_bounds.2.2]) (by nlinarith [Demo.two_bounds.2.2])

theorem Demo.roots : √((√3 / 2) ^ 2 + 1 / 4) = 1 ∧ √((-(√3 / 2)) ^ 2 + 1 / 4) = 1 ∧ √((-(√3 / 6)) ^ 2 + 1 / 4) = √3 / 3 := by
  have h3 := Demo.two_bounds.2.2
  refine ⟨?_, ?_, ?_⟩
  · rw [show (√3 / 2) ^ 2 + 1 / 4 = 1 by linear_combination h3 / 4, Real.sqrt_one]
  · rw [show (-(√3 / 2)) ^ 2 + 1 / 4 = 1 by linear_combination h3 / 4, Real.sqrt_one]
  · rw [show (-(√3 / 6)) ^ 2 + 1 / 4 = (√3 / 3) ^ 2 by linear_combination -h3 / 12]
    exact Real.sqrt_sq (by positivity)

/-- The reported contact on such a road. -/
theorem Demo.half_out {ts : List (TriangleGround ℝ)} (h : RoadOf (Demo.upright 0) (Demo.ribOf 1) (fun x => 0 * x - 1 / 2) ts) :
    ∃ out x, (Demo.ribOf 1).envelopGeometricMesh ts (Demo.upright 0) = .ok (true, out) ∧ 1 / 4 ≤ out.volume ∧
      out.point = ⟨x, 0, -(1 / 2)⟩ ∧ out.depth = 1 - √(x ^ 2 + 1 / 4) := by
  have hrib : IsRib (Demo.ribOf 1) := Demo.ribOf_isRib zero_le_one
  have hrad : (Demo.ribOf 1).radius = 1 := rfl
  have hwid : (Demo.ribOf 1).width = 1 := rfl
  have heps : (Scalar.eps : ℝ) ≤ 1 / 100 := by rw [real_eps]; norm_num
  have hlow : ∀ x : ℝ, -(Demo.ribOf 1).radius ≤ x → x ≤ (Demo.ribOf 1).radius → 0 * x - 1 / 2 < (0 : ℝ) := fun x _ _ => by linarith
  have hbox := RoadCut.box_le (R := 1) (road := fun x => 0 * x - 1 / 2) (a := -(1 / 2)) (b := 1 / 2) (c := -(13 / 16)) (d := -(9 / 16)) (by norm_num)
    (by norm_num) (fun x z h1 h2 h3 h4 => ⟨by nlinarith, by linarith⟩)
  obtain ⟨b, out, e, hb, hv⟩ := Retile.sums hrib one_pos (by rw [hrad]; linarith) (Demo.upright_rigid 0) (by fun_prop) hlow h
  have hb : b = true := hb.2 (.inr (by rw [hrad, hwid]; linarith))
  subst hb
  have hv := (hv rfl).2
  rw [hrad, hwid, one_mul] at hv
  have hv4 : 1 / 4 ≤ out.volume := by rw [hv]; linarith
  obtain ⟨⟨x, hx, hd⟩, -⟩ := C145_point_partial hrib (by rw [hrad]; linarith) (Demo.upright_rigid 0) hlow h e (by linarith)
  refine ⟨out, x, e, hv4, ?_, ?_⟩
  · rw [hx, Demo.ribPoint_eq]; congr 1; ring
  · rw [hd, hrad]; congr 2; ring

/-- The normal of a tile has no part across the plane of the rib. -/
theorem Demo.tile_normal {l u : ℝ} (hlu : l < u) (zl zu : ℝ) : (Demo.tile l u zl zu).normal.y = 0 := by
  have hcross : V3.cross (V3.sub (Demo.tile l u zl zu).tri.v1 (Demo.tile l u zl zu).tri.v0)
      (V3.sub (Demo.tile l u zl zu).tri.v2 (Demo.tile l u zl zu).tri.v0) = ⟨-(4 * (zu - zl)), 0, 4 * (u - l)⟩ := by
    rw [Demo.tile_tri]; v3; congr 1 <;> ring
  have hn : (Demo.tile l u zl zu).tri.normal.y = 0 := by
    unfold Triangle.normal
    rw [hcross]
    have hne : (⟨-(4 * (zu - zl)), 0, 4 * (u - l)⟩ : V3 ℝ) ≠ ⟨0, 0, 0⟩ := by
      intro h; rw [V3.mk.injEq] at h; linarith [h.2.2]
    rw [V3.normalized_of_ne hne]; v3; simp
  have : (Demo.tile l u zl zu).normal = if (Demo.tile l u zl zu).tri.normal.z <. zero then V3.smul (-. one) (Demo.tile l u zl zu).tri.normal
      else (Demo.tile l u zl zu).tri.normal := rfl
  rw [this]
  split
  · simp [V3.smul, hn]
  · exact hn

/-- What a tile adds. -/
theorem Demo.half_contrib {l u x y : ℝ} (hlu : l < u) (hul : u - l ≤ 2) (hlx : l ≤ x) (hxy : x + 1 / 2 ≤ y) (hyu : y ≤ u) (hx : x ^ 2 ≤ 3 / 4)
    (hy : y ^ 2 ≤ 3 / 4) (hall : ∀ w, l ≤ w → w ≤ u → w ^ 2 ≤ 3 / 4 → x ≤ w ∧ w ≤ y) :
    ∃ seg c, Inter.triangleDisk (Demo.tile l u (Demo.half l) (Demo.half u)).tri ((Demo.ribOf 1).diskGrd (Demo.upright 0)) Scalar.eps = .ok (some seg) ∧
      (Demo.ribOf 1).contrib (Demo.upright 0) (Demo.tile l u (Demo.half l) (Demo.half u)) seg = some c ∧
      c.volume = (Complex.arg ⟨y, -(1 / 2)⟩ - Complex.arg ⟨x, -(1 / 2)⟩) / 2 - (y - x) / 4 ∧
      c.point.x = (√(y ^ 2 + 1 / 4) * x + √(x ^ 2 + 1 / 4) * y) / (√(x ^ 2 + 1 / 4) + √(y ^ 2 + 1 / 4)) ∧
      c.normal = ⟨-Real.cos ((Complex.arg ⟨x, -(1 / 2)⟩ + Complex.arg ⟨y, -(1 / 2)⟩) / 2), 0,
        -Real.sin ((Complex.arg ⟨x, -(1 / 2)⟩ + Complex.arg ⟨y, -(1 / 2)⟩) / 2)⟩ := by
  have hrib : IsRib (Demo.ribOf 1) := Demo.ribOf_isRib zero_le_one
  have hrad : (Demo.ribOf 1).radius = 1 := rfl
  have hwid : (Demo.ribOf 1).width = 1 := rfl
  have heps : (Scalar.eps : ℝ) ≤ 1 / 100 := by rw [real_eps]; norm_num
  have hrad' : (Scalar.eps : ℝ) ≤ (Demo.ribOf 1).radius := by rw [hrad]; linarith
  have hlow : ∀ x : ℝ, -(Demo.ribOf 1).radius ≤ x → x ≤ (Demo.ribOf 1).radius → 0 * x - 1 / 2 < (0 : ℝ) := fun x _ _ => by linarith
  obtain ⟨g1, g2, g3, -⟩ := Demo.half_tile hlu hul hlx hxy hyu hx hy
  obtain ⟨seg, c, k1, k2, k3⟩ := Retile.hits hrib one_pos hrad' (Demo.upright_rigid 0) hlow g1 g2 g3 hlx (show x < y by linarith) hyu
    (by rw [hrad]; linarith) (by rw [hrad]; linarith)
  obtain ⟨p, q, m1, m2, m3, m4, m5, m7, m6⟩ := Retile.straight_contrib hrib hrad' (Demo.upright_rigid 0) (by norm_num) hlow g1 g2 g3 k1 k3 k2
  rw [hrad] at m4
  have hp := hall p m1 (m2.le.trans m3) (by have := (m4 p m1 (m2.le.trans m3)).2 ⟨le_rfl, m2.le⟩; linarith)
  have hq := hall q (m1.trans m2.le) m3 (by have := (m4 q (m1.trans m2.le) m3).2 ⟨m2.le, le_rfl⟩; linarith)
  have hx' := (m4 x hlx (by linarith)).1 (by linarith)
  have hy' := (m4 y (by linarith) hyu).1 (by linarith)
  have ep : p = x := le_antisymm hx'.1 hp.1
  have eq : q = y := le_antisymm hq.2 hy'.2
  subst ep eq
  have z : ∀ w : ℝ, 0 * w - 1 / 2 = -(1 / 2 : ℝ) := fun w => by ring
  have z2 : (-(1 / 2 : ℝ)) ^ 2 = 1 / 4 := by norm_num
  refine ⟨seg, c, k1, k2, ?_, ?_, ?_⟩
  · rw [m5, hrad, hwid, z, z]; ring
  · dsimp only at m6
    rw [m6, Demo.ribPoint_eq, z, z, z2]
  · rw [m7, z, z]
    have hn := Demo.tile_normal hlu (Demo.half l) (Demo.half u)
    have hg : (Demo.ribOf 1).normalGrd (Demo.upright 0) = ⟨0, 1, 0⟩ := by rw [Rib.normalGrd_eq hrib]; rfl
    simp only [Retile.sectionNormal, hg]
    generalize (Complex.arg ⟨p, -(1 / 2)⟩ + Complex.arg ⟨q, -(1 / 2)⟩) / 2 = T
    have hnt : M3.mulVec (Demo.upright 0).linear ⟨-Real.cos T, 0, -Real.sin T⟩ = ⟨-Real.cos T, 0, -Real.sin T⟩ := by
      simp only [Demo.upright]; v3; congr 1 <;> ring
    rw [hnt]
    have : V3.add (⟨-Real.cos T, 0, -Real.sin T⟩ : V3 ℝ) (V3.smul (V3.dot (V3.sub (Demo.tile l u (Demo.half l) (Demo.half u)).normal
        ⟨-Real.cos T, 0, -Real.sin T⟩) ⟨0, 1, 0⟩) ⟨0, 1, 0⟩) = ⟨-Real.cos T, 0, -Real.sin T⟩ := by
      generalize (Demo.tile l u (Demo.half l) (Demo.half u)).normal = n at hn
      v3
      rw [hn]; congr 1 <;> ring
    rw [this, V3.normalized_unit]
    dsimp only
    nlinarith [Real.sin_sq_add_cos_sq T]

set_option maxHeartbeats 1000000 in
/-- **C145**, counterexample: the point, the depth and the normal.  A rib one half deep in a flat road.  With the road in one triangle the
reported depth is one half and the normal is that of the road; with the same road in two triangles the depth is less, the point is in front
of the lowest point of the rib, and the normal leans back. -/
theorem C145_point_refuted : ∃ (r : Rib ℝ) (pose : Affine ℝ) (ts₁ ts₂ : List (TriangleGround ℝ)) (o₁ o₂ : Output ℝ),
    IsRib r ∧ IsRigid pose ∧ r.radius = 1 ∧ RoadOf pose r (fun _ => -(1 / 2)) ts₁ ∧ RoadOf pose r (fun _ => -(1 / 2)) ts₂ ∧
    r.envelopGeometricMesh ts₁ pose = .ok (true, o₁) ∧ r.envelopGeometricMesh ts₂ pose = .ok (true, o₂) ∧
    o₁.volume = o₂.volume ∧ o₁.depth = 1 / 2 ∧ o₂.depth < 1 / 2 ∧ o₁.point.x = 0 ∧ 0 < o₂.point.x ∧
    o₁.normal = ⟨0, 0, 1⟩ ∧ o₂.normal.x < 0 := by
  have hrib : IsRib (Demo.ribOf 1) := Demo.ribOf_isRib zero_le_one
  have hrad : (Demo.ribOf 1).radius = 1 := rfl
  have hwid : (Demo.ribOf 1).width = 1 := rfl
  have heps : (Scalar.eps : ℝ) ≤ 1 / 100 := by rw [real_eps]; norm_num
  have hrad' : (Scalar.eps : ℝ) ≤ (Demo.ribOf 1).radius := by rw [hrad]; linarith
  have hlow : ∀ x : ℝ, -(Demo.ribOf 1).radius ≤ x → x ≤ (Demo.ribOf 1).radius → 0 * x - 1 / 2 < (0 : ℝ) := fun x _ _ => by linarith
  have hroad : (fun x : ℝ => 0 * x - 1 / 2) = fun _ => -(1 / 2) := by funext x; ring
  obtain ⟨b1, b2, h3⟩ := Demo.two_bounds
  obtain ⟨o₁, x₁, e₁, v₁, p₁, d₁⟩ := Demo.half_out Demo.one_road
  obtain ⟨o₂, x₂, e₂, v₂, p₂, d₂⟩ := Demo.half_out Demo.two_road
  have hvol : o₁.volume = o₂.volume := by
    obtain ⟨b, o, o', f1, f2, -, f3, -⟩ := C145_rib_partial hrib one_pos hrad' (Demo.upright_rigid 0) (by fun_prop) hlow Demo.one_road Demo.two_road
    have q1 := (Prod.mk.inj (Res.ok.inj (e₁.symm.trans f1))).2
    have q2 := (Prod.mk.inj (Res.ok.inj (e₂.symm.trans f2))).2
    rw [q1, q2, f3]
  -- one piece
  have ⟨hx₁, hn₁⟩ : x₁ = 0 ∧ o₁.normal = ⟨0, 0, 1⟩ := by
    obtain ⟨seg, c, k1, k2, k3, k4, k5⟩ := Demo.half_contrib (l := -1) (u := 1) (x := -(√3 / 2)) (y := √3 / 2) (by norm_num) (by norm_num) (by linarith) (by linarith)
      (by linarith) (by nlinarith) (by nlinarith) (fun w _ _ hw => by constructor <;> nlinarith)
    have hloop : (Demo.ribOf 1).geomLoop (Demo.upright 0) [Demo.tiles Demo.half Demo.oneEnds 0] Rib.Acc.init = .ok (Rib.Acc.init.add c) := by
      rw [Rib.geomLoop, show (Demo.tiles Demo.half Demo.oneEnds 0) = Demo.tile (-1) 1 (Demo.half (-1)) (Demo.half 1) from rfl, k1, Res.bind_ok]
      dsimp only
      rw [k2]; rfl
    rw [Rib.envelopGeometricMesh, hloop] at e₁
    have e₁ : (Demo.ribOf 1).geomFinish (Demo.upright 0) (Rib.Acc.init.add c) = (true, o₁) := Res.ok.inj e₁
    obtain ⟨hpt, hvo, hno⟩ : o₁.point = V3.sdiv (Rib.Acc.init.add c).point (Rib.Acc.init.add c).volume ∧
        o₁.volume = (Rib.Acc.init.add c).volume ∧
        o₁.normal = V3.normalized (V3.sdiv (Rib.Acc.init.add c).normal (Rib.Acc.init.add c).volume) := by
      unfold Rib.geomFinish at e₁
      split at e₁
      · cases e₁; exact ⟨rfl, rfl, rfl⟩
      · cases e₁
    have : o₁.point.x = 0 := by
      rw [hpt]
      simp only [V3.sdiv, V3.add, V3.smul, Rib.Acc.add, real_add, real_mul, real_div, k4]
      rw [show (-(√3 / 2)) ^ 2 = (√3 / 2) ^ 2 by ring]
      simp [Rib.Acc.init, V3.zeros]
    rw [p₁] at this
    refine ⟨this, ?_⟩
    have hvv : o₁.volume = c.volume := by rw [hvo]; simp [Rib.Acc.add, Rib.Acc.init]
    have hv0 : c.volume ≠ 0 := by rw [← hvv]; linarith
    rw [Retile.arg_left, Retile.arg_right, show (-(5 * Real.pi / 6) + -(Real.pi / 6)) / 2 = -(Real.pi / 2) by ring, Real.cos_neg, Real.sin_neg,
      Real.cos_pi_div_two, Real.sin_pi_div_two] at k5
    have : V3.sdiv (Rib.Acc.init.add c).normal (Rib.Acc.init.add c).volume = ⟨0, 0, 1⟩ := by
      simp [V3.sdiv, V3.add, V3.smul, Rib.Acc.add, Rib.Acc.init, V3.zeros, k5, hv0]
    rw [hno, this, V3.normalized_unit (by norm_num)]
  -- two pieces
  have ⟨hx₂, hn₂⟩ : 0 < x₂ ∧ o₂.normal.x < 0 := by
    obtain ⟨seg, c, k1, k2, k3, k4, k5⟩ := Demo.half_contrib (l := -1) (u := -(√3 / 6)) (x := -(√3 / 2)) (y := -(√3 / 6)) (by linarith) (by linarith) (by linarith) (by linarith)
      le_rfl (by nlinarith) (by nlinarith) (fun w _ _ hw => by constructor <;> nlinarith)
    obtain ⟨seg', c', k1', k2', k3', k4', k5'⟩ := Demo.half_contrib (l := -(√3 / 6)) (u := 1) (x := -(√3 / 6)) (y := √3 / 2) (by linarith) (by linarith) le_rfl (by linarith)
      (by linarith) (by nlinarith) (by nlinarith) (fun w _ _ hw => by constructor <;> nlinarith)
    have hloop : (Demo.ribOf 1).geomLoop (Demo.upright 0) [Demo.tiles Demo.half Demo.twoEnds 0, Demo.tiles Demo.half Demo.twoEnds 1] Rib.Acc.init =
        .ok ((Rib.Acc.init.add c).add c') := by
      rw [Rib.geomLoop, show (Demo.tiles Demo.half Demo.twoEnds 0) = Demo.tile (-1) (-(√3 / 6)) (Demo.half (-1)) (Demo.half (-(√3 / 6))) from rfl,
        k1, Res.bind_ok]
      dsimp only
      rw [k2]
      dsimp only
      rw [Rib.geomLoop, show (Demo.tiles Demo.half Demo.twoEnds 1) = Demo.tile (-(√3 / 6)) 1 (Demo.half (-(√3 / 6))) (Demo.half 1) from rfl,
        k1', Res.bind_ok]
      dsimp only
      rw [k2']; rfl
    rw [Rib.envelopGeometricMesh, hloop] at e₂
    have e₂ : (Demo.ribOf 1).geomFinish (Demo.upright 0) ((Rib.Acc.init.add c).add c') = (true, o₂) := Res.ok.inj e₂
    have hpt : o₂.point = V3.sdiv ((Rib.Acc.init.add c).add c').point ((Rib.Acc.init.add c).add c').volume ∧
        o₂.volume = ((Rib.Acc.init.add c).add c').volume ∧
        o₂.normal = V3.normalized (V3.sdiv ((Rib.Acc.init.add c).add c').normal ((Rib.Acc.init.add c).add c').volume) := by
      unfold Rib.geomFinish at e₂
      split at e₂
      · cases e₂; exact ⟨rfl, rfl, rfl⟩
      · cases e₂
    have hvv : o₂.volume = c.volume + c'.volume := by rw [hpt.2.1]; simp [Rib.Acc.add, Rib.Acc.init]
    have hxx : o₂.point.x = (c.volume * c.point.x + c'.volume * c'.point.x) / o₂.volume := by
      rw [hpt.1, ← hpt.2.1]
      simp [V3.sdiv, V3.add, V3.smul, Rib.Acc.add, Rib.Acc.init, V3.zeros]
    obtain ⟨s1, s2, s3⟩ := Demo.roots
    rw [s2, s3] at k4
    rw [s1, s3] at k4'
    rw [Retile.arg_left, Retile.arg_mid] at k3
    rw [Retile.arg_mid, Retile.arg_right] at k3'
    rw [Retile.arg_left, Retile.arg_mid] at k5
    rw [Retile.arg_mid, Retile.arg_right] at k5'
    have hpi1 := Real.pi_gt_d2
    have hpi2 := Real.pi_lt_d2
    have hn₂ : o₂.normal.x < 0 := by
      have c1 : Real.cos ((-(5 * Real.pi / 6) + -(2 * Real.pi / 3)) / 2) = -(√2 / 2) := by
        rw [show (-(5 * Real.pi / 6) + -(2 * Real.pi / 3)) / 2 = -(Real.pi - Real.pi / 4) by ring, Real.cos_neg, Real.cos_pi_sub, Real.cos_pi_div_four]
      have c2 : Real.cos ((-(2 * Real.pi / 3) + -(Real.pi / 6)) / 2) = √2 / 2 * ((√3 - 1) / 2) := by
        rw [show (-(2 * Real.pi / 3) + -(Real.pi / 6)) / 2 = -(Real.pi / 4 + Real.pi / 6) by ring, Real.cos_neg, Real.cos_add, Real.cos_pi_div_four,
          Real.sin_pi_div_four, Real.cos_pi_div_six, Real.sin_pi_div_six]
        ring
      have hxv : (V3.sdiv ((Rib.Acc.init.add c).add c').normal ((Rib.Acc.init.add c).add c').volume).x < 0 := by
        have hs : (V3.sdiv ((Rib.Acc.init.add c).add c').normal ((Rib.Acc.init.add c).add c').volume).x =
            (c.volume * c.normal.x + c'.volume * c'.normal.x) / o₂.volume := by
          rw [← hpt.2.1]
          simp [V3.sdiv, V3.add, V3.smul, Rib.Acc.add, Rib.Acc.init, V3.zeros]
        rw [hs, k5, k5', c1, c2]
        refine div_neg_of_neg_of_pos ?_ (by linarith)
        have h2 : 0 < √2 := Real.sqrt_pos.2 (by norm_num)
        have e : c.volume * - -(√2 / 2) + c'.volume * -(√2 / 2 * ((√3 - 1) / 2)) = √2 / 2 * (c.volume - c'.volume * ((√3 - 1) / 2)) := by ring
        dsimp only
        rw [e]
        refine mul_neg_of_pos_of_neg (by linarith) ?_
        have u1 : c.volume ≤ 1 / 8 := by rw [k3]; linarith
        have u2 : 2 / 5 ≤ c'.volume := by rw [k3']; linarith
        nlinarith
      rw [hpt.2.2]
      generalize V3.sdiv ((Rib.Acc.init.add c).add c').normal ((Rib.Acc.init.add c).add c').volume = n at hxv
      have hne : n ≠ ⟨0, 0, 0⟩ := by rintro rfl; exact lt_irrefl _ hxv
      rw [V3.normalized_of_ne hne]
      refine div_neg_of_neg_of_pos hxv ?_
      rw [V3.norm_eq, length3]
      exact Real.sqrt_pos.2 (by nlinarith [sq_nonneg n.y, sq_nonneg n.z, sq_pos_of_ne_zero hxv.ne])
    refine ⟨?_, hn₂⟩
    have j4 : c.point.x = -(1 / 2) := by
      rw [k4, div_eq_iff (by positivity)]; linear_combination -h3 / 6
    have j4' : c'.point.x = 1 - √3 / 2 := by
      rw [k4', div_eq_iff (by positivity)]; linear_combination h3 / 3
    rw [p₂, j4, j4', k3, k3'] at hxx
    have hxx : x₂ = _ := hxx
    rw [hxx]
    refine div_pos ?_ (by linarith)
    have hpi := Real.pi_lt_d2
    have hpi0 := Real.pi_pos
    have : (-(2 * Real.pi / 3) - -(5 * Real.pi / 6)) / 2 * -(1 / 2) - (-(√3 / 6) - -(√3 / 2)) / 4 * -(1 / 2) = -(Real.pi / 24) + √3 / 24 := by ring
    have e : ((-(2 * Real.pi / 3) - -(5 * Real.pi / 6)) / 2 - (-(√3 / 6) - -(√3 / 2)) / 4) * -(1 / 2) +
        ((-(Real.pi / 6) - -(2 * Real.pi / 3)) / 2 - (√3 / 2 - -(√3 / 6)) / 4) * (1 - √3 / 2) =
        1 / 4 - √3 / 8 - Real.pi * (√3 / 8 - 5 / 24) := by
      linear_combination (1 / 12) * h3
    rw [e]
    have : Real.pi * (√3 / 8 - 5 / 24) ≤ 3.15 * (√3 / 8 - 5 / 24) := mul_le_mul_of_nonneg_right hpi.le (by linarith)
    norm_num at this
    linarith
  refine ⟨Demo.ribOf 1, Demo.upright 0, _, _, o₁, o₂, hrib, Demo.upright_rigid 0, hrad, hroad ▸ Demo.one_road, hroad ▸ Demo.two_road, e₁, e₂, hvol,
    ?_, ?_, ?_, ?_, hn₁, hn₂⟩
  · rw [d₁, hx₁, show (0 : ℝ) ^ 2 + 1 / 4 = (1 / 2) ^ 2 by norm_num, Real.sqrt_sq (by norm_num)]; norm_num
  · rw [d₂]
    have : 1 / 2 < √(x₂ ^ 2 + 1 / 4) := Real.lt_sqrt_of_sq_lt (by nlinarith)
    linarith
  · rw [p₁]; exact hx₁
  · rw [p₂]; exact hx₂

/-! ### Examples -/

/-- The hypotheses of `C145_rib_partial` are met by a road in one triangle and the same road in two, with contact. -/
example : ∃ o₁ o₂, (Demo.ribOf 1).envelopGeometricMesh [Demo.tiles Demo.half Demo.oneEnds 0] (Demo.upright 0) = .ok (true, o₁) ∧
    (Demo.ribOf 1).envelopGeometricMesh [Demo.tiles Demo.half Demo.twoEnds 0, Demo.tiles Demo.half Demo.twoEnds 1] (Demo.upright 0) = .ok (true, o₂) ∧
    1 / 4 ≤ o₁.volume ∧ o₁.volume = o₂.volume ∧ o₁.area = o₂.area ∧ o₁.friction = 1 ∧ o₂.friction = 1 := by
  have heps : (Scalar.eps : ℝ) ≤ 1 / 100 := by rw [real_eps]; norm_num
  obtain ⟨o₁, x₁, e₁, v₁, -, -⟩ := Demo.half_out Demo.one_road
  obtain ⟨b, o, o₂, f1, f2, f3, f4, f5⟩ := C145_rib_partial (Demo.ribOf_isRib zero_le_one) one_pos
    (show Scalar.eps ≤ (Demo.ribOf 1).radius by rw [show (Demo.ribOf 1).radius = 1 from rfl]; linarith) (Demo.upright_rigid 0)
    (show Continuous fun x : ℝ => 0 * x - 1 / 2 by fun_prop) (fun x _ _ => by linarith) Demo.one_road Demo.two_road
  obtain ⟨rfl, rfl⟩ := Prod.mk.inj (Res.ok.inj (e₁.symm.trans f1))
  obtain ⟨g1, g2⟩ := f5 rfl (by linarith) 1 (by
    intro t ht
    simp only [List.mem_append, List.mem_cons, List.not_mem_nil, or_false] at ht
    rcases ht with rfl | rfl | rfl <;> rfl)
  exact ⟨o₁, o₂, e₁, f2, v₁, f4, f3, g1, g2⟩

/-- A road depends on the disk of the rib. -/
theorem Retile.road_congr {pose : Affine ℝ} {r r' : Rib ℝ} (hd : r.disk = r'.disk) {road : ℝ → ℝ} {ts : List (TriangleGround ℝ)}
    (h : RoadOf pose r road ts) : RoadOf pose r' road ts := by
  have hR : r.radius = r'.radius := congrArg Disk.radius hd
  have hc : r.center = r'.center := congrArg Disk.center hd
  have hside : ∀ X, side pose r X = side pose r' X := fun X => by simp only [side, ribCentre, hc]
  have hpt : ∀ x z, ribPoint pose r x z = ribPoint pose r' x z := fun x z => by simp only [ribPoint, hc]
  have hsep : ∀ {A B C}, Separates pose r A B C → Separates pose r' A B C := fun h => by
    obtain ⟨h1, h2, h3, h4, h5, h6⟩ := h
    simp only [hside] at h1 h2 h3 h4 h5 h6
    exact ⟨h1, h2, h3, h4, h5, h6⟩
  obtain ⟨k, x, T, others, h0, hn, hT, hts, ho⟩ := h
  rw [hR] at h0 hn
  refine ⟨k, x, T, others, h0, hn, fun i hi => ?_, hts, fun t ht => ?_⟩
  · obtain ⟨g1, g2, g3, g4⟩ := hT i hi
    rw [hR] at g3 g4
    refine ⟨⟨g1.lt, fun X => ?_⟩, ⟨g2.area, g2.slope, g2.sep.imp hsep (Or.imp hsep hsep)⟩, g3, g4⟩
    have := g1.cut X
    simp only [hside, hpt] at this
    exact this
  · obtain ⟨a1, a2⟩ := ho t ht
    unfold ClearOfRib at a2
    simp only [hside] at a1 a2
    exact ⟨a1, a2⟩

/-- A triangle with another number. -/
noncomputable def Demo.numbered (i : Nat) (t : TriangleGround ℝ) : TriangleGround ℝ :=
  TriangleGround.updateBBox (TriangleGround.updateNormal ⟨t.tri, i, 1, V3.nan, Box.default⟩)

/-- The road in two pieces as a mesh. -/
noncomputable def Demo.twoMesh : List (TriangleGround ℝ) :=
  [Demo.numbered 0 (Demo.tiles Demo.half Demo.twoEnds 0), Demo.numbered 1 (Demo.tiles Demo.half Demo.twoEnds 1)]

theorem Demo.twoMesh_road : RoadOf (Demo.upright 0) (Demo.ribOf 1) (fun x => 0 * x - 1 / 2) Demo.twoMesh := by
  refine ⟨2, Demo.twoEnds, fun i => Demo.numbered i (Demo.tiles Demo.half Demo.twoEnds i), [], le_rfl, le_rfl, ?_, ?_, by simp⟩
  · intro i hi
    interval_cases i
    · exact Demo.half_tile (l := -1) (u := -(√3 / 6)) (x := -(√3 / 2)) (y := -(√3 / 6)) (by linarith [Demo.two_bounds.2.1])
        (by linarith [Demo.two_bounds.1]) (by linarith [Demo.two_bounds.2.1]) (by linarith [Demo.two_bounds.1]) le_rfl
        (by nlinarith [Demo.two_bounds.2.2]) (by nlinarith [Demo.two_bounds.2.2])
    · exact Demo.half_tile (l := -(√3 / 6)) (u := 1) (x := -(√3 / 6)) (y := √3 / 2) (by linarith [Demo.two_bounds.1])
        (by linarith [Demo.two_bounds.2.1]) le_rfl (by linarith [Demo.two_bounds.1]) (by linarith [Demo.two_bounds.2.1])
        (by nlinarith [Demo.two_bounds.2.2]) (by nlinarith [Demo.two_bounds.2.2])
  · exact List.Perm.of_eq rfl

theorem Demo.one_built : BuiltMesh (Mesh.ofTriangles [Demo.tiles Demo.half Demo.oneEnds 0]) := by
  refine .inr ⟨_, by simp, ?_, ?_, rfl⟩
  · simp only [List.mem_singleton, forall_eq]; exact ⟨_, _, _, _, _, Demo.tile_make _ _ _ _⟩
  · intro i t ht
    match i, ht with
    | 0, ht => simp at ht; subst ht; rfl
    | n + 1, ht => simp at ht

theorem Demo.twoMesh_built : BuiltMesh (Mesh.ofTriangles Demo.twoMesh) := by
  refine .inr ⟨_, by simp [Demo.twoMesh], ?_, ?_, rfl⟩
  · intro t ht
    simp only [Demo.twoMesh, List.mem_cons, List.not_mem_nil, or_false] at ht
    rcases ht with rfl | rfl
    · exact ⟨_, _, _, _, _, Demo.tile_make _ _ _ _⟩
    · refine ⟨1, 1, (Demo.tiles Demo.half Demo.twoEnds 1).tri.v0, (Demo.tiles Demo.half Demo.twoEnds 1).tri.v1,
        (Demo.tiles Demo.half Demo.twoEnds 1).tri.v2, ?_⟩
      simp only [TriangleGround.make]
      rw [show Res.assert (zero <=. (1 : ℝ)) "negative friction coefficient scaling factor detected." = .ok () by simp [Res.assert], Res.bind_ok]
      rfl
  · intro i t ht
    match i, ht with
    | 0, ht => simp [Demo.twoMesh] at ht; subst ht; rfl
    | 1, ht => simp [Demo.twoMesh] at ht; subst ht; rfl
    | n + 2, ht => simp [Demo.twoMesh] at ht

/-- The hypotheses of `C145_tyre_partial` are met by a tyre with one rib, first on the road in one piece and then on the road in two. -/
example (fresh : Nat → Output ℝ) : ∃ (s s₁ s₂ : Shell ℝ) (b₁ b₂ : Bool) (v₁ v₂ : ℝ), Shell.make fresh 1 1 2 2 2 1 = .ok s ∧
    s.setupMesh .raw (Mesh.ofTriangles [Demo.tiles Demo.half Demo.oneEnds 0]) (Demo.upright 0) "geometric" = .ok s₁ b₁ ∧
    s₁.setupMesh .raw (Mesh.ofTriangles Demo.twoMesh) (Demo.upright 0) "geometric" = .ok s₂ b₂ ∧
    s₁.contactVolume .raw = .ok v₁ ∧ s₂.contactVolume .raw = .ok v₂ ∧ |v₁ - v₂| ≤ Scalar.eps := by
  have heps : (Scalar.eps : ℝ) ≤ 1 / 100 := by rw [real_eps]; norm_num
  obtain ⟨s, a, h1, hshape, hab, ha, hac, haR, haw⟩ := Demo.oneRib fresh
  have hreach : s.Reachable .raw := .make h1
  have hdisk : (Demo.ribOf 1).disk = a.disk := (Rib.disk_ribOf ha hac haR 1).symm
  have huse : ∀ t : Shell ℝ, t.Reachable .raw → t.ribs = s.ribs → t.shape = s.shape → TyreInUse .raw t := by
    intro t hr ht hsh
    refine ⟨hr, by rw [hsh, hshape]; norm_num, fun r hr => ?_, fun r hr => ?_⟩
    all_goals
      rw [ht, hab, List.mem_singleton] at hr
      subst hr
    · rw [haw]; norm_num
    · rw [hac, haR, hsh, hshape]; norm_num
  have hstand : ∀ (t : Shell ℝ) (m : Mesh ℝ), t.ribs = s.ribs → BuiltMesh m →
      RoadOf (Demo.upright 0) (Demo.ribOf 1) (fun x => 0 * x - 1 / 2) m.triangles →
      StandsOn t (Demo.upright 0) m fun _ x => 0 * x - 1 / 2 := by
    intro t m ht hb hm
    refine ⟨Demo.upright_rigid 0, hb, fun r hr => ?_, fun r hr => by fun_prop, fun r hr x _ _ => by linarith, fun r hr => ?_⟩
    all_goals
      rw [ht, hab, List.mem_singleton] at hr
      subst hr
    · rw [haR]; linarith
    · exact Retile.road_congr hdisk hm
  have hset : ∀ (t : Shell ℝ) (m : Mesh ℝ), t.Reachable .raw → t.ribs = s.ribs → BuiltMesh m →
      RoadOf (Demo.upright 0) (Demo.ribOf 1) (fun x => 0 * x - 1 / 2) m.triangles →
      ∃ t' b, t.setupMesh .raw m (Demo.upright 0) "geometric" = .ok t' b := by
    intro t m hr ht hb hm
    refine C37_setup_partial t hr (by simp [Shell.size, ht, hab]) _ hb _ (Demo.upright_rigid 0) (fun t' ht' _ r hr => ?_)
    obtain ⟨j, x, T, others, -, -, hT, hts, ho⟩ := (hstand t m ht hb hm).cut r hr
    rcases List.mem_append.1 (hts.mem_iff.1 ht') with h | h
    · obtain ⟨i, hi, rfl⟩ := List.mem_map.1 h
      exact (hT i (List.mem_range.1 hi)).2.1.clear
    · exact (ho t' h).clear
  obtain ⟨s₁, b₁, g1⟩ := hset s (Mesh.ofTriangles [Demo.tiles Demo.half Demo.oneEnds 0]) hreach rfl Demo.one_built Demo.one_road
  have rel₁ := Shell.setupMesh_rel (.inl ⟨b₁, g1⟩)
  have hreach₁ : s₁.Reachable .raw := .setupMesh hreach (.inl g1)
  obtain ⟨s₂, b₂, g2⟩ := hset s₁ (Mesh.ofTriangles Demo.twoMesh) hreach₁ rel₁.ribs Demo.twoMesh_built Demo.twoMesh_road
  obtain ⟨v₁, v₂, c1, c2, c3⟩ := C145_tyre_partial (huse s hreach rfl rfl) (huse s₁ hreach₁ rel₁.ribs rel₁.shape) rel₁.ribs
    (hstand s _ rfl Demo.one_built Demo.one_road) (hstand s₁ _ rel₁.ribs Demo.twoMesh_built Demo.twoMesh_road) g1 g2
  refine ⟨s, s₁, s₂, b₁, b₂, v₁, v₂, h1, g1, g2, c1, c2, ?_⟩
  rw [hab] at c3
  simpa using c3

end Enve
