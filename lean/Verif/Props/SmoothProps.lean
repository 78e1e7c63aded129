import Verif.Props.TyreProps

/-! # C98: small movements of the wheel over flat ground change the contact little -/

namespace Enve

open Scalar Spec

/-- The volume of a contact grows with the depth at most by `2 R w` per unit of depth, the area of the middle
section. -/
theorem Rib.depthVolume_lipschitz {R w a b : ℝ} (hR : 0 < R) (hw : 0 ≤ w) (ha : 0 ≤ a) (ha' : a ≤ R) (hb : 0 ≤ b)
    (hb' : b ≤ R) : |Rib.depthVolume R w a - Rib.depthVolume R w b| ≤ 2 * R * w * |a - b| := by
  wlog hab : b ≤ a generalizing a b with H
  · rw [abs_sub_comm, abs_sub_comm a]
    exact H hb hb' ha ha' (not_le.1 hab).le
  have hle := (convex_Icc (-R) R).image_sub_le_mul_sub_of_deriv_le (C := 2 * R) (f := primSeg R)
    (primSeg_continuous R).continuousOn
    (fun t ht => by
      rw [interior_Icc] at ht
      exact (primSeg_deriv ht.1 ht.2).differentiableAt.differentiableWithinAt)
    (fun t ht => by
      rw [interior_Icc] at ht
      rw [(primSeg_deriv ht.1 ht.2).deriv]
      have : Real.sqrt (R ^ 2 - t ^ 2) ≤ R := by
        rw [Real.sqrt_le_left hR.le]; nlinarith [sq_nonneg t]
      linarith)
    (R - a) ⟨by linarith, by linarith⟩ (R - b) ⟨by linarith, by linarith⟩ (by linarith)
  have hmono := Rib.depthVolume_mono hR hw hb hab ha'
  rw [abs_of_nonneg (by linarith), abs_of_nonneg (by linarith), Rib.depthVolume_eq, Rib.depthVolume_eq]
  have := mul_le_mul_of_nonneg_right hle hw
  nlinarith

theorem Rib.depthVolume_zero {R : ℝ} (w : ℝ) (hR : 0 < R) : Rib.depthVolume R w 0 = 0 := by
  rw [Rib.depthVolume_eq, sub_zero, primSeg_right hR]; simp

/-- A record on flat ground: the volume is that of the depth, which lies between zero and the radius. -/
theorem Rib.flat_volume {r : Rib ℝ} (hr : IsRib r) {pose : Affine ℝ} (hp : IsRigid pose) {f : ℝ}
    {o n : V3 ℝ} {g : Flat ℝ} (hg : Flat.make f o n = .ok g) {method : String} {flag : Bool} {out : Output ℝ}
    (h : r.envelopFlat g pose method = .ok (flag, out)) :
    0 ≤ out.depth ∧ out.depth ≤ r.radius ∧ out.volume = Rib.depthVolume r.radius r.width out.depth := by
  have hR : 0 < r.radius := hr.radius_pos
  cases flag with
  | true =>
    obtain ⟨h1, h2, -, h4, -⟩ := C31_records hr hp (.inl ⟨f, o, n, g, method, hg, h⟩)
    exact ⟨h1.le, h2, by rw [h4, (C31_area_volume r.width hR h1.le (by linarith)).2]⟩
  | false =>
    rw [Rib.envelopFlat_false h]
    simp [Rib.noContact, Rib.depthVolume_zero r.width hR, hR.le]

theorem Spec.sinSq_nonneg {a b : V3 ℝ} (ha : Unit3 a) (hb : Unit3 b) : 0 ≤ sinSq a b := by
  have ha' := ha.dot
  have hb' := hb.dot
  simp only [sinSq, dot3] at *
  nlinarith [sq_nonneg (a.x * b.y - a.y * b.x), sq_nonneg (a.y * b.z - a.z * b.y),
    sq_nonneg (a.z * b.x - a.x * b.z)]

/-- Without contact the section is at most `eps / (S R)` deep. -/
theorem Spec.shallow {q : Plane ℝ} {pose : Affine ℝ} {r : Rib ℝ} (hR : 0 < r.radius) (hS1 : sinSq q.normal pose.linear.c1 ≤ 1)
    (hS : Scalar.eps ≤ sinSq q.normal pose.linear.c1) (h : ¬ FlatContact q pose r) :
    sectionDepth q pose r ≤ Scalar.eps / (sinSq q.normal pose.linear.c1 * r.radius) := by
  have heps := real_eps_pos
  have heps1 := real_eps_lt_one
  have hS0 := heps.trans_le hS
  have hJ : 0 ≤ Scalar.eps / (sinSq q.normal pose.linear.c1 * r.radius) := by positivity
  unfold FlatContact at h
  unfold sectionDepth
  dsimp only at h
  generalize hSg : sinSq q.normal pose.linear.c1 = S at *
  generalize height q (ribCentre pose r) = H at *
  generalize r.radius = R at *
  have hs : 0 < Real.sqrt S := Real.sqrt_pos.2 hS0
  have hd : (|H| / Real.sqrt S) ^ 2 = H ^ 2 / S := by rw [div_pow, sq_abs, Real.sq_sqrt hS0.le]
  have hd0 : 0 ≤ |H| / Real.sqrt S := by positivity
  generalize |H| / Real.sqrt S = d at *
  by_contra hlt
  rw [not_le] at hlt
  have hRd : Scalar.eps < (R - d) * (S * R) := (div_lt_iff₀ (by positivity)).1 hlt
  have h0 : 0 < R - d := hJ.trans_lt hlt
  have hQ : Scalar.eps < S * (R ^ 2 - d ^ 2) := by nlinarith [mul_pos hS0 h0]
  have hQ' : Scalar.eps < R ^ 2 - d ^ 2 := by nlinarith [mul_pos h0 (by linarith : (0:ℝ) < R + d)]
  apply h
  refine ⟨hS, ?_, ?_⟩
  · have : S * d ^ 2 = H ^ 2 := by rw [hd]; field_simp
    nlinarith
  · rw [← hd]
    have h1 : Scalar.eps < Real.sqrt (R ^ 2 - d ^ 2) := by
      apply Real.lt_sqrt_of_sq_lt
      nlinarith
    linarith

/-- One rib, geometric method. -/
theorem Rib.geometricFlat_step {r : Rib ℝ} (hr : IsRib r) {pose pose' : Affine ℝ} (hp : IsRigid pose)
    (hl : pose'.linear = pose.linear) {f : ℝ} {o n : V3 ℝ} {g : Flat ℝ} (hg : Flat.make f o n = .ok g) :
    let S := 1 - dot3 g.plane.normal pose.linear.c1 ^ 2
    |(r.envelopGeometricFlat g pose').2.depth - (r.envelopGeometricFlat g pose).2.depth| ≤
      |dot3 (minus pose'.trans pose.trans) g.plane.normal| / Real.sqrt S + Scalar.eps / (S * r.radius) := by
  intro S
  have hn := Flat.make_unit hg
  have hR : 0 < r.radius := hr.radius_pos
  have hp' : IsRigid pose' := by unfold IsRigid at *; rw [hl]; exact hp
  have hSd : sinSq g.plane.normal pose.linear.c1 = S := rfl
  have hSd' : sinSq g.plane.normal pose'.linear.c1 = S := by rw [hl]; rfl
  have hS0 : 0 ≤ S := sinSq_nonneg hn hp.unit1
  have hS1 : S ≤ 1 := by have := sq_nonneg (dot3 g.plane.normal pose.linear.c1); simp only [S]; linarith
  have heps := real_eps_pos
  have hH : height g.plane (ribCentre pose' r) =
      height g.plane (ribCentre pose r) + dot3 (minus pose'.trans pose.trans) g.plane.normal := by
    simp only [height, ribCentre, Affine.apply, dot3, minus, hl]; v3; ring
  have hstep : |sectionDepth g.plane pose' r - sectionDepth g.plane pose r| ≤
      |dot3 (minus pose'.trans pose.trans) g.plane.normal| / Real.sqrt S := by
    unfold sectionDepth
    rw [hSd, hSd', hH, show ∀ a b c : ℝ, a - b - (a - c) = c - b by intros; ring, ← sub_div, abs_div,
      abs_of_nonneg (Real.sqrt_nonneg S)]
    apply div_le_div_of_nonneg_right _ (Real.sqrt_nonneg S)
    refine (abs_abs_sub_abs_le _ _).trans ?_
    rw [show ∀ a b : ℝ, a - (a + b) = -b by intros; ring, abs_neg]
  have hJ : 0 ≤ Scalar.eps / (S * r.radius) := by positivity
  have hA : 0 ≤ |dot3 (minus pose'.trans pose.trans) g.plane.normal| / Real.sqrt S := by positivity
  have pos : ∀ {q : Affine ℝ}, IsRigid q → FlatContact g.plane q r → 0 < sectionDepth g.plane q r := by
    intro q hq hc
    rcases Rib.geometricFlat_closed hr hq hn with ⟨-, e⟩ | ⟨e, -⟩
    · have := (C32_contact hr hq hg (by rw [e])).2.2.2.2.2.2.1
      rw [e] at this
      exact this
    · exact absurd hc e
  rcases Rib.geometricFlat_closed hr hp hn with ⟨a1, a2⟩ | ⟨a1, a2⟩ <;>
  rcases Rib.geometricFlat_closed hr hp' hn with ⟨b1, b2⟩ | ⟨b1, b2⟩ <;> rw [a2, b2] <;> dsimp only
  · linarith
  · have h1 := pos hp a1
    have h2 := shallow (q := g.plane) (pose := pose') (r := r) hR (by rw [hSd']; exact hS1)
      (by rw [hSd']; exact a1.1) b1
    rw [hSd'] at h2
    have h3 := abs_le.1 hstep
    rw [show (r.noContact pose').depth = 0 by simp [Rib.noContact], zero_sub, abs_neg, abs_of_pos h1]
    linarith [h3.1]
  · have h1 := pos hp' b1
    have h2 := shallow (q := g.plane) (pose := pose) (r := r) hR (by rw [hSd]; exact hS1)
      (by rw [hSd, ← hSd']; exact b1.1) a1
    rw [hSd] at h2
    have h3 := abs_le.1 hstep
    rw [show (r.noContact pose).depth = 0 by simp [Rib.noContact], sub_zero, abs_of_pos h1]
    linarith [h3.2]
  · simp only [Rib.noContact]
    simp only [real_zero, sub_zero, abs_zero]
    linarith

/-- Moving a vertical line moves the point where it meets the plane. -/
theorem Rib.samplingLineFlat_shifted (g : Flat ℝ) (o v : V3 ℝ) :
    (Scalar.eps < |g.plane.normal.z| ∧ ∃ p : V3 ℝ,
      Rib.samplingLineFlat g ⟨o, V3.neg V3.ez⟩ = some (p, g.friction) ∧
      Rib.samplingLineFlat g ⟨V3.add o v, V3.neg V3.ez⟩ = some (V3.add p ⟨v.x, v.y,
        v.z - dot3 v g.plane.normal / g.plane.normal.z⟩, g.friction)) ∨
    (∀ q : V3 ℝ, Rib.samplingLineFlat g ⟨q, V3.neg V3.ez⟩ = none) := by
  by_cases h : Scalar.eps < |g.plane.normal.z|
  · left
    refine ⟨h, ?_⟩
    have hz : g.plane.normal.z ≠ 0 := by
      intro e; rw [e, abs_zero] at h; exact absurd h (not_lt.2 real_eps_pos.le)
    have hd : V3.dot g.plane.normal (V3.neg V3.ez) = -g.plane.normal.z := by
      simp [V3.dot, V3.neg, V3.ez]
    refine ⟨V3.add o (V3.smul (V3.dot (V3.sub g.plane.origin o) g.plane.normal / (-g.plane.normal.z)) (V3.neg V3.ez)), ?_, ?_⟩
    · simp only [Rib.samplingLineFlat, Inter.linePlane, hd, real_lt, real_abs, abs_neg, decide_eq_true_eq, if_pos h,
        Option.map_some, real_div]
    · simp only [Rib.samplingLineFlat, Inter.linePlane, hd, real_lt, real_abs, abs_neg, decide_eq_true_eq, if_pos h,
        Option.map_some, real_div]
      congr 2
      simp only [dot3, V3.dot, V3.sub, V3.add, V3.smul, V3.neg, V3.ez, real_add, real_sub, real_mul, real_neg, real_zero,
        real_one]
      ext <;> dsimp only <;> field_simp <;> ring
  · right
    intro q
    have hd : V3.dot g.plane.normal (V3.neg V3.ez) = -g.plane.normal.z := by
      simp [V3.dot, V3.neg, V3.ez]
    simp only [Rib.samplingLineFlat, Inter.linePlane, hd, real_lt, real_abs, abs_neg, decide_eq_true_eq, if_neg h,
      Option.map_none]

theorem Spec.sqrt_shift_le {A : ℝ} (hA : 0 ≤ A) (z k : ℝ) :
    Real.sqrt (A + (z - k) * (z - k)) ≤ Real.sqrt (A + z * z) + |k| := by
  have h0 := Real.sqrt_nonneg (A + z * z)
  have hz : |z| ≤ Real.sqrt (A + z * z) := Real.abs_le_sqrt (by nlinarith)
  have hs := Real.sq_sqrt (show 0 ≤ A + z * z by nlinarith [mul_self_nonneg z])
  rw [Real.sqrt_le_left (by positivity)]
  have hk := sq_abs k
  have hzk : -(z * k) ≤ |z| * |k| := by rw [← abs_mul]; exact neg_le_abs _
  nlinarith [mul_le_mul_of_nonneg_right hz (abs_nonneg k)]

/-- One rib, sampling method. -/
theorem Rib.samplingFlat_step {r : Rib ℝ} {pose pose' : Affine ℝ} (hl : pose'.linear = pose.linear) {f : ℝ}
    {o n : V3 ℝ} {g : Flat ℝ} (hg : Flat.make f o n = .ok g) :
    |(r.envelopSamplingFlat g pose').2.depth - (r.envelopSamplingFlat g pose).2.depth| ≤
      |dot3 (minus pose'.trans pose.trans) g.plane.normal| / g.plane.normal.z := by
  have hnz : 0 < g.plane.normal.z := by
    have := (C26_flat_normal f o n g hg).2
    exact this.1
  have hA : 0 ≤ |dot3 (minus pose'.trans pose.trans) g.plane.normal| / g.plane.normal.z := by positivity
  set v : V3 ℝ := minus pose'.trans pose.trans with hv
  have ht : ∀ x : V3 ℝ, V3.add pose'.trans (M3.mulVec pose'.linear x) =
      V3.add (V3.add pose.trans (M3.mulVec pose.linear x)) v := by
    intro x
    rw [hl, hv]
    simp only [minus]
    v3
    ext <;> dsimp only <;> ring
  have hcen : r.centerGrd pose' = V3.add (r.centerGrd pose) v := by
    rw [r.centerGrd_eq, r.centerGrd_eq, hv]
    simp only [ribCentre, Affine.apply, hl, minus]
    v3
    ext <;> dsimp only <;> ring
  set w : V3 ℝ := ⟨v.x, v.y, v.z - dot3 v g.plane.normal / g.plane.normal.z⟩ with hw
  unfold Rib.envelopSamplingFlat Rib.envelopSampling
  simp only [Rib.lineXp, Rib.lineXm, Rib.lineYp, Rib.lineYm, ht]
  rcases Rib.samplingLineFlat_shifted g (V3.add pose.trans (M3.mulVec pose.linear
    (V3.add r.center (V3.smul (lit 1 10 *. r.radius) V3.ex)))) v with ⟨heps, p0, e0, e0'⟩ | hno
  · have other : ∀ q, ∃ p : V3 ℝ, Rib.samplingLineFlat g ⟨q, V3.neg V3.ez⟩ = some (p, g.friction) ∧
        Rib.samplingLineFlat g ⟨V3.add q v, V3.neg V3.ez⟩ = some (V3.add p w, g.friction) := by
      intro q
      rcases Rib.samplingLineFlat_shifted g q v with ⟨-, p, e, e'⟩ | hno
      · exact ⟨p, e, e'⟩
      · rw [hno] at e0; cases e0
    obtain ⟨p1, e1, e1'⟩ := other (V3.add pose.trans (M3.mulVec pose.linear
      (V3.sub r.center (V3.smul (lit 1 10 *. r.radius) V3.ex))))
    obtain ⟨p2, e2, e2'⟩ := other (V3.add pose.trans (M3.mulVec pose.linear
      (V3.add r.center (V3.smul (lit 3 10 *. r.width) V3.ey))))
    obtain ⟨p3, e3, e3'⟩ := other (V3.add pose.trans (M3.mulVec pose.linear
      (V3.sub r.center (V3.smul (lit 3 10 *. r.width) V3.ey))))
    rw [e0, e0', e1, e1', e2, e2', e3, e3', hl, hcen]
    dsimp only
    have hs : ∀ a b : V3 ℝ, V3.sub (V3.add a w) (V3.add b w) = V3.sub a b := by
      intro a b; v3; ext <;> dsimp only <;> ring
    have hm : V3.sdiv (V3.add (V3.add (V3.add (V3.add p0 w) (V3.add p1 w)) (V3.add p2 w)) (V3.add p3 w)) (lit 4 1) =
        V3.add (V3.sdiv (V3.add (V3.add (V3.add p0 p1) p2) p3) (lit 4 1)) w := by
      v3
      simp only [real_lit]
      ext <;> dsimp only <;> push_cast <;> ring
    rw [hs, hs, hm]
    generalize V3.sdiv (V3.add (V3.add (V3.add p0 p1) p2) p3) (lit 4 1) = P
    generalize r.centerGrd pose = C
    generalize r.radius *. Scalar.abs (V3.dot (V3.normalized (V3.cross (V3.sub p0 p1) (V3.sub p2 p3)))
      (V3.normalized (V3.cross (V3.normalized pose.linear.c1)
        (V3.normalized (V3.cross (V3.normalized (V3.cross (V3.sub p0 p1) (V3.sub p2 p3)))
          (V3.normalized pose.linear.c1)))))) = K
    have hdist : |V3.norm (V3.sub (V3.add P w) (V3.add C v)) - V3.norm (V3.sub P C)| ≤
        |dot3 v g.plane.normal| / g.plane.normal.z := by
      have e : V3.sub (V3.add P w) (V3.add C v) =
          ⟨(V3.sub P C).x, (V3.sub P C).y, (V3.sub P C).z - dot3 v g.plane.normal / g.plane.normal.z⟩ := by
        rw [hw]; v3; ext <;> dsimp only <;> ring
      rw [e]
      generalize V3.sub P C = D
      rw [← abs_of_pos hnz, ← abs_div, abs_of_pos hnz]
      generalize dot3 v g.plane.normal / g.plane.normal.z = k
      rw [V3.real_norm, V3.real_norm]
      dsimp only
      have h1 := sqrt_shift_le (A := D.x * D.x + D.y * D.y) (by nlinarith [sq_nonneg D.x, sq_nonneg D.y]) D.z k
      have h2 := sqrt_shift_le (A := D.x * D.x + D.y * D.y) (by nlinarith [sq_nonneg D.x, sq_nonneg D.y]) (D.z - k) (-k)
      rw [abs_neg, show D.z - k - -k = D.z by ring] at h2
      exact abs_le.2 ⟨by linarith, by linarith⟩
    rw [abs_le] at hdist ⊢
    simp only [real_lt, real_sub, real_zero, decide_eq_true_eq]
    split_ifs <;> simp only [Rib.noContact, real_zero] <;> constructor <;> linarith [hdist.1, hdist.2]
  · simp only [hno]
    simp only [Rib.noContact]
    simpa using hA

/-- **C98, geometric method.**  Two setups of the same tyre on flat ground, at two poses that differ by a translation:
the depths reported for a rib differ by at most the translation along the ground normal, divided by the sine of the angle
between the wheel axis and the normal, plus the tolerance over the radius times the squared sine (the depth below which
no contact is reported); the volumes differ by at most `2 R w` times as much. -/
theorem C98_geometric {pol pol' : Policy} {s s₁ s₂ : Shell ℝ} (hreach : s.Reachable pol) {pose pose' : Affine ℝ}
    (hp : IsRigid pose) (hl : pose'.linear = pose.linear) {f : ℝ} {o n : V3 ℝ} {g : Flat ℝ}
    (hg : Flat.make f o n = .ok g) {b₁ b₂ : Bool}
    (hs₁ : s.setupFlat pol g pose "geometric" = .ok s₁ b₁) (hs₂ : s.setupFlat pol' g pose' "geometric" = .ok s₂ b₂)
    {i : Nat} {r r' : Rib ℝ} {o₁ o₂ : Output ℝ} (h₁ : Shows pol s₁ i r o₁) (h₂ : Shows pol' s₂ i r' o₂) :
    let S := 1 - dot3 g.plane.normal pose.linear.c1 ^ 2
    let step := |dot3 (minus pose'.trans pose.trans) g.plane.normal| / Real.sqrt S + Scalar.eps / (S * r.radius)
    |o₂.depth - o₁.depth| ≤ step ∧ |o₂.volume - o₁.volume| ≤ 2 * r.radius * r.width * step := by
  intro S step
  obtain ⟨hmem, hi, _, he₁⟩ := h₁.flat hs₁
  obtain ⟨-, hi', _, he₂⟩ := h₂.flat hs₂
  rw [hi] at hi'
  cases hi'
  have hr := hreach.isRib r hmem
  have hp' : IsRigid pose' := by unfold IsRigid at *; rw [hl]; exact hp
  have hd := Rib.geometricFlat_step hr hp hl hg
  dsimp only at hd
  rw [Rib.envelopFlat_geometric_eq he₁, Rib.envelopFlat_geometric_eq he₂] at hd
  refine ⟨hd, ?_⟩
  obtain ⟨a1, a2, a3⟩ := Rib.flat_volume hr hp hg he₁
  obtain ⟨b1, b2, b3⟩ := Rib.flat_volume hr hp' hg he₂
  rw [a3, b3]
  refine (Rib.depthVolume_lipschitz hr.radius_pos hr.width_nonneg b1 b2 a1 a2).trans ?_
  exact mul_le_mul_of_nonneg_left hd (mul_nonneg (by linarith [hr.radius_pos]) hr.width_nonneg)

/-- **C98, sampling method.**  The depths differ by at most the translation along the ground normal divided by the
vertical component of the normal, the volumes by `2 R w` times as much.  In particular moving the wheel parallel to the
ground changes neither. -/
theorem C98_sampling {pol pol' : Policy} {s s₁ s₂ : Shell ℝ} (hreach : s.Reachable pol) {pose pose' : Affine ℝ}
    (hp : IsRigid pose) (hl : pose'.linear = pose.linear) {f : ℝ} {o n : V3 ℝ} {g : Flat ℝ}
    (hg : Flat.make f o n = .ok g) {b₁ b₂ : Bool}
    (hs₁ : s.setupFlat pol g pose "sampling" = .ok s₁ b₁) (hs₂ : s.setupFlat pol' g pose' "sampling" = .ok s₂ b₂)
    {i : Nat} {r r' : Rib ℝ} {o₁ o₂ : Output ℝ} (h₁ : Shows pol s₁ i r o₁) (h₂ : Shows pol' s₂ i r' o₂) :
    let step := |dot3 (minus pose'.trans pose.trans) g.plane.normal| / g.plane.normal.z
    |o₂.depth - o₁.depth| ≤ step ∧ |o₂.volume - o₁.volume| ≤ 2 * r.radius * r.width * step := by
  intro step
  obtain ⟨hmem, hi, _, he₁⟩ := h₁.flat hs₁
  obtain ⟨-, hi', _, he₂⟩ := h₂.flat hs₂
  rw [hi] at hi'
  cases hi'
  have hr := hreach.isRib r hmem
  have hp' : IsRigid pose' := by unfold IsRigid at *; rw [hl]; exact hp
  have hd := Rib.samplingFlat_step (r := r) hl hg
  rw [Rib.envelopFlat_sampling_eq he₁, Rib.envelopFlat_sampling_eq he₂] at hd
  refine ⟨hd, ?_⟩
  obtain ⟨a1, a2, a3⟩ := Rib.flat_volume hr hp hg he₁
  obtain ⟨b1, b2, b3⟩ := Rib.flat_volume hr hp' hg he₂
  rw [a3, b3]
  refine (Rib.depthVolume_lipschitz hr.radius_pos hr.width_nonneg b1 b2 a1 a2).trans ?_
  exact mul_le_mul_of_nonneg_left hd (mul_nonneg (by linarith [hr.radius_pos]) hr.width_nonneg)

/-- The hypotheses are met, and the bound is met up to the tolerance: the tyre of one rib, lowered by one half onto the
road, goes from depth one half to depth one. -/
example (fresh : Nat → Output ℝ) : ∃ (s sA sB : Shell ℝ) (r : Rib ℝ) (oA oB : Output ℝ) (bA bB : Bool),
    s.Reachable .raw ∧
    s.setupFlat .raw Demo.road (Demo.upright (1 / 2)) "geometric" = .ok sA bA ∧
    s.setupFlat .raw Demo.road (Demo.upright 0) "geometric" = .ok sB bB ∧
    Shows .raw sA 0 r oA ∧ Shows .raw sB 0 r oB ∧ |oB.depth - oA.depth| = 1 / 2 ∧
    |oB.depth - oA.depth| ≤ 1 / 2 + Scalar.eps := by
  have heps := real_eps_le_half
  obtain ⟨s, a, h1, -, hab, ha, hac, haR, haw⟩ := Demo.oneRib fresh
  have hreach : s.Reachable .raw := .make h1
  have hsz : s.size ≤ 200 := by simp [Shell.size, hab]
  have h0 : s.ribs[0]? = some a := by simp [hab]
  obtain ⟨sA, bA, hA, kA⟩ := Shell.flat_shows hreach hsz Demo.road (Demo.upright (1 / 2)) (.inl rfl)
  obtain ⟨sB, bB, hB, kB⟩ := Shell.flat_shows hreach hsz Demo.road (Demo.upright 0) (.inl rfl)
  obtain ⟨oA, gA⟩ := kA 0 a h0
  obtain ⟨oB, gB⟩ := kB 0 a h0
  have main := (C98_geometric (pose := Demo.upright (1 / 2)) (pose' := Demo.upright 0) hreach (Demo.upright_rigid _) rfl Demo.road_make hA hB gA gB).1
  obtain ⟨-, -, fA, eA⟩ := gA.flat hA
  obtain ⟨-, -, fB, eB⟩ := gB.flat hB
  have eA := Rib.envelopFlat_geometric_eq eA
  have eB := Rib.envelopFlat_geometric_eq eB
  rw [Demo.oneRib_eval ha hac haR (by norm_num) (by norm_num; linarith)] at eA
  rw [Demo.oneRib_eval ha hac haR le_rfl (by norm_num; linarith)] at eB
  refine ⟨s, sA, sB, a, oA, oB, bA, bB, hreach, hA, hB, gA, gB, ?_, ?_⟩
  · rw [← (Prod.mk.inj eA).2, ← (Prod.mk.inj eB).2]; norm_num
  · refine main.trans (le_of_eq ?_)
    rw [haR]
    norm_num [dot3, minus, Demo.road, Demo.upright]

end Enve
