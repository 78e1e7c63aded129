import Verif.Lemmas.Cut
import Verif.Props.AccurateProps
import Verif.Props.DoubleSearchProps

/-! # C109: the accuracy of the geometric method on flat ground, in doubles -/

namespace Enve

open Scalar Spec B64

namespace Cut
variable {ε : ℝ}

theorem Extent.bounds {M : ℝ} (h : Extent M) : 16 ≤ M ∧ M ≤ 1024 ∧ M * M ≤ 1024 * M ∧ 16 * M ≤ M * M := by
  have h1 := h.lo
  have h2 : M ≤ 1024 := h.hi.trans (by norm_num)
  refine ⟨h1, h2, ?_, ?_⟩ <;> nlinarith

/-- Side conditions that are linear in `M` and `M * M`. -/
local macro "mm" : tactic => `(tactic| first | (norm_num <;> linarith) | linarith)

theorem upto_of_norm {v : V3 ℝ} {A : ℝ} (h : V3.norm v ≤ A) : Upto A v := (V3.abs_le_norm v).mono h

theorem dot_bound {a b : V3 ℝ} {A B : ℝ} (ha : V3.norm a ≤ A) (hb : V3.norm b ≤ B) : |dot3 a b| ≤ A * B := by
  rw [← dot_eq]
  exact (V3.dot_le_norm a b).trans (mul_le_mul ha hb (V3.norm_nonneg _) ((V3.norm_nonneg _).trans ha))

theorem hub_norm {M R y : ℝ} (hM : Extent M) {P : Affine ℝ} {o n : V3 ℝ} (hs : CutScene M R y P o n) : V3.norm (hub y P) ≤ 17 / 16 * M := by
  have hM0 := hM.lo
  have e : hub y P = V3.add P.trans (V3.smul y P.linear.c1) := by
    simp only [hub, V3.real_add, V3.real_smul]; ext <;> dsimp only <;> ring
  rw [e]
  refine (V3.norm_add_le _ _).trans ?_
  have h1 : V3.norm (V3.smul y P.linear.c1) ≤ 1 := by
    apply abs_le_of_sq_le_sq' _ (by mm) |>.2
    rw [V3.norm_sq]
    simp only [V3.real_smul]
    have := hs.rigid.unit1
    have hy := hs.y_le
    have hy2 : y ^ 2 ≤ 1 := by rw [← sq_abs]; nlinarith [abs_nonneg y]
    calc _ = y ^ 2 * (P.linear.c1.x ^ 2 + P.linear.c1.y ^ 2 + P.linear.c1.z ^ 2) := by ring
      _ ≤ 1 ^ 2 := by rw [this]; linarith
  have h2 : V3.norm P.trans ≤ M := by rw [V3.norm_eq]; exact hs.place
  linarith

theorem k_lo {s : ℝ} (h : |s| ≤ 3 / 5) : 16 / 25 ≤ 1 - s ^ 2 := by
  rw [← sq_abs]; nlinarith [abs_nonneg s]

/-- The centre and the normal of the rib on the ground. -/
theorem disk (hε : Fine ε) {M R y : ℝ} (hM : Extent M) {P : Affine ℝ} {o n : V3 ℝ} (hs : CutScene M R y P o n) {r : Rib B64}
    (hr : CutRib M ε r R y) {p : Affine B64} (hp : CutPose M ε p P) :
    Close3 (29 / 4 * M * ε) (r.centerGrd p) (hub y P) ∧ Close3 (14 * ε) (r.normalGrd p) P.linear.c1 := by
  obtain ⟨m0, m1, m2, m3⟩ := Extent.bounds hM
  have u0 := Upto.unit hs.rigid.unit0
  have u1 := Upto.unit hs.rigid.unit1
  have u2 := Upto.unit hs.rigid.unit2
  have ht : Upto M P.trans := upto_of_norm (by rw [V3.norm_eq]; exact hs.place)
  have hy := hs.y_le
  have c0 : Close3 (1 * ε) p.linear.c0 P.linear.c0 := by rw [one_mul]; exact hp.c0
  have c1 : Close3 (1 * ε) p.linear.c1 P.linear.c1 := by rw [one_mul]; exact hp.c1
  have c2 : Close3 (1 * ε) p.linear.c2 P.linear.c2 := by rw [one_mul]; exact hp.c2
  refine ⟨?_, ?_⟩
  · have hm : Close3 (11 / 2 * M * ε) (M3.mulVec p.linear r.disk.plane.origin) (M3.mulVec P.linear ⟨0, y, 0⟩) :=
      Close3.mulVec hε c0 c1 c2 hr.center u0 u1 u2 ⟨by norm_num, hy, by norm_num⟩ (δ := 5 / 4 * M) (by mm) (by mm) (by mm) (by mm)
        (by mm)
    have hu : Upto (17 / 16 * M) (V3.add P.trans (M3.mulVec P.linear ⟨0, y, 0⟩)) := by
      rw [Accurate.hub_eq]; exact upto_of_norm (hub_norm hM hs)
    have := hp.trans.add hε hm hu (by mm) (by mm) (by mm) (γ := 29 / 4 * M) (by mm)
    rwa [Accurate.hub_eq] at this
  · have ha' : Close3 (1 * ε) r.disk.plane.normal ⟨0, 1, 0⟩ := by rw [one_mul]; exact hr.axis
    have := Close3.mulVec hε c0 c1 c2 ha' u0 u1 u2 ⟨by simp, by simp, by simp⟩ (B := 1) (δ := 201 / 100) (γ := 14) (by norm_num)
      (by norm_num) (by norm_num) (by norm_num) (by norm_num)
    have e : M3.mulVec P.linear ⟨0, 1, 0⟩ = P.linear.c1 := by
      simp only [M3.mulVec, Scalar.real_add, Scalar.real_mul, mul_zero, mul_one, zero_add, add_zero]
    rwa [e] at this

set_option maxHeartbeats 1000000 in
/-- The line of intersection. -/
theorem line (hε : Fine ε) {M : ℝ} (hM : Extent M) {n N o c : V3 ℝ} (hn : n.x ^ 2 + n.y ^ 2 + n.z ^ 2 = 1) (hN : N.x ^ 2 + N.y ^ 2 + N.z ^ 2 = 1)
    (hsd : |dot3 n N| ≤ 3 / 5) (ho : V3.norm o ≤ M) (hc : V3.norm c ≤ (17 / 16 * M)) {a b : Plane B64}
    (a1 : Close3 (M * ε) a.origin o) (a2 : Close3 (1 * ε) a.normal n) (b1 : Close3 (29 / 4 * M * ε) b.origin c)
    (b2 : Close3 (14 * ε) b.normal N) :
    ∃ l, Inter.planePlane a b Scalar.eps = some l ∧ Close3 (4057 * M * ε) l.origin (base n N o c) ∧
      Close3 (137 * ε) l.direction (V3.cross n N) := by
  obtain ⟨m0, m1, m2, m3⟩ := Extent.bounds hM
  have un := Upto.unit hn
  have uN := Upto.unit hN
  have nn : V3.norm n = 1 := V3.norm_eq_one.2 hn
  have nN : V3.norm N = 1 := V3.norm_eq_one.2 hN
  have k := k_lo hsd
  have sd1 : ∀ v : V3 ℝ, V3.sdiv v 1 = v := by intro v; simp only [V3.real_sdiv, div_one]
  have h0 : Close3 (8 * ε) (V3.normalized a.normal) n := by
    have := a2.normalized hε nn (by mm) (by mm) (by mm) (by mm) (γ := 8) (by mm)
    rwa [sd1] at this
  have h1 : Close3 (54 * ε) (V3.normalized b.normal) N := by
    have := b2.normalized hε nN (by mm) (by mm) (by mm) (by mm) (γ := 54) (by mm)
    rwa [sd1] at this
  have hdir : Close3 (137 * ε) (V3.cross (V3.normalized a.normal) (V3.normalized b.normal)) (V3.cross n N) :=
    Close3.cross hε h0 h1 un uN (by mm) (by mm) (δ := 621 / 10) (by mm) (by mm) (by mm)
  have ndir : V3.norm (V3.cross n N) ^ 2 = 1 - dot3 n N ^ 2 := by
    rw [← cross_sq hn hN, V3.norm_sq, V3.real_dot]; ring
  have ndir1 : V3.norm (V3.cross n N) ≤ 1 := by
    apply abs_le_of_sq_le_sq' _ (by mm) |>.2
    rw [ndir]; nlinarith [sq_nonneg (dot3 n N)]
  have hdot : Close (258 * ε) (V3.dot (V3.normalized a.normal) (V3.normalized b.normal)) (V3.dot n N) :=
    Close3.dot hε h0 h1 un uN (by mm) (by mm) (δ := 621 / 10) (by mm) (by mm) (by mm)
  have hnorm := (hdir.norm' hε (by mm) (by mm) ndir1 (by mm) (γ := 312) (by mm)).1
  have hsq := hnorm.mul hε hnorm (A := 1) (B := 1) (by rw [abs_of_nonneg (V3.norm_nonneg _)]; exact ndir1)
    (by rw [abs_of_nonneg (V3.norm_nonneg _)]; exact ndir1) (by mm) (by mm) (δ := 6241 / 10) (by mm) (by mm)
    (γ := 625) (by mm)
  have hsd' : |V3.dot n N| ≤ 3 / 5 := by rw [dot_eq]; exact hsd
  have hdd := hdot.mul hε hdot hsd' hsd' (by mm) (by mm) (δ := 310) (by mm) (by mm) (γ := 311) (by mm)
  have hs2 : V3.dot n N * V3.dot n N = dot3 n N ^ 2 := by rw [dot_eq, pow_two]
  have hone : Close (0 * ε) (one : B64) 1 := by rw [B64.one_eq]; exact Close.exact 1
  have hk : Close (312 * ε) (one -. V3.dot (V3.normalized a.normal) (V3.normalized b.normal) *.
      V3.dot (V3.normalized a.normal) (V3.normalized b.normal)) (1 - V3.dot n N * V3.dot n N) := by
    refine hone.sub hε hdd (C := 1) ?_ le_rfl (by mm) (by mm) (by mm)
    rw [hs2, abs_of_nonneg] <;> nlinarith [sq_nonneg (dot3 n N)]
  have hkl : 16 / 25 ≤ |1 - V3.dot n N * V3.dot n N| := by rw [hs2, abs_of_nonneg] <;> linarith
  have hinv := hone.div hε hk (A := 1) (by mm) hkl le_rfl (by mm) (by mm) (by mm) (δ := 813) (by mm)
    (by mm) (γ := 814) (by mm)
  have hinvb : |1 / (1 - V3.dot n N * V3.dot n N)| ≤ 25 / 16 := by
    rw [abs_div, abs_one, div_le_iff₀ (by linarith)]; linarith
  have hd0 : Close (57 / 4 * M * ε) (-. a.d) (V3.dot o n) := by
    have : Close (57 / 4 * M * ε) (V3.dot a.origin a.normal) (V3.dot o n) :=
      Close3.dot hε a1 a2 (upto_of_norm ho) un (by mm) (by mm) (δ := 9 / 4 * M) (by mm) (by mm) (by mm)
    have := this.neg.neg
    rwa [neg_neg] at this
  have hd1 : Close (189 / 2 * M * ε) (-. b.d) (V3.dot c N) := by
    have : Close (189 / 2 * M * ε) (V3.dot b.origin b.normal) (V3.dot c N) :=
      Close3.dot hε b1 b2 (upto_of_norm hc) uN (by mm) (by mm) (δ := 89 / 4 * M) (by mm) (by mm) (by mm)
    have := this.neg.neg
    rwa [neg_neg] at this
  have b0 : |V3.dot o n| ≤ M := by rw [dot_eq]; exact (dot_bound ho nn.le).trans (by mm)
  have b1' : |V3.dot c N| ≤ (17 / 16 * M) := by rw [dot_eq]; exact (dot_bound hc nN.le).trans (by mm)
  have hs0 := hdot.mul hε hd1 hsd' b1' (by mm) (by mm) (δ := 331 * M) (by mm) (by mm) (γ := 332 * M) (by mm)
  have hs1 := hdot.mul hε hd0 hsd' b0 (by mm) (by mm) (δ := 267 * M) (by mm) (by mm) (γ := 268 * M) (by mm)
  have sm : ∀ u v : ℝ, |u| ≤ (17 / 16 * M) → |v| ≤ (17 / 16 * M) → |u - V3.dot n N * v| ≤ 17 / 10 * M := by
    intro u v hu hv
    refine (abs_sub _ _).trans ?_
    rw [abs_mul]
    have := mul_le_mul hsd' hv (abs_nonneg _) (by mm)
    linarith
  have sm0 := sm _ _ (b0.trans (by mm)) b1'
  have sm1 := sm _ _ b1' (b0.trans (by mm))
  have ht0 := hd0.sub hε hs0 sm0 (by mm) (by mm) (by mm) (γ := 348 * M) (by mm)
  have ht1 := hd1.sub hε hs1 sm1 (by mm) (by mm) (by mm) (γ := 364 * M) (by mm)
  have hc0 := ht0.mul hε hinv sm0 hinvb (by mm) (by mm) (δ := 1928 * M) (by mm) (by mm) (γ := 1930 * M)
    (by mm)
  have hc1 := ht1.mul hε hinv sm1 hinvb (by mm) (by mm) (δ := 1953 * M) (by mm) (by mm) (γ := 1955 * M)
    (by mm)
  have mb : ∀ u : ℝ, |u| ≤ 17 / 10 * M → |u * (1 / (1 - V3.dot n N * V3.dot n N))| ≤ 85 / 32 * M := by
    intro u hu
    rw [abs_mul]
    exact (mul_le_mul hu hinvb (abs_nonneg _) (by mm)).trans (by mm)
  have hv0 := Close3.smul hε hc0 h0 (mb _ sm0) un (by mm) (by mm) (δ := 1952 * M) (by mm) (by mm) (γ := 1954 * M)
    (by mm)
  have hv1 := Close3.smul hε hc1 h1 (mb _ sm1) uN (by mm) (by mm) (δ := 2099 * M) (by mm) (by mm) (γ := 2101 * M)
    (by mm)
  have ub : Upto (239 / 100 * M) (base n N o c) := upto_of_norm ((base_norm hn hN hsd (A := 17 / 16 * M)
    (by rw [← dot_eq]; exact b0.trans (by mm)) (by rw [← dot_eq]; exact b1')).trans (by linarith))
  have hb := hv0.add hε hv1 ub (by mm) (by mm) (by mm) (γ := 4057 * M) (by mm)
  refine ⟨⟨_, _⟩, ?_, hb, hdir⟩
  unfold Inter.planePlane
  obtain ⟨x, hx, hx'⟩ := hsq
  have hnot : Scalar.isApprox (V3.norm (V3.cross (V3.normalized a.normal) (V3.normalized b.normal)) *.
      V3.norm (V3.cross (V3.normalized a.normal) (V3.normalized b.normal))) zero (Scalar.eps : B64) = false := by
    rw [hx, Scalar.isApprox, B64.zero_eq]
    have hε40 := hε.hi
    have hxl : 1 / 2 ≤ x := by
      have h := (abs_le.1 hx').1
      rw [← pow_two, ndir] at h
      norm_num at hε40
      linarith
    obtain ⟨z, hz, hz'⟩ : Close (1 * (1 / 2 ^ 40 : ℝ)) (fin x -. fin 0) (x - 0) := by
      have f40 : Fine (1 / 2 ^ 40 : ℝ) := ⟨by norm_num, le_rfl⟩
      have hx2 : |x - 0| ≤ 3 / 2 := by
        have h := (abs_le.1 hx').2
        rw [← pow_two, ndir] at h
        norm_num at hε40
        rw [sub_zero, abs_of_nonneg] <;> nlinarith [sq_nonneg (dot3 n N)]
      exact (Close.exact x : Close (0 * (1 / 2 ^ 40)) _ _).sub f40 (Close.exact 0) hx2 le_rfl le_rfl (by mm) (by mm)
    rw [hz, DoubleDemo.abs_fin, show (Scalar.eps : B64) = fin Scalar.eps from rfl, lt_fin, decide_eq_false_iff_not, not_lt]
    have h3 : (Scalar.eps : ℝ) = (2 : ℝ)⁻¹ ^ 26 := rfl
    rw [h3]
    refine le_trans ?_ (le_abs_self z)
    have := (abs_le.1 hz').1
    norm_num at this ⊢
    linarith
  simp only [hnot, Bool.false_eq_true, if_false]
  rfl

theorem eps_fin : (Scalar.eps : B64) = fin (1 / 2 ^ 26) := by
  rw [show (Scalar.eps : B64) = fin Scalar.eps from rfl]
  congr 1
  show (2 : ℝ)⁻¹ ^ 26 = _
  norm_num

theorem add_nan (a : B64) : a +. Scalar.nan = Scalar.nan := by
  show B64.round (a.val +. XR.nan) = _; rw [XR.add_nan]; rfl
theorem nan_add (a : B64) : Scalar.nan +. a = Scalar.nan := by
  show B64.round (XR.nan +. a.val) = _; rw [XR.nan_add]; rfl
theorem sub_nan (a : B64) : a -. Scalar.nan = Scalar.nan := by
  show B64.round (a.val -. XR.nan) = _; rw [XR.sub_nan]; rfl
theorem nan_mul (a : B64) : Scalar.nan *. a = Scalar.nan := by
  show B64.round (XR.nan *. a.val) = _; rw [XR.nan_mul]; rfl
theorem sqrt_nan : Scalar.sqrt (Scalar.nan : B64) = Scalar.nan := rfl
theorem lt_nan (a : B64) : (a <. (Scalar.nan : B64)) = false := XR.lt_nan a.val
theorem sqrt_neg {x : ℝ} (h : x < 0) : Scalar.sqrt (fin x) = (Scalar.nan : B64) := by
  show B64.round (Scalar.sqrt (XR.fin x)) = _
  have : Scalar.sqrt (XR.fin x) = XR.nan := by
    show (if 0 ≤ x then _ else _) = _
    rw [if_neg (not_le.2 h)]
  rw [this]; rfl

theorem same_length {u v w : ℝ} : (⟨⟨fin u, fin v, fin w⟩, ⟨fin u, fin v, fin w⟩⟩ : Segment B64).length = fin 0 := by
  have r0 : B64.round (.fin 0) = fin 0 := B64.exact 0 0 (by mm) (by mm) (by mm) (by mm)
  have z : ∀ a : ℝ, fin a -. fin a = fin 0 := by
    intro a; rw [sub_fin, sub_self, r0]
  have m : fin 0 *. fin 0 = fin 0 := by rw [mul_fin, mul_zero, r0]
  have a : fin 0 +. fin 0 = fin 0 := by rw [add_fin, add_zero, r0]
  simp only [Segment.length, V3.norm, V3.sqNorm, V3.dot, V3.sub, z, m, a]
  rw [sqrt_fin le_rfl, Real.sqrt_zero, r0]

/-- The quadratic equation of the line and the circle. -/
theorem quad (hε : Fine ε) {M : ℝ} (hM : Extent M) {n N o c : V3 ℝ} {R : ℝ} (hn : n.x ^ 2 + n.y ^ 2 + n.z ^ 2 = 1) (hN : N.x ^ 2 + N.y ^ 2 + N.z ^ 2 = 1)
    (hsd : |dot3 n N| ≤ 3 / 5) (ho : V3.norm o ≤ M) (hc : V3.norm c ≤ (17 / 16 * M)) (hR0 : 1 / 8 ≤ R) (hR2 : R ≤ 2) {l : Line B64}
    (l1 : Close3 (4057 * M * ε) l.origin (base n N o c)) (l2 : Close3 (137 * ε) l.direction (V3.cross n N)) {d : Disk B64}
    (d1 : Close (1 * ε) d.radius R) (d2 : Close3 (29 / 4 * M * ε) d.center c) :
    Close (18182 * M * ε) (V3.dot (V3.sub l.origin d.center) l.direction) (V3.dot (V3.sub (base n N o c) c) (V3.cross n N)) ∧
    |V3.dot (V3.sub (base n N o c) c) (V3.cross n N)| ≤ (17 / 16 * M) ∧
    Close (2871 * ε) (one /. V3.dot l.direction l.direction) (1 / (1 - dot3 n N ^ 2)) ∧
    Close (2 ^ 18 * (M * M) * ε) (V3.dot (V3.sub l.origin d.center) l.direction *. V3.dot (V3.sub l.origin d.center) l.direction -.
      (V3.dot (V3.sub l.origin d.center) (V3.sub l.origin d.center) -. d.radius *. d.radius) *. V3.dot l.direction l.direction)
      ((1 - dot3 n N ^ 2) * (R ^ 2 - V3.norm (V3.sub (foot n N o c) c) ^ 2)) := by
  obtain ⟨m0, m1, m2, m3⟩ := Extent.bounds hM
  have k := k_lo hsd
  have k0 : 1 - dot3 n N ^ 2 ≠ 0 := by linarith
  have k1 : 1 - dot3 n N ^ 2 ≤ 1 := by nlinarith [sq_nonneg (dot3 n N)]
  have nn : V3.norm n = 1 := V3.norm_eq_one.2 hn
  have nN : V3.norm N = 1 := V3.norm_eq_one.2 hN
  have ndir : V3.norm (V3.cross n N) ^ 2 = 1 - dot3 n N ^ 2 := by
    rw [← cross_sq hn hN, V3.norm_sq, V3.real_dot]; ring
  have ndir1 : V3.norm (V3.cross n N) ≤ 1 := by
    apply abs_le_of_sq_le_sq' _ (by mm) |>.2
    rw [ndir]; linarith
  have udir := upto_of_norm ndir1
  have hbn := base_norm (o := o) (c := c) (A := 17 / 16 * M) hn hN hsd ((dot_bound ho nn.le).trans (by linarith))
    ((dot_bound hc nN.le).trans (by linarith))
  have nneg : ∀ v : V3 ℝ, V3.norm (V3.neg v) = V3.norm v := by
    intro v
    rw [V3.real_norm, V3.real_norm]; simp only [V3.real_neg]; congr 1; ring
  have subn : ∀ u v : V3 ℝ, V3.norm (V3.sub u v) ≤ V3.norm u + V3.norm v := by
    intro u v
    have e : V3.sub u v = V3.add u (V3.neg v) := by
      simp only [V3.real_sub, V3.real_add, V3.real_neg]; ext <;> dsimp only <;> ring
    rw [e, ← nneg v]; exact V3.norm_add_le _ _
  have hdn : V3.norm (V3.sub (base n N o c) c) ≤ 173 / 50 * M := (subn _ _).trans (by linarith)
  have udiff := upto_of_norm hdn
  have hdiff := l1.sub hε d2 udiff (by mm) (by mm) (by mm) (γ := 4066 * M) (by mm)
  have ha2 := Close3.dot hε l2 l2 udir udir (by mm) (by mm) (δ := 2741 / 10) (by mm) (by mm) (γ := 1102)
    (by mm)
  have ha1 := Close3.dot hε hdiff l2 udiff udir (by mm) (by mm) (δ := 4541 * M) (by mm) (by mm) (γ := 18182 * M)
    (by mm)
  have ba1 : |V3.dot (V3.sub (base n N o c) c) (V3.cross n N)| ≤ (17 / 16 * M) := by
    have h1 := base_dir (o := o) (c := c) k0
    have e : V3.dot (V3.sub (base n N o c) c) (V3.cross n N) = -dot3 c (V3.cross n N) := by
      simp only [V3.real_dot, V3.real_sub, dot3] at h1 ⊢
      linear_combination h1
    rw [e, abs_neg]
    exact (dot_bound hc ndir1).trans (by mm)
  have ba2 : |V3.dot (V3.cross n N) (V3.cross n N)| ≤ 1 := by
    rw [cross_sq hn hN, abs_of_nonneg] <;> linarith
  have ba2' : 16 / 25 ≤ |V3.dot (V3.cross n N) (V3.cross n N)| := by
    rw [cross_sq hn hN, abs_of_nonneg] <;> linarith
  have hdd := Close3.dot hε hdiff hdiff udiff udiff (by mm) (by mm) (δ := 28137 * (M * M)) (by mm) (by mm)
    (γ := 112608 * (M * M)) (by mm)
  have bdd : V3.dot (V3.sub (base n N o c) c) (V3.sub (base n N o c) c) = V3.norm (V3.sub (base n N o c) c) ^ 2 := by
    rw [V3.norm_sq, V3.real_dot]; ring
  have hdn0 := V3.norm_nonneg (V3.sub (base n N o c) c)
  have bdd' : V3.dot (V3.sub (base n N o c) c) (V3.sub (base n N o c) c) ≤ 599 / 50 * (M * M) := by
    rw [bdd]; nlinarith
  have bdd0 : 0 ≤ V3.dot (V3.sub (base n N o c) c) (V3.sub (base n N o c) c) := by rw [bdd]; positivity
  have hRR := d1.mul hε d1 (A := 2) (B := 2) (by rw [abs_of_nonneg] <;> linarith) (by rw [abs_of_nonneg] <;> linarith) (by mm)
    (by mm) (δ := 41 / 10) (by mm) (by mm) (γ := 7) (by mm)
  have bRR : R * R ≤ 4 := by nlinarith
  have bRR0 : 0 ≤ R * R := by positivity
  have ba0 : |V3.dot (V3.sub (base n N o c) c) (V3.sub (base n N o c) c) - R * R| ≤ 599 / 50 * (M * M) := by
    rw [abs_le]; constructor <;> linarith
  have ha0 := hdd.sub hε hRR ba0 (by mm) (by mm) (by mm) (γ := 112615 * (M * M)) (by mm)
  have h11 := ha1.mul hε ha1 ba1 ba1 (by mm) (by mm) (δ := 38637 * (M * M)) (by mm) (by mm) (γ := 38638 * (M * M))
    (by mm)
  have h02 := ha0.mul hε ha2 ba0 ba2 (by mm) (by mm) (δ := 125817 * (M * M)) (by mm) (by mm) (γ := 125824 * (M * M))
    (by mm)
  have bdisc : |V3.dot (V3.sub (base n N o c) c) (V3.cross n N) * V3.dot (V3.sub (base n N o c) c) (V3.cross n N) -
      (V3.dot (V3.sub (base n N o c) c) (V3.sub (base n N o c) c) - R * R) * V3.dot (V3.cross n N) (V3.cross n N)| ≤ 1311 / 100 * (M * M) := by
    refine (abs_sub _ _).trans ?_
    rw [abs_mul, abs_mul]
    have e1 := mul_le_mul ba1 ba1 (abs_nonneg _) (by mm)
    have e2 := mul_le_mul ba0 ba2 (abs_nonneg _) (by mm)
    norm_num at e1 e2 ⊢
    linarith
  have hdisc := h11.sub hε h02 bdisc (by mm) (by mm) (by mm) (γ := 2 ^ 18 * (M * M)) (by mm)
  rw [disc_eq hn hN k0 R] at hdisc
  have hone : Close (0 * ε) (one : B64) 1 := by rw [B64.one_eq]; exact Close.exact 1
  have hinv := hone.div hε ha2 (A := 1) (by mm) ba2' le_rfl (by mm) (by mm) (by mm) (δ := 2870) (by mm)
    (by mm) (γ := 2871) (by mm)
  rw [cross_sq hn hN] at hinv
  exact ⟨ha1, ba1, hinv, hdisc⟩

/-- A point of the line at the parameter `a1 + τ`. -/
theorem ends (hε : Fine ε) {M : ℝ} (hM : Extent M) {n N o c : V3 ℝ} {R : ℝ} (hn : n.x ^ 2 + n.y ^ 2 + n.z ^ 2 = 1) (hN : N.x ^ 2 + N.y ^ 2 + N.z ^ 2 = 1)
    (hsd : |dot3 n N| ≤ 3 / 5) (ho : V3.norm o ≤ M) (hc : V3.norm c ≤ (17 / 16 * M)) (hR0 : 1 / 8 ≤ R) (hR2 : R ≤ 2) {l : Line B64}
    (l1 : Close3 (4057 * M * ε) l.origin (base n N o c)) (l2 : Close3 (137 * ε) l.direction (V3.cross n N)) {d : Disk B64}
    (d1 : Close (1 * ε) d.radius R) (d2 : Close3 (29 / 4 * M * ε) d.center c) (hδ2 : V3.norm (V3.sub (foot n N o c) c) ≤ 21 / 10) {s : B64} {τ : ℝ} (hτ : |τ| ≤ 5 / 2)
    (hs : Close (18183 * M * ε) s (V3.dot (V3.sub (base n N o c) c) (V3.cross n N) + τ)) :
    Close3 (36236 * M * ε) (V3.sub l.origin (V3.smul (s *. (one /. V3.dot l.direction l.direction)) l.direction))
        (V3.sub (foot n N o c) (V3.smul (τ * (1 / (1 - dot3 n N ^ 2))) (V3.cross n N))) := by
  obtain ⟨m0, m1, m2, m3⟩ := Extent.bounds hM
  obtain ⟨ha1, ba1, hinv, -⟩ := quad hε hM hn hN hsd ho hc hR0 hR2 l1 l2 d1 d2
  have k := k_lo hsd
  have k0 : 1 - dot3 n N ^ 2 ≠ 0 := by linarith
  have ndir1 : V3.norm (V3.cross n N) ≤ 1 := by
    apply abs_le_of_sq_le_sq' _ (by mm) |>.2
    have ndir : V3.norm (V3.cross n N) ^ 2 = 1 - dot3 n N ^ 2 := by
      rw [← cross_sq hn hN, V3.norm_sq, V3.real_dot]; ring
    rw [ndir]; nlinarith [sq_nonneg (dot3 n N)]
  have udir := upto_of_norm ndir1
  have hbf := base_foot (o := o) (c := c) hn hN k0
  obtain ⟨κ, hκ⟩ : ∃ κ, κ = 1 - dot3 n N ^ 2 := ⟨_, rfl⟩
  rw [← hκ] at hbf hinv k ⊢
  have binv : |1 / κ| ≤ 25 / 16 := by
    rw [abs_div, abs_one, div_le_iff₀ (by rw [abs_of_nonneg] <;> linarith), abs_of_nonneg (by linarith)]; linarith
  have bf : V3.norm (foot n N o c) ≤ 61 / 50 * M := by
    have e : foot n N o c = V3.add c (V3.sub (foot n N o c) c) := by
      simp only [V3.real_sub, V3.real_add]; ext <;> dsimp only <;> ring
    rw [e]
    refine (V3.norm_add_le _ _).trans ?_
    linarith
  have bs : |V3.dot (V3.sub (base n N o c) c) (V3.cross n N) + τ| ≤ 61 / 50 * M := (abs_add_le _ _).trans (by linarith)
  have hm := hs.mul hε hinv bs binv (by mm) (by mm) (δ := 31914 * M) (by mm) (by mm) (γ := 31915 * M) (by mm)
  have bm : |(V3.dot (V3.sub (base n N o c) c) (V3.cross n N) + τ) * (1 / κ)| ≤ 191 / 100 * M := by
    rw [abs_mul]
    exact (mul_le_mul bs binv (abs_nonneg _) (by mm)).trans (by mm)
  have hsm := Close3.smul hε hm l2 bm udir (by mm) (by mm) (δ := 32177 * M) (by mm) (by mm) (γ := 32178 * M)
    (by mm)
  have e : V3.sub (base n N o c) (V3.smul ((V3.dot (V3.sub (base n N o c) c) (V3.cross n N) + τ) * (1 / κ)) (V3.cross n N)) =
      V3.sub (foot n N o c) (V3.smul (τ * (1 / κ)) (V3.cross n N)) := by
    rw [← hbf]
    simp only [V3.real_sub, V3.real_smul]
    ext <;> dsimp only <;> ring
  have bt : |τ * (1 / κ)| ≤ 4 := by
    rw [abs_mul]
    exact (mul_le_mul hτ binv (abs_nonneg _) (by mm)).trans (by mm)
  have usm : Upto 4 (V3.smul (τ * (1 / κ)) (V3.cross n N)) := by
    simp only [V3.real_smul]
    refine ⟨?_, ?_, ?_⟩ <;> dsimp only <;> rw [abs_mul]
    · exact (mul_le_mul bt udir.x (abs_nonneg _) (by mm)).trans (by mm)
    · exact (mul_le_mul bt udir.y (abs_nonneg _) (by mm)).trans (by mm)
    · exact (mul_le_mul bt udir.z (abs_nonneg _) (by mm)).trans (by mm)
  have hfin := l1.sub hε hsm (C := 147 / 100 * M) (γ := 36236 * M) (by
    rw [e]; exact ((upto_of_norm bf).sub usm).mono (by mm)) (by mm) (by mm) (by mm) (by mm)
  rw [e] at hfin
  exact hfin

set_option maxHeartbeats 1000000 in
/-- The line and the circle. -/
theorem circle (hε : Fine ε) {M : ℝ} (hM : Extent M) {n N o c : V3 ℝ} {R : ℝ} (hn : n.x ^ 2 + n.y ^ 2 + n.z ^ 2 = 1) (hN : N.x ^ 2 + N.y ^ 2 + N.z ^ 2 = 1)
    (hsd : |dot3 n N| ≤ 3 / 5) (ho : V3.norm o ≤ M) (hc : V3.norm c ≤ (17 / 16 * M)) (hR0 : 1 / 8 ≤ R) (hR2 : R ≤ 2) {l : Line B64}
    (l1 : Close3 (4057 * M * ε) l.origin (base n N o c)) (l2 : Close3 (137 * ε) l.direction (V3.cross n N)) {d : Disk B64}
    (d1 : Close (1 * ε) d.radius R) (d2 : Close3 (29 / 4 * M * ε) d.center c) :
    ∃ x, |x - (1 - dot3 n N ^ 2) * (R ^ 2 - V3.norm (V3.sub (foot n N o c) c) ^ 2)| ≤ 2 ^ 18 * (M * M) * ε ∧
      (x < 1 / 2 ^ 26 → Inter.lineDisk l d Scalar.eps = none ∨
        ∃ q, Inter.lineDisk l d Scalar.eps = some q ∧ (Scalar.eps <. q.length) = false) ∧
      (1 / 2 ^ 26 ≤ x → V3.norm (V3.sub (foot n N o c) c) ≤ 21 / 10 ∧
        ∃ v0 v1 ρ, Inter.lineDisk l d Scalar.eps = some ⟨v0, v1⟩ ∧ 1 / 2 ^ 13 ≤ ρ ∧ ρ ≤ 5 / 2 ∧
        Close3 (36236 * M * ε) v0 (V3.sub (foot n N o c) (V3.smul (ρ * (1 / (1 - dot3 n N ^ 2))) (V3.cross n N))) ∧
        Close3 (36236 * M * ε) v1 (V3.add (foot n N o c) (V3.smul (ρ * (1 / (1 - dot3 n N ^ 2))) (V3.cross n N)))) := by
  obtain ⟨m0, m1, m2, m3⟩ := Extent.bounds hM
  obtain ⟨ha1, ba1, -, hdisc⟩ := quad hε hM hn hN hsd ho hc hR0 hR2 l1 l2 d1 d2
  have ends := fun hδ s τ => @ends ε hε M hM n N o c R hn hN hsd ho hc hR0 hR2 l l1 l2 d d1 d2 hδ s τ
  have k := k_lo hsd
  have k1 : 1 - dot3 n N ^ 2 ≤ 1 := by nlinarith [sq_nonneg (dot3 n N)]
  have hεp := hε.pos
  have hε40 := hε.hi
  obtain ⟨x, hx, hx'⟩ := hdisc
  obtain ⟨δ, hδ⟩ : ∃ δ, δ = V3.norm (V3.sub (foot n N o c) c) := ⟨_, rfl⟩
  have hδ0 : 0 ≤ δ := by rw [hδ]; exact V3.norm_nonneg _
  rw [← hδ] at hx' ends ⊢
  obtain ⟨κ, hκ⟩ : ∃ κ, κ = 1 - dot3 n N ^ 2 := ⟨_, rfl⟩
  rw [← hκ] at hx' k k1 ends ⊢
  have small : (2 : ℝ) ^ 18 * (M * M) * ε ≤ 1 / 4 := by
    have : (2 : ℝ) ^ 18 * (M * M) * ε ≤ 2 ^ 18 * 2 ^ 20 * (1 / 2 ^ 40) :=
      mul_le_mul (mul_le_mul_of_nonneg_left (by norm_num; linarith) (by norm_num)) hε40 hεp.le (by norm_num)
    exact this.trans (by norm_num)
  -- a computed discriminant that is not below the tolerance bounds the distance
  have near2 : -(1 / 2 ^ 26) ≤ x → δ ≤ 21 / 10 := by
    intro h
    by_contra hcon
    push Not at hcon
    have h1 : (441 : ℝ) / 100 ≤ δ ^ 2 := by nlinarith
    have h2 := (abs_le.1 hx').2
    have h3 := small
    have h4 : κ * (R ^ 2 - δ ^ 2) ≤ 16 / 25 * (-(41 / 100)) := by
      have : R ^ 2 ≤ 4 := by nlinarith
      nlinarith
    norm_num at h h2 h3 h4
    linarith
  refine ⟨x, hx', ?_, ?_⟩
  · intro hlt
    unfold Inter.lineDisk
    dsimp only
    rw [hx, eps_fin, show (-. (fin (1 / 2 ^ 26)) : B64) = fin (-(1 / 2 ^ 26)) from rfl, lt_fin, DoubleDemo.abs_fin, lt_fin]
    by_cases h : x < -(1 / 2 ^ 26)
    · left; rw [decide_eq_true h]; rfl
    · right
      rw [decide_eq_false h]
      simp only [Bool.false_eq_true, if_false]
      by_cases hab : |x| < 1 / 2 ^ 26
      · have := ends (near2 (not_lt.1 h)) _ 0 (by mm) (by rw [add_zero]; exact ha1.up hε (by mm))
        obtain ⟨⟨u, hu, -⟩, ⟨v, hv, -⟩, ⟨w, hw, -⟩⟩ := this
        have e : V3.sub l.origin (V3.smul (V3.dot (V3.sub l.origin d.center) l.direction *. (one /. V3.dot l.direction l.direction))
            l.direction) = ⟨fin u, fin v, fin w⟩ := by ext1 <;> assumption
        rw [decide_eq_true hab, e]
        refine ⟨_, rfl, ?_⟩
        rw [same_length]
        simp
      · have hx0 : x < 0 := by
          by_contra hcon
          rw [abs_of_nonneg (not_lt.1 hcon)] at hab
          exact hab hlt
        rw [decide_eq_false hab, sqrt_neg hx0]
        refine ⟨_, rfl, ?_⟩
        simp only [add_nan, nan_mul, sub_nan, V3.smul, V3.sub, Segment.length, V3.norm, V3.sqNorm, V3.dot, nan_add, sqrt_nan, lt_nan]
  · intro hge
    have hδ2 := near2 (by norm_num at hge ⊢; linarith)
    refine ⟨hδ2, ?_⟩
    have hx0 : 0 ≤ x := le_trans (by mm) hge
    have hx1 : x ≤ 17 / 4 := by
      have h2 := (abs_le.1 hx').2
      have h3 := small
      have h4 : κ * (R ^ 2 - δ ^ 2) ≤ 4 := by
        have : R ^ 2 ≤ 4 := by nlinarith
        nlinarith [sq_nonneg δ]
      linarith
    have hs1 : Real.sqrt x ≤ 5 / 2 := by
      rw [Real.sqrt_le_left (by mm)]; norm_num; linarith
    have hs0 : 1 / 2 ^ 13 ≤ Real.sqrt x := by
      apply Real.le_sqrt_of_sq_le; norm_num at hge ⊢; exact hge
    obtain ⟨ρ, hρ, -, hρ1, hρ2⟩ := round_bounds (x := Real.sqrt x) (k := 2) (by mm) (by
      rw [abs_of_nonneg (Real.sqrt_nonneg _)]; norm_num; linarith)
    have r1 := hρ1 (5 / 2) ⟨5, -1, by norm_num, by norm_num, by norm_num⟩ hs1
    have r0 := hρ2 (1 / 2 ^ 13) ⟨1, -13, by norm_num [zpow_neg], by norm_num, by norm_num⟩ hs0
    have r00 : 0 ≤ ρ := le_trans (by mm) r0
    have hq : Scalar.sqrt (fin x) = fin ρ := by rw [sqrt_fin hx0, hρ]
    have cρ : Close (0 * ε) (fin ρ) ρ := Close.exact ρ
    have hp := ha1.add hε cρ (C := 61 / 50 * M) (γ := 18183 * M) ((abs_add_le _ _).trans (by rw [abs_of_nonneg r00]; linarith)) (by mm) le_rfl
      (by mm) (by mm)
    have hm := ha1.sub hε cρ (C := 61 / 50 * M) (γ := 18183 * M) ((abs_sub _ _).trans (by rw [abs_of_nonneg r00]; linarith)) (by mm) le_rfl
      (by mm) (by mm)
    have e0 := ends hδ2 _ ρ (by rw [abs_of_nonneg r00]; exact r1) hp
    have e1 := ends hδ2 _ (-ρ) (by rw [abs_neg, abs_of_nonneg r00]; exact r1) (by rw [← sub_eq_add_neg]; exact hm)
    have eneg : V3.sub (foot n N o c) (V3.smul (-ρ * (1 / κ)) (V3.cross n N)) =
        V3.add (foot n N o c) (V3.smul (ρ * (1 / κ)) (V3.cross n N)) := by
      simp only [V3.real_sub, V3.real_smul, V3.real_add]; ext <;> dsimp only <;> ring
    rw [eneg] at e1
    refine ⟨_, _, ρ, ?_, r0, r1, e0, e1⟩
    unfold Inter.lineDisk
    dsimp only
    rw [hx, eps_fin, show (-. (fin (1 / 2 ^ 26)) : B64) = fin (-(1 / 2 ^ 26)) from rfl, lt_fin, DoubleDemo.abs_fin, lt_fin, hq]
    rw [decide_eq_false (by push Not; refine le_trans ?_ hx0; norm_num), decide_eq_false (by push Not; rw [abs_of_nonneg hx0]; exact hge)]
    rfl

/-- The point, the depth and the length of the chord. -/
theorem chord (hε : Fine ε) {M : ℝ} (hM : Extent M) {n N o c : V3 ℝ} {R ρ : ℝ} (hn : n.x ^ 2 + n.y ^ 2 + n.z ^ 2 = 1) (hN : N.x ^ 2 + N.y ^ 2 + N.z ^ 2 = 1)
    (hsd : |dot3 n N| ≤ 3 / 5) (hc : V3.norm c ≤ (17 / 16 * M)) (hR0 : 1 / 8 ≤ R) (hR2 : R ≤ 2)
    {rad : B64} {cen : V3 B64} (d1 : Close (1 * ε) rad R) (d2 : Close3 (29 / 4 * M * ε) cen c)
    (hδ : V3.norm (V3.sub (foot n N o c) c) ≤ 21 / 10) {v0 v1 : V3 B64} (hρ0 : 1 / 2 ^ 13 ≤ ρ) (hρ1 : ρ ≤ 5 / 2)
    (h0 : Close3 (36236 * M * ε) v0 (V3.sub (foot n N o c) (V3.smul (ρ * (1 / (1 - dot3 n N ^ 2))) (V3.cross n N))))
    (h1 : Close3 (36236 * M * ε) v1 (V3.add (foot n N o c) (V3.smul (ρ * (1 / (1 - dot3 n N ^ 2))) (V3.cross n N)))) :
    (Scalar.eps <. (⟨v0, v1⟩ : Segment B64).length) = true ∧
    Close3 (38654 * M * ε) (⟨v0, v1⟩ : Segment B64).centroid (foot n N o c) ∧
    Close (86991 * M * ε) (rad -. V3.norm (V3.sub (⟨v0, v1⟩ : Segment B64).centroid cen)) (R - V3.norm (V3.sub (foot n N o c) c)) := by
  obtain ⟨m0, m1, m2, m3⟩ := Extent.bounds hM
  have k := k_lo hsd
  have k1 : 1 - dot3 n N ^ 2 ≤ 1 := by nlinarith [sq_nonneg (dot3 n N)]
  have ndir : V3.norm (V3.cross n N) ^ 2 = 1 - dot3 n N ^ 2 := by
    rw [← cross_sq hn hN, V3.norm_sq, V3.real_dot]; ring
  have ndir0 := V3.norm_nonneg (V3.cross n N)
  have ndir1 : V3.norm (V3.cross n N) ≤ 1 := by
    apply abs_le_of_sq_le_sq' _ (by mm) |>.2
    rw [ndir]; linarith
  have udir := upto_of_norm ndir1
  generalize hV : V3.cross n N = V at *
  generalize hκ : 1 - dot3 n N ^ 2 = κ at *
  generalize hF : foot n N o c = F at *
  have κ0 : 0 < κ := by linarith
  have binv : |1 / κ| ≤ 25 / 16 := by
    rw [abs_of_pos (by positivity), div_le_iff₀ κ0]; linarith
  have r0 : 0 < ρ := lt_of_lt_of_le (by mm) hρ0
  have bt : |ρ * (1 / κ)| ≤ 4 := by
    rw [abs_mul, abs_of_pos r0]
    exact (mul_le_mul hρ1 binv (abs_nonneg _) (by mm)).trans (by mm)
  have usm : Upto 4 (V3.smul (ρ * (1 / κ)) V) := by
    simp only [V3.real_smul]
    refine ⟨?_, ?_, ?_⟩ <;> dsimp only <;> rw [abs_mul]
    · exact (mul_le_mul bt udir.x (abs_nonneg _) (by mm)).trans (by mm)
    · exact (mul_le_mul bt udir.y (abs_nonneg _) (by mm)).trans (by mm)
    · exact (mul_le_mul bt udir.z (abs_nonneg _) (by mm)).trans (by mm)
  have bF : V3.norm F ≤ 61 / 50 * M := by
    have e : F = V3.add c (V3.sub F c) := by
      simp only [V3.real_sub, V3.real_add]; ext <;> dsimp only <;> ring
    rw [e]
    refine (V3.norm_add_le _ _).trans ?_
    linarith
  have uF := upto_of_norm bF
  -- the middle
  have usum := (uF.sub usm).add (uF.add usm)
  have hsum := h0.add hε h1 usum (by mm) (by mm) (by mm) (γ := 72474 * M) (by mm)
  have hcen : Close3 (38654 * M * ε) (⟨v0, v1⟩ : Segment B64).centroid F := by
    have key : ∀ {x : B64} {X Y : ℝ}, Close (72474 * M * ε) x X → |X| ≤ 61 / 50 * M + 4 + (61 / 50 * M + 4) → X = 2 * Y →
        Close (38654 * M * ε) (x /. fin 2) Y := by
      intro x X Y hx hX hXY
      have := hx.div hε (Close.exact 2) hX (D := 2) (by mm) (by mm) le_rfl (by mm) (by mm) (δ := 38653 * M)
        (by mm) (by mm) (γ := 38654 * M) (by mm)
      rwa [hXY, mul_div_cancel_left₀ _ (by norm_num : (2 : ℝ) ≠ 0)] at this
    unfold Segment.centroid
    rw [show (Scalar.two : B64) = fin 2 from two_eq]
    refine ⟨key hsum.x usum.x ?_, key hsum.y usum.y ?_, key hsum.z usum.z ?_⟩ <;>
      simp only [V3.real_add, V3.real_sub, V3.real_smul] <;> ring
  -- the depth
  have hsub := hcen.sub hε d2 (upto_of_norm hδ) (by mm) (by mm) (by mm) (γ := 38662 * M) (by mm)
  have hlen := (hsub.norm' hε (by mm) (by mm) hδ (by mm) (γ := 86990 * M) (by mm)).1
  have hdep := d1.sub hε hlen (C := 21 / 10) (γ := 86991 * M) (by
    have := V3.norm_nonneg (V3.sub F c)
    rw [abs_le]; constructor <;> linarith) (by mm) (by mm) (by mm) (by mm)
  refine ⟨?_, hcen, hdep⟩
  -- the length
  have e : V3.sub (V3.sub F (V3.smul (ρ * (1 / κ)) V)) (V3.add F (V3.smul (ρ * (1 / κ)) V)) = V3.smul (-(2 * ρ / κ)) V := by
    simp only [V3.real_add, V3.real_sub, V3.real_smul]; ext <;> dsimp only <;> ring
  have usub := (uF.sub usm).sub (uF.add usm)
  have hd := h0.sub hε h1 (C := 8) (γ := 72473 * M) (by
    have := usm.add usm
    have e' : V3.sub (V3.sub F (V3.smul (ρ * (1 / κ)) V)) (V3.add F (V3.smul (ρ * (1 / κ)) V)) =
        V3.neg (V3.add (V3.smul (ρ * (1 / κ)) V) (V3.smul (ρ * (1 / κ)) V)) := by
      simp only [V3.real_add, V3.real_sub, V3.real_smul, V3.real_neg]; ext <;> dsimp only <;> ring
    rw [e']
    simp only [V3.real_neg]
    exact ⟨by rw [abs_neg]; exact this.x.trans (by mm), by rw [abs_neg]; exact this.y.trans (by mm),
      by rw [abs_neg]; exact this.z.trans (by mm)⟩) (by mm) (by mm) (by mm) (by mm)
  rw [e] at hd
  have nv : V3.norm (V3.smul (-(2 * ρ / κ)) V) = 2 * ρ / κ * V3.norm V := by
    have h2 : 0 ≤ 2 * ρ / κ * V3.norm V := by positivity
    rw [← abs_of_nonneg (V3.norm_nonneg (V3.smul (-(2 * ρ / κ)) V)), ← abs_of_nonneg h2, ← sq_eq_sq_iff_abs_eq_abs, mul_pow, V3.norm_sq,
      V3.norm_sq]
    simp only [V3.real_smul]; ring
  have nlo : 2 * ρ ≤ V3.norm (V3.smul (-(2 * ρ / κ)) V) := by
    rw [nv, div_mul_eq_mul_div, le_div_iff₀ κ0]
    refine mul_le_mul_of_nonneg_left ?_ (by linarith)
    nlinarith
  have nhi : V3.norm (V3.smul (-(2 * ρ / κ)) V) ≤ 8 := by
    rw [nv]
    have h3 : 2 * ρ / κ ≤ 8 := by rw [div_le_iff₀ κ0]; nlinarith
    have h4 : 0 ≤ 2 * ρ / κ := by positivity
    nlinarith
  have hL := (hd.norm' hε (by mm) (by mm) nhi (by mm) (γ := 163066 * M) (by mm)).1
  obtain ⟨x, hx, hx'⟩ := hL
  show (Scalar.eps <. V3.norm (V3.sub v0 v1)) = true
  rw [hx, eps_fin, lt_fin, decide_eq_true_eq]
  have h5 := (abs_le.1 hx').1
  have h6 := hε.hi
  have h7 : M * ε ≤ 1024 * (1 / 2 ^ 40) := mul_le_mul m1 h6 hε.pos.le (by norm_num)
  rw [mul_assoc] at h5
  norm_num at h5 h7 hρ0 ⊢
  linarith

/-- The normal. -/
theorem normal (hε : Fine ε) {M : ℝ} (hM : Extent M) {n N o c : V3 ℝ} (hn : n.x ^ 2 + n.y ^ 2 + n.z ^ 2 = 1) (hN : N.x ^ 2 + N.y ^ 2 + N.z ^ 2 = 1)
    (hsd : |dot3 n N| ≤ 3 / 5) {δ : ℝ} (hδd : V3.norm (V3.sub (foot n N o c) c) = δ) (hδ : δ ≤ 21 / 10) (hδ0 : 1 / 10 ≤ δ)
    {q cen gn ng : V3 B64} (hq : Close3 (38654 * M * ε) q (foot n N o c)) (hcen : Close3 (29 / 4 * M * ε) cen c) (hgn : Close3 (1 * ε) gn n)
    (hng : Close3 (14 * ε) ng N) :
    Close3 (2 ^ 22 * M / δ * ε) (V3.normalized (V3.sub gn (V3.smul (V3.dot gn (V3.normalized (V3.cross ng (V3.sub cen q))))
      (V3.normalized (V3.cross ng (V3.sub cen q)))))) n := by
  obtain ⟨m0, m1, m2, m3⟩ := Extent.bounds hM
  have un := Upto.unit hn
  have uN := Upto.unit hN
  have k := k_lo hsd
  have δ0 : 0 < δ := by linarith
  have flip : V3.norm (V3.sub c (foot n N o c)) = δ := by
    rw [← hδd, V3.real_norm, V3.real_norm]; simp only [V3.real_sub]; congr 1; ring
  have hsub := hcen.sub hε hq (upto_of_norm (flip.le.trans hδ)) (by mm) (by mm) (by mm) (γ := 38662 * M) (by mm)
  have hcr := Close3.cross hε hng hsub uN (upto_of_norm (flip.le.trans hδ)) (by mm) (by mm) (δ := 38664 * M) (by mm)
    (by mm) (γ := 82162 * M) (by mm)
  have ncr : V3.norm (V3.cross N (V3.sub c (foot n N o c))) = δ := by
    have h1 : V3.norm (V3.cross N (V3.sub c (foot n N o c))) ^ 2 = δ ^ 2 := by
      rw [cross_foot, ← hδd, V3.norm_sq]
      have e : V3.sub (foot n N o c) c = V3.smul (V3.dot n (V3.sub o c) / (1 - dot3 n N ^ 2)) (V3.sub n (V3.smul (dot3 n N) N)) := by
        simp only [foot, V3.real_add, V3.real_sub, V3.real_smul]; ext <;> dsimp only <;> ring
      rw [e, V3.norm_sq]
      have e1 := foot_sub_sq hn hN
      have e2 := cross_sq hn hN
      rw [V3.norm_sq] at e1
      rw [V3.real_dot] at e2
      simp only [V3.real_smul] at e1 ⊢
      linear_combination (V3.dot n (V3.sub o c) / (1 - dot3 n N ^ 2)) ^ 2 * (e2 - e1)
    exact (sq_eq_sq₀ (V3.norm_nonneg _) δ0.le).1 h1
  obtain ⟨β, hβ⟩ : ∃ β, β = 287568 * M / δ := ⟨_, rfl⟩
  have hβ0 : 0 ≤ β := by rw [hβ]; positivity
  have hβ1 : β ≤ 2944696320 := by
    rw [hβ, div_le_iff₀ δ0]; linarith
  have hnt := hcr.normalized hε ncr (by norm_num; linarith) (by norm_num; linarith) (by mm) (by norm_num; linarith) (γ := β) (by
    rw [hβ, show 7 / 2 * (82162 * M / δ) = 287567 * M / δ by ring]
    have h1 : 4 ≤ 84 / 10 / δ := by rw [le_div_iff₀ δ0]; linarith
    have : 1 / 2 ^ 9 / δ + 84 / 10 / δ + 287567 * M / δ ≤ 287568 * M / δ := by
      rw [← add_div, ← add_div]; exact div_le_div_of_nonneg_right (by mm) δ0.le
    linarith)
  have unt : Upto 1 (V3.sdiv (V3.cross N (V3.sub c (foot n N o c))) δ) := by
    apply Upto.unit
    have h1 := V3.norm_sq (V3.cross N (V3.sub c (foot n N o c)))
    rw [ncr] at h1
    simp only [V3.real_sdiv]
    rw [div_pow, div_pow, div_pow, ← add_div, ← add_div, ← h1, div_self (by positivity)]
  have hd := Close3.dot hε hgn hnt un unt (by mm) hβ0 (δ := β + 11 / 10) (by norm_num; linarith) (by norm_num; linarith)
    (γ := 4 * β + 10) (by norm_num; linarith)
  have d0 : V3.dot n (V3.sdiv (V3.cross N (V3.sub c (foot n N o c))) δ) = 0 := by
    rw [cross_foot]
    simp only [V3.real_dot, V3.real_sdiv, V3.real_smul, V3.real_cross]
    ring
  rw [d0] at hd
  have hsm := Close3.smul hε hd hnt (A := 0) (B := 1) (by simp) unt (by positivity) hβ0 (δ := 1003 / 1000 * (4 * β + 10)) (by
    have : (4 * β + 10) * β / 2 ^ 40 ≤ 3 / 1000 * (4 * β + 10) := by
      rw [div_le_iff₀ (by mm)]
      have : β ≤ 3 / 1000 * 2 ^ 40 := by norm_num; linarith
      nlinarith
    linarith) (by norm_num; linarith) (γ := 1004 / 1000 * (4 * β + 10)) (by norm_num; linarith)
  have z : V3.smul 0 (V3.sdiv (V3.cross N (V3.sub c (foot n N o c))) δ) = ⟨0, 0, 0⟩ := by
    simp only [V3.real_smul, zero_mul]
  rw [z] at hsm
  have n0 : V3.sub n ⟨0, 0, 0⟩ = n := by simp only [V3.real_sub, sub_zero]
  have hs := hgn.sub hε hsm (C := 1) (γ := 1005 / 1000 * (4 * β + 10) + 2) (by rw [n0]; exact un) (by mm) (by positivity)
    (by norm_num; linarith) (by norm_num; linarith)
  rw [n0] at hs
  have sd1 : ∀ v : V3 ℝ, V3.sdiv v 1 = v := by intro v; simp only [V3.real_sdiv, div_one]
  have := hs.normalized hε (V3.norm_eq_one.2 hn) (by mm) (by mm) (by positivity) (by norm_num; linarith) (γ := 2 ^ 22 * M / δ) (by
    have : 287568 * ((2 : ℝ) ^ 22 * M / δ) = 2 ^ 22 * β := by rw [hβ]; ring
    have h3 : 2100000 ≤ β := by rw [hβ, le_div_iff₀ δ0]; linarith
    norm_num at this ⊢
    linarith)
  rwa [sd1] at this

/-- All that the geometric method computes on flat ground. -/
theorem all (hε : Fine ε) {M R y : ℝ} (hM : Extent M) {P : Affine ℝ} {o n : V3 ℝ} (hs : CutScene M R y P o n) {r : Rib B64}
    {g : Flat B64} {p : Affine B64} (hr : CutRib M ε r R y) (hp : CutPose M ε p P) (hg : CutFlat M ε g o n) :
    ∃ x, |x - (1 - dot3 n P.linear.c1 ^ 2) * (R ^ 2 - dist3 (hub y P) (nearCut y P o n) ^ 2)| ≤ 2 ^ 18 * (M * M) * ε ∧
      (r.envelopGeometricFlat g p).1 = decide (1 / 2 ^ 26 ≤ x) ∧
      (1 / 2 ^ 26 ≤ x → Close (2 ^ 17 * M * ε) (r.envelopGeometricFlat g p).2.depth (cutDepth R y P o n) ∧
        Close3 (2 ^ 16 * M * ε) (r.envelopGeometricFlat g p).2.point (nearCut y P o n) ∧
        (r.envelopGeometricFlat g p).2.friction = g.friction ∧
        (1 / 10 ≤ dist3 (hub y P) (nearCut y P o n) →
          Close3 (2 ^ 22 * M / dist3 (hub y P) (nearCut y P o n) * ε) (r.envelopGeometricFlat g p).2.normal n)) := by
  have hn := hs.unit
  have hN := hs.rigid.unit1
  have ho : V3.norm o ≤ M := by rw [V3.norm_eq]; exact hs.origin
  have hc := hub_norm hM hs
  obtain ⟨m0, m1, m2, m3⟩ := Extent.bounds hM
  obtain ⟨hcen, hng⟩ := disk hε hM hs hr hp
  have hgn : Close3 (1 * ε) g.plane.normal n := by rw [one_mul]; exact hg.normal
  have hrad : Close (1 * ε) r.radius R := by rw [one_mul]; exact hr.radius
  obtain ⟨l, hl, l1, l2⟩ := line hε hM hn hN hs.side ho hc (a := g.plane) (b := (r.diskGrd p).layingPlane)
    hg.origin hgn hcen hng
  obtain ⟨x, hx, hno, hyes⟩ := circle hε hM hn hN hs.side ho hc hs.R_lo hs.R_hi l1 l2 (d := r.diskGrd p) hrad hcen
  have hdist : dist3 (hub y P) (nearCut y P o n) = V3.norm (V3.sub (foot n P.linear.c1 o (hub y P)) (hub y P)) := by
    rw [← foot_eq, V3.real_norm, dist3]; simp only [V3.real_sub]; congr 1; ring
  have hpd : Inter.planeDisk g.plane (r.diskGrd p) Scalar.eps = Inter.lineDisk l (r.diskGrd p) Scalar.eps := by
    unfold Inter.planeDisk; rw [hl]
  have hrun : (r.envelopGeometricFlat g p) = match Inter.lineDisk l (r.diskGrd p) Scalar.eps with
      | none => (false, r.noContact p)
      | some seg =>
        if Scalar.eps <. seg.length then
          (true,
            { point := seg.centroid
              normal := V3.normalized (V3.sub g.plane.normal (V3.smul (V3.dot g.plane.normal
                (V3.normalized (V3.cross (r.normalGrd p) (V3.sub (r.centerGrd p) seg.centroid))))
                (V3.normalized (V3.cross (r.normalGrd p) (V3.sub (r.centerGrd p) seg.centroid)))))
              friction := g.friction
              depth := r.radius -. V3.norm (V3.sub seg.centroid (r.centerGrd p))
              area := Rib.depthArea r.radius r.width (r.radius -. V3.norm (V3.sub seg.centroid (r.centerGrd p)))
              volume := Rib.depthVolume r.radius r.width (r.radius -. V3.norm (V3.sub seg.centroid (r.centerGrd p))) })
        else (false, r.noContact p) := by
    unfold Rib.envelopGeometricFlat
    rw [hpd]
    cases Inter.lineDisk l (r.diskGrd p) Scalar.eps <;> rfl
  rw [hdist, cutDepth, hdist]
  refine ⟨x, hx, ?_, ?_⟩
  · by_cases h : 1 / 2 ^ 26 ≤ x
    · obtain ⟨hδ, v0, v1, ρ, e, r0, r1, h0, h1⟩ := hyes h
      obtain ⟨hlen, -, -⟩ := chord hε hM hn hN hs.side hc hs.R_lo hs.R_hi hrad hcen hδ r0 r1 h0 h1
      rw [hrun, e, decide_eq_true h]
      simp only [hlen, if_true]
    · rw [decide_eq_false h, hrun]
      rcases hno (not_le.1 h) with e | ⟨q, e, e2⟩
      · rw [e]
      · rw [e]; simp only [e2, Bool.false_eq_true, if_false]
  · intro h
    obtain ⟨hδ, v0, v1, ρ, e, r0, r1, h0, h1⟩ := hyes h
    obtain ⟨hlen, hmid, hdep⟩ := chord hε hM hn hN hs.side hc hs.R_lo hs.R_hi hrad hcen hδ r0 r1 h0 h1
    rw [hrun, e]
    simp only [hlen, if_true]
    rw [← foot_eq]
    exact ⟨hdep.up hε (by mm), hmid.up hε (by mm), trivial, fun hlo => normal hε hM hn hN hs.side rfl hδ hlo hmid hcen hgn hng⟩

theorem flat_origin (hε : Fine ε) {M : ℝ} (hM : Extent M) {F : ℝ} {o n : V3 ℝ} {g : Flat B64}
    (hg : Flat.make (fin F) ⟨fin o.x, fin o.y, fin o.z⟩ ⟨fin n.x, fin n.y, fin n.z⟩ = .ok g) : Close3 (M * ε) g.plane.origin o := by
  rw [Flat.make, Res.bind_eq_ok] at hg
  obtain ⟨_, -, hg⟩ := hg
  rw [Res.bind_eq_ok] at hg
  obtain ⟨_, -, hg⟩ := hg
  have hg' := Res.ok.inj hg
  subst hg'
  have hp := hε.pos
  have hM0 := hM.lo
  exact (⟨Close.exact (ε := ε) _, Close.exact _, Close.exact _⟩ : Close3 (0 * ε) (⟨fin o.x, fin o.y, fin o.z⟩ : V3 B64) o).mono
    (by rw [zero_mul]; positivity)

end Cut

/-- What the two points of view have in common: `nearCut` is on the ground and in the plane of the rib, and no other such point is
nearer to the centre of the rib. -/
theorem C109_nearest {M R y : ℝ} {P : Affine ℝ} {o n : V3 ℝ} (hs : CutScene M R y P o n) :
    OnCut y P o n (nearCut y P o n) ∧ ∀ q, OnCut y P o n q → dist3 (hub y P) (nearCut y P o n) ≤ dist3 (hub y P) q := by
  have hn := hs.unit
  have hN : P.linear.c1.x ^ 2 + P.linear.c1.y ^ 2 + P.linear.c1.z ^ 2 = 1 := hs.rigid.unit1
  have k := Cut.k_lo hs.side
  have k0 : 1 - dot3 n P.linear.c1 ^ 2 ≠ 0 := by linarith
  obtain ⟨c, hc⟩ : ∃ c, c = hub y P := ⟨_, rfl⟩
  obtain ⟨N, hNd⟩ : ∃ N, N = P.linear.c1 := ⟨_, rfl⟩
  obtain ⟨t, ht⟩ : ∃ t, t = dot3 n ⟨o.x - c.x, o.y - c.y, o.z - c.z⟩ / (1 - dot3 n N ^ 2) := ⟨_, rfl⟩
  have hQ : nearCut y P o n = ⟨c.x + t * (n.x - dot3 n N * N.x), c.y + t * (n.y - dot3 n N * N.y), c.z + t * (n.z - dot3 n N * N.z)⟩ := by
    rw [ht, hc, hNd]; rfl
  rw [← hNd] at hN k0
  have ht' : t * (1 - dot3 n N ^ 2) = dot3 n ⟨o.x - c.x, o.y - c.y, o.z - c.z⟩ := by rw [ht, div_mul_cancel₀ _ k0]
  have a1 : OnCut y P o n (nearCut y P o n) := by
    rw [OnCut, hQ, ← hc, ← hNd]
    have e : dot3 n N = n.x * N.x + n.y * N.y + n.z * N.z := rfl
    generalize dot3 n N = s at *
    simp only [dot3] at ht' ⊢
    constructor
    · linear_combination t * hn + ht' - t * s * (-e)
    · linear_combination -t * s * hN - t * e
  refine ⟨a1, fun q hq => ?_⟩
  obtain ⟨q1, q2⟩ := hq
  obtain ⟨p1, p2⟩ := a1
  rw [dist3, dist3]
  apply Real.sqrt_le_sqrt
  rw [← hc, ← hNd] at *
  have hv : (nearCut y P o n).x = c.x + t * (n.x - dot3 n N * N.x) ∧ (nearCut y P o n).y = c.y + t * (n.y - dot3 n N * N.y) ∧
    (nearCut y P o n).z = c.z + t * (n.z - dot3 n N * N.z) := by rw [hQ]; exact ⟨rfl, rfl, rfl⟩
  generalize nearCut y P o n = Q at *
  generalize dot3 n N = s at *
  obtain ⟨v1, v2, v3⟩ := hv
  simp only [dot3] at p1 p2 q1 q2
  have key : (c.x - q.x) ^ 2 + (c.y - q.y) ^ 2 + (c.z - q.z) ^ 2 = (c.x - Q.x) ^ 2 + (c.y - Q.y) ^ 2 + (c.z - Q.z) ^ 2 +
      ((Q.x - q.x) ^ 2 + (Q.y - q.y) ^ 2 + (Q.z - q.z) ^ 2) := by
    linear_combination (-2 * (Q.x - q.x)) * v1 - 2 * (Q.y - q.y) * v2 - 2 * (Q.z - q.z) * v3 - 2 * t * (p1 - q1) + 2 * t * s * (p2 - q2)
  rw [key]
  nlinarith [sq_nonneg (Q.x - q.x), sq_nonneg (Q.y - q.y), sq_nonneg (Q.z - q.z)]

/-- **C109** (partial: scenes from 16 m to a kilometre in size, the flag only outside an error bound, the normal only when the centre
of the rib is 10 cm from the ground).  A rib, a pose and a flat ground in doubles that are `ε`-close to an exact rib, a rigid pose and
an exact plane: the geometric method finds contact when the rib is in the ground by more than `(2 ^ 19 M ^ 2 ε + 2 ^ -25) / R`, none when it is that far
above it, and whenever it finds contact, the depth, the point and the normal are the true ones up to the bounds, and the friction is
that of the ground. -/
theorem C109_geometric_partial {ε : ℝ} (hε : Fine ε) {M R y : ℝ} (hM : Extent M) {P : Affine ℝ} {o n : V3 ℝ}
    (hs : CutScene M R y P o n) {r : Rib B64} {g : Flat B64} {p : Affine B64} (hr : CutRib M ε r R y) (hp : CutPose M ε p P)
    (hg : CutFlat M ε g o n) :
    let e := (2 ^ 19 * M ^ 2 * ε + 1 / 2 ^ 25) / R
    let D := cutDepth R y P o n
    let h := dist3 (hub y P) (nearCut y P o n)
    let res := r.envelopGeometricFlat g p
    (e ≤ D → res.1 = true) ∧ (D < -e → res.1 = false) ∧
    (res.1 = true → Close (2 ^ 17 * M * ε) res.2.depth D ∧ Close3 (2 ^ 16 * M * ε) res.2.point (nearCut y P o n) ∧
      res.2.friction = g.friction ∧ (1 / 10 ≤ h → Close3 (2 ^ 22 * M / h * ε) res.2.normal n)) := by
  intro e D h res
  obtain ⟨x, h1, h2, h3⟩ := Cut.all hε hM hs hr hp hg
  have h1' := abs_le.1 h1
  have k := Cut.k_lo hs.side
  have hR : 0 < R := by have := hs.R_lo; linarith
  have hh : 0 ≤ h := Real.sqrt_nonneg _
  have hDh : D = R - h := rfl
  have hεl := hε.lo
  have hεp := hε.pos
  have he : e * R = 2 ^ 19 * M ^ 2 * ε + 1 / 2 ^ 25 := by simp only [e]; rw [div_mul_cancel₀ _ hR.ne']
  change -(2 ^ 18 * (M * M) * ε) ≤ x - (1 - dot3 n P.linear.c1 ^ 2) * (R ^ 2 - h ^ 2) ∧
    x - (1 - dot3 n P.linear.c1 ^ 2) * (R ^ 2 - h ^ 2) ≤ 2 ^ 18 * (M * M) * ε at h1'
  generalize 1 - dot3 n P.linear.c1 ^ 2 = κ at h1' k
  refine ⟨fun hD => ?_, fun hD => ?_, fun ht => ?_⟩
  · rw [show res.1 = decide (1 / 2 ^ 26 ≤ x) from h2, decide_eq_true_eq]
    have t1 : e * R ≤ R ^ 2 - h ^ 2 := by
      have : e * R ≤ (R - h) * R := mul_le_mul_of_nonneg_right (by linarith) hR.le
      have he0 : 0 ≤ e := by positivity
      nlinarith
    have t2 : 16 / 25 * (e * R) ≤ κ * (R ^ 2 - h ^ 2) := by
      have : 0 ≤ e * R := by rw [he]; positivity
      exact mul_le_mul k t1 this (by linarith)
    rw [he] at t2
    have := h1'.1
    norm_num at hεl this t2 ⊢
    linarith
  · rw [show res.1 = decide (1 / 2 ^ 26 ≤ x) from h2, decide_eq_false_iff_not, not_le]
    have t1 : R ^ 2 - h ^ 2 ≤ -(e * R) := by
      have : R + e < h := by linarith
      have he0 : 0 ≤ e := by positivity
      nlinarith
    have t2 : κ * (R ^ 2 - h ^ 2) ≤ 16 / 25 * -(e * R) * 1 := by
      have : 0 ≤ e * R := by rw [he]; positivity
      nlinarith
    rw [he] at t2
    have := h1'.2
    norm_num at hεl this t2 ⊢
    linarith
  · rw [show res.1 = decide (1 / 2 ^ 26 ≤ x) from h2, decide_eq_true_eq] at ht
    exact h3 ht

/-- **C109 for the tyre** (partial, as above).  After a setup in doubles with the geometric method on a flat ground made of the double
vectors `o` and `n`, the record of every rib either says no contact, or holds the true depth, point, normal and friction up to the
bounds; the latter when the rib is in the ground by more than `(2 ^ 19 M ^ 2 ε + 2 ^ -25) / R`, the former when it is that far above it. -/
theorem C109_setup_partial {ε : ℝ} (hε : Fine ε) (hε' : 1 / 2 ^ 49 ≤ ε) {M : ℝ} (hM : Extent M) {pol : Policy} {s s' : Shell B64} {F : ℝ} {o n : V3 ℝ}
    {g : Flat B64} (hg : Flat.make (fin F) ⟨fin o.x, fin o.y, fin o.z⟩ ⟨fin n.x, fin n.y, fin n.z⟩ = .ok g)
    (hl : 1 / 2 ^ 10 ≤ length3 n) (hl' : length3 n ≤ 2 ^ 10) {p : Affine B64} {P : Affine ℝ}
    (hp : CutPose M ε p P) {b : Bool} (hset : s.setupFlat pol g p "geometric" = .ok s' b) {i : Nat} {r : Rib B64} {out : Output B64}
    (h : Shows pol s' i r out) {R y : ℝ} (hr : CutRib M ε r R y)
    (hs : CutScene M R y P o ⟨n.x / length3 n, n.y / length3 n, n.z / length3 n⟩) :
    let N : V3 ℝ := ⟨n.x / length3 n, n.y / length3 n, n.z / length3 n⟩
    let e := (2 ^ 19 * M ^ 2 * ε + 1 / 2 ^ 25) / R
    let D := cutDepth R y P o N
    let h := dist3 (hub y P) (nearCut y P o N)
    let none := out.depth = zero ∧ out.friction = zero ∧ out.area = zero ∧ out.volume = zero
    let good := Close (2 ^ 17 * M * ε) out.depth D ∧ Close3 (2 ^ 16 * M * ε) out.point (nearCut y P o N) ∧ out.friction = fin F ∧
      (1 / 10 ≤ h → Close3 (2 ^ 22 * M / h * ε) out.normal N)
    (e ≤ D → good) ∧ (D < -e → none) ∧ (none ∨ good) := by
  intro N e D hh none good
  obtain ⟨-, -, flag, he⟩ := h.flat hset
  obtain ⟨hgf, hf⟩ := Accurate.flat_make hε hε' hg hl hl'
  have hno : flag = false → none := by
    intro hfl
    subst hfl
    have := Rib.envelopFlat_false he
    simp only [none, this]
    exact ⟨rfl, rfl, rfl, rfl⟩
  rw [Rib.envelopFlat, if_pos rfl] at he
  have he := Res.ok.inj he
  obtain ⟨k1, k2, k3⟩ := C109_geometric_partial hε hM hs hr hp ⟨Cut.flat_origin hε hM hg, hgf.normal⟩
  rw [he] at k1 k2 k3
  dsimp only at k1 k2 k3
  rw [hf] at k3
  refine ⟨fun h => k3 (k1 h), fun h => hno (k2 h), ?_⟩
  cases flag with
  | true => exact Or.inr (k3 rfl)
  | false => exact Or.inl (hno rfl)

end Enve
