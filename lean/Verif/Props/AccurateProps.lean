import Verif.Lemmas.Rounding
import Verif.Props.TyreProps

/-! # C105: the accuracy of the sampling method in doubles -/

namespace Enve

open Scalar Spec B64

namespace Spec.Upto

theorem mono {A B : ℝ} {v : V3 ℝ} (h : Upto A v) (hAB : A ≤ B) : Upto B v :=
  ⟨h.x.trans hAB, h.y.trans hAB, h.z.trans hAB⟩

theorem add {A B : ℝ} {v u : V3 ℝ} (h : Upto A v) (k : Upto B u) : Upto (A + B) (V3.add v u) := by
  simp only [V3.real_add]
  exact ⟨(abs_add_le _ _).trans (add_le_add h.x k.x), (abs_add_le _ _).trans (add_le_add h.y k.y),
    (abs_add_le _ _).trans (add_le_add h.z k.z)⟩

theorem sub {A B : ℝ} {v u : V3 ℝ} (h : Upto A v) (k : Upto B u) : Upto (A + B) (V3.sub v u) := by
  simp only [V3.real_sub]
  exact ⟨(abs_sub _ _).trans (add_le_add h.x k.x), (abs_sub _ _).trans (add_le_add h.y k.y),
    (abs_sub _ _).trans (add_le_add h.z k.z)⟩

theorem mulVec {A B : ℝ} {m : M3 ℝ} {v : V3 ℝ} (h0 : Upto A m.c0) (h1 : Upto A m.c1) (h2 : Upto A m.c2) (k : Upto B v) :
    Upto (3 * (A * B)) (M3.mulVec m v) := by
  have hA : 0 ≤ A := (abs_nonneg _).trans h0.x
  have key : ∀ a b c x y z : ℝ, |a| ≤ A → |b| ≤ A → |c| ≤ A → |x| ≤ B → |y| ≤ B → |z| ≤ B →
      |a * x + b * y + c * z| ≤ 3 * (A * B) := by
    intro a b c x y z ha hb hc hx hy hz
    have e1 : |a * x| ≤ A * B := by rw [abs_mul]; exact mul_le_mul ha hx (abs_nonneg _) hA
    have e2 : |b * y| ≤ A * B := by rw [abs_mul]; exact mul_le_mul hb hy (abs_nonneg _) hA
    have e3 : |c * z| ≤ A * B := by rw [abs_mul]; exact mul_le_mul hc hz (abs_nonneg _) hA
    have := abs_add_le (a * x + b * y) (c * z)
    have := abs_add_le (a * x) (b * y)
    linarith
  exact ⟨key _ _ _ _ _ _ h0.x h1.x h2.x k.x k.y k.z, key _ _ _ _ _ _ h0.y h1.y h2.y k.x k.y k.z,
    key _ _ _ _ _ _ h0.z h1.z h2.z k.x k.y k.z⟩

theorem unit {v : V3 ℝ} (h : v.x ^ 2 + v.y ^ 2 + v.z ^ 2 = 1) : Upto 1 v := by
  refine ⟨?_, ?_, ?_⟩ <;> apply abs_le_of_sq_le_sq _ zero_le_one |>.trans' le_rfl <;>
    nlinarith [sq_nonneg v.x, sq_nonneg v.y, sq_nonneg v.z]

end Spec.Upto

namespace Accurate
variable {ε : ℝ}

theorem ez_close : Close3 (0 * ε) (V3.neg V3.ez : V3 B64) ⟨0, 0, -1⟩ := by
  simp only [V3.neg, V3.ez, B64.zero_eq, B64.one_eq]
  refine ⟨⟨-0, rfl, ?_⟩, ⟨-0, rfl, ?_⟩, ⟨-1, rfl, ?_⟩⟩ <;> simp

theorem ex_close : Close3 (0 * ε) (V3.ex : V3 B64) ⟨1, 0, 0⟩ := by
  simp only [V3.ex, B64.zero_eq, B64.one_eq]
  exact ⟨Close.exact _, Close.exact _, Close.exact _⟩

theorem ey_close : Close3 (0 * ε) (V3.ey : V3 B64) ⟨0, 1, 0⟩ := by
  simp only [V3.ey, B64.zero_eq, B64.one_eq]
  exact ⟨Close.exact _, Close.exact _, Close.exact _⟩

theorem lit_close (hε : Fine ε) (a b : ℕ) (h : (a : ℝ) / b ≤ 1 / 2) : Close (3 / 10 * ε) (Scalar.lit a b : B64) ((a : ℝ) / b) := by
  show Close _ (B64.round (Scalar.lit a b : XR)) _
  rw [show (Scalar.lit a b : XR) = .fin ((a : ℝ) / b) from rfl]
  refine Close.round hε (α := 0) (C := 1 / 2) (by simp) ?_ le_rfl (by norm_num) (by norm_num)
  rw [abs_of_nonneg (by positivity)]; exact h

/-- From the wheel to the ground. -/
theorem place (hε : Fine ε) {p : Affine B64} {P : Affine ℝ} (hp : ClosePose ε p P) (hP : IsRigid P) (ht : Upto (2 ^ 10) P.trans)
    {b : V3 B64} {q : V3 ℝ} (hb : Close3 (1030 * ε) b q) (hq : Upto 2 q) :
    Close3 (5700 * ε) (V3.add p.trans (M3.mulVec p.linear b)) (V3.add P.trans (M3.mulVec P.linear q)) ∧
      Upto 1030 (V3.add P.trans (M3.mulVec P.linear q)) := by
  have u0 := Upto.unit hP.unit0
  have u1 := Upto.unit hP.unit1
  have u2 := Upto.unit hP.unit2
  have c0 : Close3 (1 * ε) p.linear.c0 P.linear.c0 := by rw [one_mul]; exact hp.c0
  have c1 : Close3 (1 * ε) p.linear.c1 P.linear.c1 := by rw [one_mul]; exact hp.c1
  have c2 : Close3 (1 * ε) p.linear.c2 P.linear.c2 := by rw [one_mul]; exact hp.c2
  have hm : Close3 (4150 * ε) (M3.mulVec p.linear b) (M3.mulVec P.linear q) :=
    Close3.mulVec hε c0 c1 c2 hb u0 u1 u2 hq (δ := 1033) (by norm_num) (by norm_num) (by norm_num) (by norm_num) (by norm_num)
  have hu : Upto 1030 (V3.add P.trans (M3.mulVec P.linear q)) := (ht.add (Upto.mulVec u0 u1 u2 hq)).mono (by norm_num)
  exact ⟨hp.trans.add hε hm hu (by norm_num) (by norm_num) (by norm_num) (by norm_num), hu⟩

/-- The sampling lines. -/
theorem lines (hε : Fine ε) {R y w : ℝ} {P : Affine ℝ} {o n : V3 ℝ} (hs : CalmScene R y w P o n) {r : Rib B64}
    (hr : CloseRib ε r R y w) {p : Affine B64} (hp : ClosePose ε p P) :
    (∀ l ∈ [(r.lineXp p, (⟨R / 10, y, 0⟩ : V3 ℝ)), (r.lineXm p, ⟨-(R / 10), y, 0⟩),
      (r.lineYp p, ⟨0, y + 3 / 10 * w, 0⟩), (r.lineYm p, ⟨0, y - 3 / 10 * w, 0⟩)],
      l.1.direction = V3.neg V3.ez ∧ Close3 (5700 * ε) l.1.origin (V3.add P.trans (M3.mulVec P.linear l.2)) ∧
        Upto 1030 (V3.add P.trans (M3.mulVec P.linear l.2))) ∧
    Close3 (5700 * ε) (r.centerGrd p) (V3.add P.trans (M3.mulVec P.linear ⟨0, y, 0⟩)) ∧
      Upto 1030 (V3.add P.trans (M3.mulVec P.linear ⟨0, y, 0⟩)) := by
  have hR0 := hs.R_lo
  have hR1 := hs.R_hi
  have hw0 := hs.w_lo
  have hw1 := hs.w_hi
  have hy := hs.y_le
  have hRc : Close (1 * ε) r.radius R := by rw [one_mul]; exact hr.radius
  have hwc : Close (1 * ε) r.width w := by rw [one_mul]; exact hr.width
  have l1 := lit_close hε 1 10 (by norm_num)
  have l3 := lit_close hε 3 10 (by norm_num)
  push_cast at l1 l3
  have dx : Close (7 / 5 * ε) (Scalar.lit 1 10 *. r.radius) (1 / 10 * R) :=
    l1.mul hε hRc (A := 1 / 10) (B := 2) (by norm_num) (by rw [abs_of_nonneg] <;> linarith) (by norm_num) (by norm_num)
      (δ := 3 / 4) (by norm_num) (by norm_num) (by norm_num)
  have dy : Close (7 / 5 * ε) (Scalar.lit 3 10 *. r.width) (3 / 10 * w) :=
    l3.mul hε hwc (A := 3 / 10) (B := 1) (by rw [abs_of_nonneg] <;> norm_num) (by rw [abs_of_nonneg] <;> linarith)
      (by norm_num) (by norm_num) (δ := 3 / 4) (by norm_num) (by norm_num) (by norm_num)
  have uex : Upto 1 (⟨1, 0, 0⟩ : V3 ℝ) := ⟨by simp, by simp, by simp⟩
  have uey : Upto 1 (⟨0, 1, 0⟩ : V3 ℝ) := ⟨by simp, by simp, by simp⟩
  have vx : Close3 (2 * ε) (V3.smul (Scalar.lit 1 10 *. r.radius) V3.ex) (V3.smul (1 / 10 * R) ⟨1, 0, 0⟩) :=
    Close3.smul hε dx ex_close (A := 1 / 5) (B := 1) (by rw [abs_of_nonneg] <;> linarith) uex (by norm_num) le_rfl
      (δ := 7 / 5) (by norm_num) (by norm_num) (by norm_num)
  have vy : Close3 (2 * ε) (V3.smul (Scalar.lit 3 10 *. r.width) V3.ey) (V3.smul (3 / 10 * w) ⟨0, 1, 0⟩) :=
    Close3.smul hε dy ey_close (A := 3 / 10) (B := 1) (by rw [abs_of_nonneg] <;> linarith) uey (by norm_num) le_rfl
      (δ := 7 / 5) (by norm_num) (by norm_num) (by norm_num)
  have uc : Upto 1 (⟨0, y, 0⟩ : V3 ℝ) := ⟨by simp, hy, by simp⟩
  have ux : Upto 1 (V3.smul (1 / 10 * R) ⟨1, 0, 0⟩ : V3 ℝ) := by
    simp only [V3.real_smul]
    refine ⟨?_, by simp, by simp⟩
    simp only [mul_one]; rw [abs_of_nonneg] <;> linarith
  have uy : Upto 1 (V3.smul (3 / 10 * w) ⟨0, 1, 0⟩ : V3 ℝ) := by
    simp only [V3.real_smul]
    refine ⟨by simp, ?_, by simp⟩
    simp only [mul_one]; rw [abs_of_nonneg] <;> linarith
  have cc := hr.center
  have q : ∀ {b : V3 B64} {v v' : V3 ℝ}, Close3 (1030 * ε) b v → Upto 2 v → v = v' →
      Close3 (5700 * ε) (V3.add p.trans (M3.mulVec p.linear b)) (V3.add P.trans (M3.mulVec P.linear v')) ∧
        Upto 1030 (V3.add P.trans (M3.mulVec P.linear v')) := by
    rintro b v v' h1 h2 rfl
    exact place hε hp hs.rigid hs.place h1 h2
  refine ⟨?_, q (cc.up hε (by norm_num)) (uc.mono (by norm_num)) rfl⟩
  intro l hl
  simp only [List.mem_cons, List.not_mem_nil, or_false] at hl
  rcases hl with rfl | rfl | rfl | rfl
  · refine ⟨rfl, q (cc.add (C := 2) hε vx ((uc.add ux).mono (by norm_num)) (by norm_num) (by norm_num) (by norm_num) (by norm_num))
      ((uc.add ux).mono (by norm_num)) ?_⟩
    simp only [V3.real_smul, V3.real_add]; ext <;> dsimp only <;> ring
  · refine ⟨rfl, q (cc.sub (C := 2) hε vx ((uc.sub ux).mono (by norm_num)) (by norm_num) (by norm_num) (by norm_num) (by norm_num))
      ((uc.sub ux).mono (by norm_num)) ?_⟩
    simp only [V3.real_smul, V3.real_sub]; ext <;> dsimp only <;> ring
  · refine ⟨rfl, q (cc.add (C := 2) hε vy ((uc.add uy).mono (by norm_num)) (by norm_num) (by norm_num) (by norm_num) (by norm_num))
      ((uc.add uy).mono (by norm_num)) ?_⟩
    simp only [V3.real_smul, V3.real_add]; ext <;> dsimp only <;> ring
  · refine ⟨rfl, q (cc.sub (C := 2) hε vy ((uc.sub uy).mono (by norm_num)) (by norm_num) (by norm_num) (by norm_num) (by norm_num))
      ((uc.sub uy).mono (by norm_num)) ?_⟩
    simp only [V3.real_smul, V3.real_sub]; ext <;> dsimp only <;> ring

/-- The sampled points. -/
theorem sample (hε : Fine ε) {g : Flat B64} {o n : V3 ℝ} (hg : CloseFlat ε g o n) (ho : Upto (2 ^ 10) o)
    (hn : n.x ^ 2 + n.y ^ 2 + n.z ^ 2 = 1) (hup : 1 / 2 ≤ n.z) {l : Line B64} (hd : l.direction = V3.neg V3.ez) {q : V3 ℝ}
    (hl : Close3 (5700 * ε) l.origin q) (hq : Upto 1030 q) :
    ∃ p, Rib.samplingLineFlat g l = some (p, g.friction) ∧ Close3 (395000 * ε) p (footAt o n q) ∧ Upto 13390 (footAt o n q) := by
  have hn1 := Upto.unit hn
  have hnc : Close3 (1 * ε) g.plane.normal n := by rw [one_mul]; exact hg.normal
  have uz : Upto 1 (⟨0, 0, -1⟩ : V3 ℝ) := ⟨by simp, by simp, by simp⟩
  have hdet : Close (10 * ε) (V3.dot g.plane.normal l.direction) (V3.dot n ⟨0, 0, -1⟩) := by
    rw [hd]
    exact Close3.dot hε hnc ez_close hn1 uz (by norm_num) le_rfl (δ := 1) (by norm_num) (by norm_num) (by norm_num)
  have hdv : V3.dot n ⟨0, 0, -1⟩ = -n.z := by rw [V3.real_dot]; ring
  rw [hdv] at hdet
  have hu := ho.sub hq
  have hsub : Close3 (7760 * ε) (V3.sub g.plane.origin l.origin) (V3.sub o q) :=
    hg.origin.sub hε hl hu (by norm_num) (by norm_num) (by norm_num) (by norm_num)
  have hdot : Close (49600 * ε) (V3.dot (V3.sub g.plane.origin l.origin) g.plane.normal) (V3.dot (V3.sub o q) n) :=
    Close3.dot hε hsub hnc (hu.mono (by norm_num : _ ≤ (2060 : ℝ))) hn1 (by norm_num) (by norm_num) (δ := 9821) (by norm_num)
      (by norm_num) (by norm_num)
  have hdb : |V3.dot (V3.sub o q) n| ≤ 6180 := by
    have key : ∀ a b : ℝ, |a| ≤ 2060 → |b| ≤ 1 → |a * b| ≤ 2060 := by
      intro a b ha hb; rw [abs_mul]
      exact (mul_le_mul ha hb (abs_nonneg _) (by norm_num)).trans (by norm_num)
    have hu' := hu.mono (by norm_num : _ ≤ (2060 : ℝ))
    rw [V3.real_dot]
    have e1 := key _ _ hu'.x hn1.x
    have e2 := key _ _ hu'.y hn1.y
    have e3 := key _ _ hu'.z hn1.z
    have := abs_add_le ((V3.sub o q).x * n.x + (V3.sub o q).y * n.y) ((V3.sub o q).z * n.z)
    have := abs_add_le ((V3.sub o q).x * n.x) ((V3.sub o q).y * n.y)
    linarith
  have hnz : 1 / 2 ≤ |-n.z| := by rw [abs_neg, abs_of_nonneg] <;> linarith
  have ht : Close (376000 * ε) (V3.dot (V3.sub g.plane.origin l.origin) g.plane.normal /. V3.dot g.plane.normal l.direction)
      (V3.dot (V3.sub o q) n / -n.z) :=
    hdot.div hε hdet hdb hnz (by norm_num) (by norm_num) (by norm_num) (by norm_num) (δ := 369500) (by norm_num) (by norm_num)
      (by norm_num)
  have htb : |V3.dot (V3.sub o q) n / -n.z| ≤ 12360 := by
    rw [abs_div]
    exact (div_le_div₀ (by norm_num) hdb (by norm_num) hnz).trans (by norm_num)
  have hsm : Close3 (382300 * ε) (V3.smul (V3.dot (V3.sub g.plane.origin l.origin) g.plane.normal /. V3.dot g.plane.normal l.direction)
      l.direction) (V3.smul (V3.dot (V3.sub o q) n / -n.z) ⟨0, 0, -1⟩) := by
    rw [hd] at ht ⊢
    exact Close3.smul hε ht ez_close htb uz (by norm_num) le_rfl (δ := 376001) (by norm_num) (by norm_num) (by norm_num)
  have usm : Upto 12360 (V3.smul (V3.dot (V3.sub o q) n / -n.z) ⟨0, 0, -1⟩) := by
    simp only [V3.real_smul]
    refine ⟨by simp, by simp, ?_⟩
    dsimp only
    rw [mul_neg_one, abs_neg]; exact htb
  have hp := hl.add hε hsm (hq.add usm) (by norm_num) (by norm_num) (by norm_num) (by norm_num : _ ≤ (395000 : ℝ))
  have hfoot : V3.add q (V3.smul (V3.dot (V3.sub o q) n / -n.z) ⟨0, 0, -1⟩) = footAt o n q := by
    have : n.z ≠ 0 := by linarith
    simp only [V3.real_smul, V3.real_add, V3.real_sub, V3.real_dot, footAt]
    ext <;> dsimp only <;> field_simp <;> ring
  have hup' := (hq.add usm).mono (by norm_num : _ ≤ (13390 : ℝ))
  rw [hfoot] at hp hup'
  refine ⟨_, ?_, hp, hup'⟩
  obtain ⟨x, hx, hx'⟩ := hdet.abs
  have hlt : ((Scalar.eps : B64) <. Scalar.abs (V3.dot g.plane.normal l.direction)) = true := by
    rw [hx, show (Scalar.eps : B64) = fin Scalar.eps from rfl, lt_fin, decide_eq_true_eq]
    have h1 := (abs_le.1 hx').1
    have h2 := hε.hi
    have h3 : (Scalar.eps : ℝ) = (2 : ℝ)⁻¹ ^ 26 := rfl
    rw [h3]
    norm_num at h2 ⊢
    linarith
  simp only [Rib.samplingLineFlat, Inter.linePlane, hlt, if_true, Option.map_some]

theorem foot_upto {o n : V3 ℝ} (ho : Upto (2 ^ 10) o) (hn : n.x ^ 2 + n.y ^ 2 + n.z ^ 2 = 1) (hup : 1 / 2 ≤ n.z) {q : V3 ℝ}
    (hq : Upto 1030 q) : Upto 13390 (footAt o n q) := by
  have hn1 := Upto.unit hn
  have key : ∀ a b c : ℝ, |a| ≤ 1 → |b| ≤ 2 ^ 10 → |c| ≤ 1030 → |a * (b - c)| ≤ 2054 := by
    intro a b c ha hb hc
    rw [abs_mul]
    have h1 := (abs_sub b c).trans (add_le_add hb hc)
    exact (mul_le_mul ha h1 (abs_nonneg _) (by norm_num)).trans (by norm_num)
  have h1 := key _ _ _ hn1.x ho.x hq.x
  have h2 := key _ _ _ hn1.y ho.y hq.y
  have h3 := key _ _ _ hn1.z ho.z hq.z
  refine ⟨hq.x.trans (by norm_num), hq.y.trans (by norm_num), ?_⟩
  simp only [footAt]
  refine (abs_add_le _ _).trans ?_
  have h4 : |(n.x * (o.x - q.x) + n.y * (o.y - q.y) + n.z * (o.z - q.z)) / n.z| ≤ 12324 := by
    rw [abs_div, abs_of_pos (by linarith : 0 < n.z), div_le_iff₀ (by linarith)]
    have := abs_add_le (n.x * (o.x - q.x) + n.y * (o.y - q.y)) (n.z * (o.z - q.z))
    have := abs_add_le (n.x * (o.x - q.x)) (n.y * (o.y - q.y))
    linarith
  have := hq.z
  linarith

/-- Projecting the difference of two points vertically on the plane. -/
noncomputable def slide (n a : V3 ℝ) : V3 ℝ := ⟨a.x, a.y, -((n.x * a.x + n.y * a.y) / n.z)⟩

theorem foot_sub {o n : V3 ℝ} (hz : n.z ≠ 0) (p q : V3 ℝ) :
    V3.sub (footAt o n p) (footAt o n q) = slide n (V3.sub p q) := by
  simp only [footAt, slide, V3.real_sub]
  ext <;> dsimp only <;> field_simp <;> ring

theorem slide_smul (n a : V3 ℝ) (k : ℝ) : slide n (V3.smul k a) = V3.smul k (slide n a) := by
  simp only [slide, V3.real_smul]
  ext <;> dsimp only <;> ring

theorem slide_upto {n a : V3 ℝ} (hn : n.x ^ 2 + n.y ^ 2 + n.z ^ 2 = 1) (hup : 1 / 2 ≤ n.z) (ha : a.x ^ 2 + a.y ^ 2 + a.z ^ 2 = 1) :
    Upto (7 / 4) (slide n a) := by
  have h1 := Upto.unit ha
  refine ⟨h1.x.trans (by norm_num), h1.y.trans (by norm_num), ?_⟩
  have hz : 0 < n.z := by linarith
  simp only [slide]
  rw [abs_neg, abs_div, abs_of_pos hz, div_le_iff₀ hz]
  apply abs_le_of_sq_le_sq _ (by positivity)
  nlinarith [sq_nonneg (n.x * a.y - n.y * a.x), sq_nonneg a.z, sq_nonneg n.x, sq_nonneg n.y,
    mul_nonneg (by positivity : 0 ≤ n.x ^ 2 + n.y ^ 2) (sq_nonneg a.z)]

theorem cross_slide {n a b : V3 ℝ} (hz : n.z ≠ 0) :
    V3.cross (slide n a) (slide n b) = V3.smul ((V3.cross a b).z / n.z) n := by
  simp only [slide, V3.real_smul, V3.real_cross]
  ext <;> dsimp only <;> field_simp <;> ring

/-- The sampled normal. -/
theorem normal (hε : Fine ε) {R y w : ℝ} {P : Affine ℝ} {o n : V3 ℝ} (hs : CalmScene R y w P o n) {p0 p1 p2 p3 : V3 B64}
    (h0 : Close3 (395000 * ε) p0 (footAt o n (V3.add P.trans (M3.mulVec P.linear ⟨R / 10, y, 0⟩))))
    (h1 : Close3 (395000 * ε) p1 (footAt o n (V3.add P.trans (M3.mulVec P.linear ⟨-(R / 10), y, 0⟩))))
    (h2 : Close3 (395000 * ε) p2 (footAt o n (V3.add P.trans (M3.mulVec P.linear ⟨0, y + 3 / 10 * w, 0⟩))))
    (h3 : Close3 (395000 * ε) p3 (footAt o n (V3.add P.trans (M3.mulVec P.linear ⟨0, y - 3 / 10 * w, 0⟩)))) :
    Close3 ((35000000 / w + 110000000 / R) * ε) (V3.normalized (V3.cross (V3.sub p0 p1) (V3.sub p2 p3))) n := by
  have hR0 := hs.R_lo
  have hR1 := hs.R_hi
  have hw0 := hs.w_lo
  have hw1 := hs.w_hi
  have hup := hs.up
  have hz : n.z ≠ 0 := by linarith
  have hzp : 0 < n.z := by linarith
  have hz1 : n.z ≤ 1 := (abs_le.1 (Upto.unit hs.unit).z).2
  have hc2 := hs.top
  have hc21 : P.linear.c2.z ≤ 1 := (abs_le.1 (Upto.unit hs.rigid.unit2).z).2
  have dU : V3.sub (V3.add P.trans (M3.mulVec P.linear ⟨R / 10, y, 0⟩)) (V3.add P.trans (M3.mulVec P.linear ⟨-(R / 10), y, 0⟩)) =
      V3.smul (R / 5) P.linear.c0 := by
    simp only [V3.real_sub, V3.real_add, V3.real_smul, M3.mulVec, Scalar.real_add, Scalar.real_mul]
    ext <;> dsimp only <;> ring
  have dV : V3.sub (V3.add P.trans (M3.mulVec P.linear ⟨0, y + 3 / 10 * w, 0⟩))
      (V3.add P.trans (M3.mulVec P.linear ⟨0, y - 3 / 10 * w, 0⟩)) = V3.smul (3 / 5 * w) P.linear.c1 := by
    simp only [V3.real_sub, V3.real_add, V3.real_smul, M3.mulVec, Scalar.real_add, Scalar.real_mul]
    ext <;> dsimp only <;> ring
  have eU := (foot_sub (o := o) hz (V3.add P.trans (M3.mulVec P.linear ⟨R / 10, y, 0⟩))
    (V3.add P.trans (M3.mulVec P.linear ⟨-(R / 10), y, 0⟩)))
  have eV := (foot_sub (o := o) hz (V3.add P.trans (M3.mulVec P.linear ⟨0, y + 3 / 10 * w, 0⟩))
    (V3.add P.trans (M3.mulVec P.linear ⟨0, y - 3 / 10 * w, 0⟩)))
  rw [dU, slide_smul] at eU
  rw [dV, slide_smul] at eV
  have scale : ∀ {k : ℝ} {v : V3 ℝ}, 0 ≤ k → Upto (7 / 4) v → Upto (k * (7 / 4)) (V3.smul k v) := by
    intro k v hk hv
    simp only [V3.real_smul]
    refine ⟨?_, ?_, ?_⟩ <;> dsimp only <;> rw [abs_mul, abs_of_nonneg hk]
    · exact mul_le_mul_of_nonneg_left hv.x hk
    · exact mul_le_mul_of_nonneg_left hv.y hk
    · exact mul_le_mul_of_nonneg_left hv.z hk
  have uU := scale (by linarith : 0 ≤ R / 5) (slide_upto hs.unit hup hs.rigid.unit0)
  have uV := scale (by linarith : 0 ≤ 3 / 5 * w) (slide_upto hs.unit hup hs.rigid.unit1)
  have cU : Close3 (790002 * ε) (V3.sub p0 p1) (V3.smul (R / 5) (slide n P.linear.c0)) := by
    rw [← eU]
    refine h0.sub hε h1 (C := 2) ?_ (by norm_num) (by norm_num) (by norm_num) (by norm_num)
    rw [eU]; exact uU.mono (by linarith)
  have cV : Close3 (790002 * ε) (V3.sub p2 p3) (V3.smul (3 / 5 * w) (slide n P.linear.c1)) := by
    rw [← eV]
    refine h2.sub hε h3 (C := 2) ?_ (by norm_num) (by norm_num) (by norm_num) (by norm_num)
    rw [eV]; exact uV.mono (by linarith)
  obtain ⟨σ, hσ⟩ : ∃ σ, σ = R / 5 * (7 / 4) + 3 / 5 * w * (7 / 4) := ⟨_, rfl⟩
  have hσ0 : 1 / 20 ≤ σ := by rw [hσ]; linarith
  have hσ1 : σ ≤ 2 := by rw [hσ]; linarith
  have hRw : R / 5 * (7 / 4) * (3 / 5 * w * (7 / 4)) ≤ σ := by
    rw [hσ]; nlinarith
  have hRw0 : 0 ≤ R / 5 * (7 / 4) * (3 / 5 * w * (7 / 4)) := by positivity
  have cC : Close3 (1680000 * σ * ε) (V3.cross (V3.sub p0 p1) (V3.sub p2 p3))
      (V3.cross (V3.smul (R / 5) (slide n P.linear.c0)) (V3.smul (3 / 5 * w) (slide n P.linear.c1))) := by
    refine Close3.cross hε cU cV uU uV (by norm_num) (by norm_num) (δ := 790020 * σ) ?_ ?_ ?_
    · rw [hσ]; norm_num; nlinarith
    · have : (2 : ℝ) ^ 40 ≤ 2 ^ 100 := by norm_num
      refine le_trans ?_ this
      norm_num; nlinarith
    · norm_num; nlinarith
  have eC : V3.cross (V3.smul (R / 5) (slide n P.linear.c0)) (V3.smul (3 / 5 * w) (slide n P.linear.c1)) =
      V3.smul (3 / 25 * (R * w) * (P.linear.c2.z / n.z)) n := by
    have h1 : V3.cross (V3.smul (R / 5) (slide n P.linear.c0)) (V3.smul (3 / 5 * w) (slide n P.linear.c1)) =
        V3.smul (3 / 25 * (R * w)) (V3.cross (slide n P.linear.c0) (slide n P.linear.c1)) := by
      simp only [V3.real_cross, V3.real_smul]
      ext <;> dsimp only <;> ring
    rw [h1, cross_slide hz, hs.rigid.cross01]
    simp only [V3.real_smul]
    ext <;> dsimp only <;> ring
  rw [eC] at cC
  obtain ⟨ℓ, hℓ⟩ : ∃ ℓ, ℓ = 3 / 25 * (R * w) * (P.linear.c2.z / n.z) := ⟨_, rfl⟩
  have hrat : 1 / 2 ≤ P.linear.c2.z / n.z := by rw [le_div_iff₀ hzp]; nlinarith
  have hrat2 : P.linear.c2.z / n.z ≤ 2 := by rw [div_le_iff₀ hzp]; nlinarith
  have hRwp : 1 / 512 ≤ R * w := by nlinarith
  have hRwq : R * w ≤ 2 := by nlinarith
  have hℓ0 : 3 / 50 * (R * w) ≤ ℓ := by
    rw [hℓ]; nlinarith
  have hℓp : 0 < ℓ := lt_of_lt_of_le (by nlinarith) hℓ0
  have hℓ1 : ℓ ≤ 1 := by
    rw [hℓ]; nlinarith
  have hℓn : V3.norm (V3.smul ℓ n) = ℓ := by
    rw [V3.norm_eq, length3]
    simp only [V3.real_smul]
    rw [show (ℓ * n.x) ^ 2 + (ℓ * n.y) ^ 2 + (ℓ * n.z) ^ 2 = ℓ ^ 2 * (n.x ^ 2 + n.y ^ 2 + n.z ^ 2) by ring, hs.unit, mul_one,
      Real.sqrt_sq hℓp.le]
  rw [← hℓ] at cC
  have hfin : V3.sdiv (V3.smul ℓ n) ℓ = n := by
    simp only [V3.real_smul, V3.real_sdiv]
    ext <;> dsimp only <;> field_simp
  -- the quotient of error and length
  have hwp : 0 < w := by linarith
  have hRp : 0 < R := by linarith
  have hratio : 1680000 * σ / ℓ ≤ 9800000 / w + 29400000 / R := by
    rw [div_le_iff₀ hℓp]
    have h1 : (9800000 / w + 29400000 / R) * (3 / 50 * (R * w)) ≤ (9800000 / w + 29400000 / R) * ℓ :=
      mul_le_mul_of_nonneg_left hℓ0 (by positivity)
    refine le_trans (le_of_eq ?_) h1
    rw [hσ]; field_simp; ring
  have hinv : 1 / 2 ^ 9 / ℓ ≤ 3 / R := by
    rw [div_le_iff₀ hℓp]
    have h1 : 3 / R * (3 / 50 * (R * w)) ≤ 3 / R * ℓ := mul_le_mul_of_nonneg_left hℓ0 (by positivity)
    refine le_trans ?_ h1
    rw [show 3 / R * (3 / 50 * (R * w)) = 9 / 50 * w by field_simp; ring]
    norm_num; linarith
  have hRinv : 1 / 2 ≤ 1 / R := one_div_le_one_div_of_le hRp hR1
  have hRinv2 : 1 / R ≤ 8 := by rw [div_le_iff₀ hRp]; linarith
  have hwinv2 : 1 / w ≤ 64 := by rw [div_le_iff₀ hwp]; linarith
  have hwinv : 0 < 1 / w := by positivity
  have rew : ∀ k x : ℝ, k / x = k * (1 / x) := fun k x => by ring
  rw [rew 9800000, rew 29400000] at hratio
  rw [rew 3 R] at hinv
  have hN := cC.normalized hε hℓn (by norm_num; linarith) (hℓ1.trans (by norm_num)) (by positivity) ?_ le_rfl
  · rw [hfin] at hN
    refine hN.up hε ?_
    rw [rew 35000000, rew 110000000]
    linarith
  · have : 1680000 * σ ≤ (9800000 * (1 / w) + 29400000 * (1 / R)) * ℓ := by rwa [div_le_iff₀ hℓp] at hratio
    have h2 : (9800000 * (1 / w) + 29400000 * (1 / R)) * ℓ ≤ 900000000 * ℓ :=
      mul_le_mul_of_nonneg_right (by linarith) hℓp.le
    norm_num
    linarith

/-- The part of the radius that reaches down to the ground. -/
theorem reach (hε : Fine ε) {m : V3 ℝ} {n c : V3 ℝ} (hn : n.x ^ 2 + n.y ^ 2 + n.z ^ 2 = 1) (hc : c.x ^ 2 + c.y ^ 2 + c.z ^ 2 = 1)
    (hside : |dot3 n c| ≤ 3 / 5) {ν : ℝ} (hx : |m.x - n.x| ≤ ν) (hy : |m.y - n.y| ≤ ν) (hz : |m.z - n.z| ≤ ν) (hν : ν ≤ 1 / 200)
    {c1 : V3 B64} (hc1 : Close3 ε c1 c) :
    let N : V3 B64 := ⟨fin m.x, fin m.y, fin m.z⟩
    let ey := V3.normalized c1
    let ex := V3.normalized (V3.cross N ey)
    let ez := V3.normalized (V3.cross ey ex)
    ∃ l : ℝ, Close (3280 * ε) (Scalar.abs (V3.dot N ez)) l ∧ |l - Real.sqrt (1 - dot3 n c ^ 2)| ≤ 7 / 4 * ν ∧ 0 ≤ l ∧ l ≤ 101 / 100 := by
  intro N ey ex ez
  have hν0 : 0 ≤ ν := (abs_nonneg _).trans hx
  have hN : Close3 (0 * ε) N m := ⟨Close.exact _, Close.exact _, Close.exact _⟩
  have un := Upto.unit hn
  have uc := Upto.unit hc
  have um : Upto (101 / 100) m := by
    have key : ∀ a b : ℝ, |a - b| ≤ ν → |b| ≤ 1 → |a| ≤ 101 / 100 := by
      intro a b h1 h2
      have := abs_sub_abs_le_abs_sub a b
      linarith
    exact ⟨key _ _ hx un.x, key _ _ hy un.y, key _ _ hz un.z⟩
  have nc : V3.norm c = 1 := V3.norm_eq_one.2 hc
  have hc1' : Close3 (1 * ε) c1 c := by rw [one_mul]; exact hc1
  have sd1 : ∀ v : V3 ℝ, V3.sdiv v 1 = v := by intro v; simp only [V3.real_sdiv, div_one]
  have hey : Close3 (8 * ε) ey c := by
    have := hc1'.normalized hε nc (by norm_num) (by norm_num) (by norm_num) (by norm_num) (γ := 8) (by norm_num)
    rwa [sd1] at this
  -- the exact cross product
  obtain ⟨l, hl⟩ : ∃ l, l = V3.norm (V3.cross m c) := ⟨_, rfl⟩
  have hnx : V3.norm (V3.cross n c) = Real.sqrt (1 - dot3 n c ^ 2) := by
    rw [V3.norm_eq, length3]
    congr 1
    simp only [V3.real_cross, dot3]
    linear_combination (c.x ^ 2 + c.y ^ 2 + c.z ^ 2) * hn + hc
  have hlip : |l - Real.sqrt (1 - dot3 n c ^ 2)| ≤ 7 / 4 * ν := by
    rw [hl, ← hnx]
    refine (V3.abs_norm_sub _ _).trans ?_
    have h1 : V3.sub (V3.cross m c) (V3.cross n c) = V3.cross (V3.sub m n) c := by
      simp only [V3.real_sub, V3.real_cross]; ext <;> dsimp only <;> ring
    rw [h1]
    have h2 : V3.norm (V3.cross (V3.sub m n) c) ≤ V3.norm (V3.sub m n) := by
      rw [V3.norm_eq, V3.norm_eq, length3, length3]
      apply Real.sqrt_le_sqrt
      simp only [V3.real_cross]
      have : (V3.sub m n).x ^ 2 + (V3.sub m n).y ^ 2 + (V3.sub m n).z ^ 2 =
        ((V3.sub m n).x ^ 2 + (V3.sub m n).y ^ 2 + (V3.sub m n).z ^ 2) * (c.x ^ 2 + c.y ^ 2 + c.z ^ 2) := by rw [hc, mul_one]
      rw [this]
      nlinarith [sq_nonneg ((V3.sub m n).x * c.x + (V3.sub m n).y * c.y + (V3.sub m n).z * c.z)]
    exact h2.trans (V3.norm_sub_le _ _ hx hy hz)
  have hs1 : 4 / 5 ≤ Real.sqrt (1 - dot3 n c ^ 2) := by
    apply Real.le_sqrt_of_sq_le
    have := sq_le_sq' (abs_le.1 hside).1 (abs_le.1 hside).2
    norm_num at this ⊢; linarith
  have hs2 : Real.sqrt (1 - dot3 n c ^ 2) ≤ 1 := by
    apply Real.sqrt_le_one.2 <;> nlinarith [sq_nonneg (dot3 n c)]
  have hl1 : 79 / 100 ≤ l := by have := (abs_le.1 hlip).1; linarith
  have hl2 : l ≤ 101 / 100 := by have := (abs_le.1 hlip).2; linarith
  have hl0 : 0 < l := by linarith
  have hlsq : l ^ 2 = (V3.cross m c).x ^ 2 + (V3.cross m c).y ^ 2 + (V3.cross m c).z ^ 2 := by rw [hl, V3.norm_sq]
  have hcr : Close3 (21 * ε) (V3.cross N ey) (V3.cross m c) :=
    Close3.cross hε hN hey um uc le_rfl (by norm_num) (δ := 81 / 10) (by norm_num) (by norm_num) (by norm_num)
  have hex : Close3 (98 * ε) ex (V3.sdiv (V3.cross m c) l) := by
    refine hcr.normalized hε hl.symm (by norm_num; linarith) (by norm_num; linarith) (by norm_num) (by norm_num; linarith) ?_
    have h1 : 21 / l ≤ 21 / (79 / 100) := div_le_div_of_nonneg_left (by norm_num) (by norm_num) hl1
    have h2 : 1 / 2 ^ 9 / l ≤ 1 / 2 ^ 9 / (79 / 100) := div_le_div_of_nonneg_left (by norm_num) (by norm_num) hl1
    norm_num at h1 h2 ⊢
    linarith
  have ux : Upto 1 (V3.sdiv (V3.cross m c) l) := by
    apply Upto.unit
    simp only [V3.real_sdiv]
    rw [div_pow, div_pow, div_pow, ← add_div, ← add_div, ← hlsq, div_self (by positivity)]
  have hcz : Close3 (230 * ε) (V3.cross ey ex) (V3.cross c (V3.sdiv (V3.cross m c) l)) :=
    Close3.cross hε hey hex uc ux (by norm_num) (by norm_num) (δ := 1061 / 10) (by norm_num) (by norm_num) (by norm_num)
  have nz : V3.norm (V3.cross c (V3.sdiv (V3.cross m c) l)) = 1 := by
    rw [V3.norm_eq_one]
    simp only [V3.real_cross, V3.real_sdiv] at hlsq ⊢
    field_simp
    linear_combination (-1 : ℝ) * hlsq + ((m.y * c.z - m.z * c.y) ^ 2 + (m.z * c.x - m.x * c.z) ^ 2 + (m.x * c.y - m.y * c.x) ^ 2) * hc
  have hez : Close3 (810 * ε) ez (V3.cross c (V3.sdiv (V3.cross m c) l)) := by
    have := hcz.normalized hε nz (by norm_num) (by norm_num) (by norm_num) (by norm_num) (γ := 810) (by norm_num)
    rwa [sd1] at this
  have uz : Upto 1 (V3.cross c (V3.sdiv (V3.cross m c) l)) := Upto.unit (V3.norm_eq_one.1 nz)
  have hdot : V3.dot m (V3.cross c (V3.sdiv (V3.cross m c) l)) = l := by
    simp only [V3.real_dot, V3.real_cross, V3.real_sdiv] at hlsq ⊢
    field_simp
    linear_combination (-1 : ℝ) * hlsq
  have hd : Close (3280 * ε) (V3.dot N ez) (V3.dot m (V3.cross c (V3.sdiv (V3.cross m c) l))) :=
    Close3.dot hε hN hez um uz le_rfl (by norm_num) (δ := 8182 / 10) (by norm_num) (by norm_num) (by norm_num)
  rw [hdot] at hd
  refine ⟨l, ?_, hlip, hl0.le, hl2⟩
  have := hd.abs
  rwa [abs_of_pos hl0] at this

/-- The mean of the four feet is the foot of the centre. -/
theorem mean_foot {R y w : ℝ} {P : Affine ℝ} {o n : V3 ℝ} :
    V3.sdiv (V3.add (V3.add (V3.add (footAt o n (V3.add P.trans (M3.mulVec P.linear ⟨R / 10, y, 0⟩)))
      (footAt o n (V3.add P.trans (M3.mulVec P.linear ⟨-(R / 10), y, 0⟩))))
      (footAt o n (V3.add P.trans (M3.mulVec P.linear ⟨0, y + 3 / 10 * w, 0⟩))))
      (footAt o n (V3.add P.trans (M3.mulVec P.linear ⟨0, y - 3 / 10 * w, 0⟩)))) 4 =
    footAt o n (V3.add P.trans (M3.mulVec P.linear ⟨0, y, 0⟩)) := by
  simp only [footAt, V3.real_sdiv, V3.real_add, M3.mulVec, Scalar.real_add, Scalar.real_mul]
  ext <;> dsimp only <;> ring

theorem hub_eq {y : ℝ} {P : Affine ℝ} : V3.add P.trans (M3.mulVec P.linear ⟨0, y, 0⟩) = hub y P := by
  simp only [hub, V3.real_add, M3.mulVec, Scalar.real_add, Scalar.real_mul]
  ext <;> dsimp only <;> ring

theorem four : (Scalar.lit 4 1 : B64) = fin 4 := by
  show B64.round (Scalar.lit 4 1 : XR) = _
  rw [show (Scalar.lit 4 1 : XR) = .fin (4 / 1) from by show XR.fin _ = _; norm_num]
  rw [div_one]
  exact B64.exact 4 0 (by norm_num) (by norm_num) (by norm_num) (by norm_num)

end Accurate

theorem Spec.CalmScene.pos_w {R y w : ℝ} {P : Affine ℝ} {o n : V3 ℝ} (h : CalmScene R y w P o n) : 0 < w := by
  have := h.w_lo; linarith
theorem Spec.CalmScene.pos_R {R y w : ℝ} {P : Affine ℝ} {o n : V3 ℝ} (h : CalmScene R y w P o n) : 0 < R := by
  have := h.R_lo; linarith

namespace Accurate
variable {ε : ℝ}

/-- All that the sampling method computes from samples close to the plane. -/
theorem core (hε : Fine ε) {R y w F₀ F₁ : ℝ} {P : Affine ℝ} {o n : V3 ℝ} (hs : CalmScene R y w P o n) {r : Rib B64}
    {smp : Line B64 → Option (V3 B64 × B64)} {p : Affine B64} (hr : CloseRib ε r R y w) (hp : ClosePose ε p P)
    (hF : 0 ≤ F₀) (hF' : F₁ ≤ 8)
    (hsm : ∀ (l : Line B64) (q : V3 ℝ), (l, q) ∈ [(r.lineXp p, (⟨R / 10, y, 0⟩ : V3 ℝ)), (r.lineXm p, ⟨-(R / 10), y, 0⟩),
      (r.lineYp p, ⟨0, y + 3 / 10 * w, 0⟩), (r.lineYm p, ⟨0, y - 3 / 10 * w, 0⟩)] →
      ∃ x f, smp l = some (x, fin f) ∧ F₀ ≤ f ∧ f ≤ F₁ ∧ Close3 (395000 * ε) x (footAt o n (V3.add P.trans (M3.mulVec P.linear q)))) :
    ∃ d : ℝ, |d - sunkDepth R y P o n| ≤ 2 ^ 28 * (1 + R / w) * ε ∧
      (r.envelopSampling smp p).1 = decide (0 < d) ∧
      (0 < d → (r.envelopSampling smp p).2.depth = fin d ∧
        Close3 (2 ^ 27 * (1 / R + 1 / w) * ε) (r.envelopSampling smp p).2.normal n ∧
        Close3 (2 ^ 19 * ε) (r.envelopSampling smp p).2.point (footAt o n (hub y P)) ∧
        (∃ F, F₀ ≤ F ∧ F ≤ F₁ ∧ Close (16 * ε) (r.envelopSampling smp p).2.friction F) ∧
        (r.envelopSampling smp p).2.area = Rib.depthArea r.radius r.width (fin d) ∧
        (r.envelopSampling smp p).2.volume = Rib.depthVolume r.radius r.width (fin d)) := by
  have hR0 := hs.R_lo
  have hR1 := hs.R_hi
  have hw0 := hs.w_lo
  have hw1 := hs.w_hi
  have hRp := hs.pos_R
  have hwp := hs.pos_w
  have hεp := hε.pos
  obtain ⟨hlines, hcen, ucen⟩ := lines hε hs hr hp
  obtain ⟨a0, a1, a2⟩ := hlines (r.lineXp p, ⟨R / 10, y, 0⟩) (by simp)
  obtain ⟨b0, b1, b2⟩ := hlines (r.lineXm p, ⟨-(R / 10), y, 0⟩) (by simp)
  obtain ⟨c0, c1, c2⟩ := hlines (r.lineYp p, ⟨0, y + 3 / 10 * w, 0⟩) (by simp)
  obtain ⟨d0, d1, d2⟩ := hlines (r.lineYm p, ⟨0, y - 3 / 10 * w, 0⟩) (by simp)
  obtain ⟨p0, f0, e0, lo0, hi0, k0⟩ := hsm (r.lineXp p) ⟨R / 10, y, 0⟩ (by simp)
  have u0 := foot_upto hs.origin hs.unit hs.up a2
  obtain ⟨p1, f1, e1, lo1, hi1, k1⟩ := hsm (r.lineXm p) ⟨-(R / 10), y, 0⟩ (by simp)
  have u1 := foot_upto hs.origin hs.unit hs.up b2
  obtain ⟨p2, f2, e2, lo2, hi2, k2⟩ := hsm (r.lineYp p) ⟨0, y + 3 / 10 * w, 0⟩ (by simp)
  have u2 := foot_upto hs.origin hs.unit hs.up c2
  obtain ⟨p3, f3, e3, lo3, hi3, k3⟩ := hsm (r.lineYm p) ⟨0, y - 3 / 10 * w, 0⟩ (by simp)
  have u3 := foot_upto hs.origin hs.unit hs.up d2
  dsimp only at u0 u1 u2 u3
  -- the point
  have s1 := k0.add hε k1 (u0.add u1) (by norm_num) (by norm_num) (by norm_num) (by norm_num : _ ≤ (803500 : ℝ))
  have s2 := s1.add hε k2 ((u0.add u1).add u2) (by norm_num) (by norm_num) (by norm_num) (by norm_num : _ ≤ (1218600 : ℝ))
  have s3 := s2.add hε k3 (((u0.add u1).add u2).add u3) (by norm_num) (by norm_num) (by norm_num)
    (by norm_num : _ ≤ (1640500 : ℝ))
  have us := ((u0.add u1).add u2).add u3
  have hpt : Close3 (445000 * ε) (V3.sdiv (V3.add (V3.add (V3.add p0 p1) p2) p3) (Scalar.lit 4 1)) (footAt o n (hub y P)) := by
    rw [← hub_eq, ← mean_foot (R := R) (w := w), four]
    have key : ∀ {x : B64} {X : ℝ}, Close (1640500 * ε) x X → |X| ≤ 13390 + 13390 + 13390 + 13390 → Close (445000 * ε) (x /. fin 4) (X / 4) := by
      intro x X hx hX
      exact hx.div hε (Close.exact 4) hX (D := 4) (by norm_num) (by norm_num) le_rfl (by norm_num) (by norm_num) (δ := 437500)
        (by norm_num) (by norm_num) (by norm_num)
    exact ⟨key s3.x us.x, key s3.y us.y, key s3.z us.z⟩
  -- the normal
  have hN := normal hε hs k0 k1 k2 k3
  -- the distance of the centre from the point
  rw [hub_eq] at hcen ucen
  have hh : |(n.x * (o.x - (hub y P).x) + n.y * (o.y - (hub y P).y) + n.z * (o.z - (hub y P).z)) / n.z| ≤ 12360 := by
    have hz := hs.up
    have uo := hs.origin
    have un := Upto.unit hs.unit
    have key : ∀ a b c : ℝ, |a| ≤ 1 → |b| ≤ 2 ^ 10 → |c| ≤ 1030 → |a * (b - c)| ≤ 2060 := by
      intro a b c ha hb hc
      rw [abs_mul]
      have := abs_sub b c
      exact (mul_le_mul ha (this.trans (add_le_add hb hc)) (abs_nonneg _) (by norm_num)).trans (by norm_num)
    rw [abs_div, div_le_iff₀ (by rw [abs_of_pos] <;> linarith), abs_of_pos (by linarith : 0 < n.z)]
    have t1 := key _ _ _ un.x uo.x ucen.x
    have t2 := key _ _ _ un.y uo.y ucen.y
    have t3 := key _ _ _ un.z uo.z ucen.z
    have t4 := abs_add_le (n.x * (o.x - (hub y P).x) + n.y * (o.y - (hub y P).y)) (n.z * (o.z - (hub y P).z))
    have t5 := abs_add_le (n.x * (o.x - (hub y P).x)) (n.y * (o.y - (hub y P).y))
    linarith
  obtain ⟨h, hhd⟩ : ∃ h, h = (n.x * (o.x - (hub y P).x) + n.y * (o.y - (hub y P).y) + n.z * (o.z - (hub y P).z)) / n.z := ⟨_, rfl⟩
  rw [← hhd] at hh
  have hdiff : V3.sub (footAt o n (hub y P)) (hub y P) = ⟨0, 0, h⟩ := by
    simp only [footAt, V3.real_sub, ← hhd]
    ext <;> dsimp only <;> ring
  have udiff : Upto 12360 (V3.sub (footAt o n (hub y P)) (hub y P)) := by
    rw [hdiff]; exact ⟨by norm_num, by norm_num, hh⟩
  have hnd : V3.norm (V3.sub (footAt o n (hub y P)) (hub y P)) = |h| := by
    rw [hdiff, V3.norm_eq, length3]
    simp only [ne_eq, OfNat.ofNat_ne_zero, not_false_eq_true, zero_pow, zero_add]
    exact Real.sqrt_sq_eq_abs h
  have hdist : dist3 (hub y P) (footAt o n (hub y P)) = |h| := by
    rw [dist3, ← Real.sqrt_sq_eq_abs]
    simp only [footAt, ← hhd]
    congr 1; ring
  have hsub := hpt.sub hε hcen udiff (by norm_num) (by norm_num) (by norm_num) (by norm_num : _ ≤ (457000 : ℝ))
  have hlen := (hsub.norm' hε (by norm_num) (by norm_num) (hnd.le.trans hh) (by norm_num) (by norm_num : _ ≤ (1066000 : ℝ))).1
  rw [hnd] at hlen
  have hH0 := abs_nonneg h
  generalize |h| = H at hlen hdist hh hH0
  -- the reach
  obtain ⟨ν, hν⟩ : ∃ ν, ν = 35000000 / w + 110000000 / R := ⟨_, rfl⟩
  rw [← hν] at hN
  have hν1 : ν ≤ 3200000000 := by
    have h1 : 1 / R ≤ 8 := by rw [div_le_iff₀ hRp]; linarith
    have h2 : 1 / w ≤ 64 := by rw [div_le_iff₀ hwp]; linarith
    rw [hν, show 35000000 / w = 35000000 * (1 / w) by ring, show 110000000 / R = 110000000 * (1 / R) by ring]
    linarith
  have hν0 : 0 ≤ ν := by rw [hν]; positivity
  have hνε : ν * ε ≤ 1 / 200 := by
    have : ν * ε ≤ 3200000000 * (1 / 2 ^ 40) := mul_le_mul hν1 hε.hi hεp.le (by norm_num)
    norm_num at this ⊢; linarith
  have hN' := hN
  obtain ⟨⟨mx, hmx, hmx'⟩, ⟨my, hmy, hmy'⟩, ⟨mz, hmz, hmz'⟩⟩ := hN
  have hNe : V3.normalized (V3.cross (V3.sub p0 p1) (V3.sub p2 p3)) = ⟨fin mx, fin my, fin mz⟩ := by
    ext1 <;> assumption
  obtain ⟨l, hl, hl', hl0, hl1⟩ := reach hε (m := ⟨mx, my, mz⟩) hs.unit hs.rigid.unit1 hs.side hmx' hmy' hmz' hνε hp.c1
  rw [← hNe] at hl
  have hRc : Close (1 * ε) r.radius R := by rw [one_mul]; exact hr.radius
  have hRl := hRc.mul hε hl (A := 2) (B := 101 / 100) (by rw [abs_of_pos hRp]; exact hR1) (by rw [abs_of_nonneg hl0]; exact hl1)
    (by norm_num) (by norm_num) (δ := 6562) (by norm_num) (by norm_num) (by norm_num : _ ≤ (6565 : ℝ))
  have hbnd : |R * l - H| ≤ 12363 := by
    rw [abs_le]
    constructor <;> nlinarith
  obtain ⟨d, hd, hd'⟩ := hRl.sub hε hlen hbnd (by norm_num) (by norm_num) (by norm_num) (by norm_num : _ ≤ (1079000 : ℝ))
  have hdD : |d - sunkDepth R y P o n| ≤ 2 ^ 28 * (1 + R / w) * ε := by
    rw [sunkDepth, hdist]
    have h1 : |R * l - H - (R * Real.sqrt (1 - dot3 n P.linear.c1 ^ 2) - H)| ≤ R * (7 / 4 * (ν * ε)) := by
      rw [show R * l - H - (R * Real.sqrt (1 - dot3 n P.linear.c1 ^ 2) - H) = R * (l - Real.sqrt (1 - dot3 n P.linear.c1 ^ 2)) by ring,
        abs_mul, abs_of_pos hRp]
      exact mul_le_mul_of_nonneg_left hl' hRp.le
    refine (abs_sub_le _ _ _).trans ((add_le_add hd' h1).trans ?_)
    have h2 : R * (7 / 4 * (ν * ε)) = (61250000 * (R / w) + 192500000) * ε := by
      rw [hν]; field_simp; ring
    rw [h2]
    have h3 : 0 ≤ R / w := by positivity
    rw [← add_mul]
    refine mul_le_mul_of_nonneg_right ?_ hεp.le
    norm_num
    linarith
  have hrun : r.envelopSampling smp p =
      if 0 < d then (true,
        { point := V3.sdiv (V3.add (V3.add (V3.add p0 p1) p2) p3) (Scalar.lit 4 1)
          normal := V3.normalized (V3.cross (V3.sub p0 p1) (V3.sub p2 p3))
          friction := (fin f0 +. fin f1 +. fin f2 +. fin f3) /. Scalar.lit 4 1
          depth := fin d
          area := Rib.depthArea r.radius r.width (fin d)
          volume := Rib.depthVolume r.radius r.width (fin d) })
      else (false, r.noContact p) := by
    unfold Rib.envelopSampling
    rw [e0, e1, e2, e3]
    dsimp only
    rw [hd, B64.zero_eq, lt_fin]
    simp only [decide_eq_true_eq]
  rw [hrun]
  refine ⟨d, hdD, ?_, ?_⟩
  · split <;> simp_all
  · intro hpos
    rw [if_pos hpos]
    refine ⟨rfl, hN'.up hε ?_, hpt.up hε (by norm_num), ?_, rfl, rfl⟩
    · rw [hν, show 35000000 / w = 35000000 * (1 / w) by ring, show 110000000 / R = 110000000 * (1 / R) by ring]
      have h1 : 0 < 1 / R := by positivity
      have h2 : 0 < 1 / w := by positivity
      generalize 1 / R = a at h1 ⊢
      generalize 1 / w = b at h2 ⊢
      norm_num
      linarith
    · dsimp only
      refine ⟨(f0 + f1 + f2 + f3) / 4, by linarith, by linarith, ?_⟩
      rw [four]
      have g0 : Close (0 * ε) (fin f0) f0 := Close.exact f0
      have g1 := g0.add hε (Close.exact f1 : Close (0 * ε) _ _) (C := 16) (by rw [abs_of_nonneg] <;> linarith) le_rfl le_rfl (by norm_num)
        (by norm_num : _ ≤ (9 : ℝ))
      have g2 := g1.add hε (Close.exact f2 : Close (0 * ε) _ _) (C := 24) (by rw [abs_of_nonneg] <;> linarith) (by norm_num) le_rfl
        (by norm_num) (by norm_num : _ ≤ (22 : ℝ))
      have g3 := g2.add hε (Close.exact f3 : Close (0 * ε) _ _) (C := 32) (by rw [abs_of_nonneg] <;> linarith) (by norm_num) le_rfl
        (by norm_num) (by norm_num : _ ≤ (39 : ℝ))
      exact g3.div hε (Close.exact 4) (A := 32) (by rw [abs_of_nonneg] <;> linarith) (D := 4) (by norm_num) (by norm_num) le_rfl
        (by norm_num) (by norm_num) (δ := 11) (by norm_num) (by norm_num) (by norm_num : _ ≤ (16 : ℝ))

/-- All that the sampling method computes. -/
theorem all (hε : Fine ε) {R y w F : ℝ} {P : Affine ℝ} {o n : V3 ℝ} (hs : CalmScene R y w P o n) {r : Rib B64} {g : Flat B64}
    {p : Affine B64} (hr : CloseRib ε r R y w) (hp : ClosePose ε p P) (hg : CloseFlat ε g o n) (hf : g.friction = fin F)
    (hF : 0 ≤ F) (hF' : F ≤ 8) :
    ∃ d : ℝ, |d - sunkDepth R y P o n| ≤ 2 ^ 28 * (1 + R / w) * ε ∧
      (r.envelopSamplingFlat g p).1 = decide (0 < d) ∧
      (0 < d → (r.envelopSamplingFlat g p).2.depth = fin d ∧
        Close3 (2 ^ 27 * (1 / R + 1 / w) * ε) (r.envelopSamplingFlat g p).2.normal n ∧
        Close3 (2 ^ 19 * ε) (r.envelopSamplingFlat g p).2.point (footAt o n (hub y P)) ∧
        Close (16 * ε) (r.envelopSamplingFlat g p).2.friction F ∧
        (r.envelopSamplingFlat g p).2.area = Rib.depthArea r.radius r.width (fin d) ∧
        (r.envelopSamplingFlat g p).2.volume = Rib.depthVolume r.radius r.width (fin d)) := by
  obtain ⟨hlines, -, -⟩ := lines hε hs hr hp
  obtain ⟨d, h1, h2, h3⟩ := core hε hs hr hp (F₀ := F) (F₁ := F) (smp := Rib.samplingLineFlat g) hF hF' (fun l q hm => by
    obtain ⟨a0, a1, a2⟩ := hlines (l, q) hm
    obtain ⟨x, e, k, -⟩ := sample hε hg hs.origin hs.unit hs.up a0 a1 a2
    exact ⟨x, F, by rw [e, hf], le_rfl, le_rfl, k⟩)
  refine ⟨d, h1, h2, fun h => ?_⟩
  obtain ⟨k1, k2, k3, ⟨F', l1, l2, k4⟩, k5⟩ := h3 h
  rw [le_antisymm l2 l1] at k4
  exact ⟨k1, k2, k3, k4, k5⟩

/-- Making a flat ground of doubles. -/
theorem flat_make (hε : Fine ε) (hε' : 1 / 2 ^ 49 ≤ ε) {F : ℝ} {o n : V3 ℝ} {g : Flat B64}
    (hg : Flat.make (fin F) ⟨fin o.x, fin o.y, fin o.z⟩ ⟨fin n.x, fin n.y, fin n.z⟩ = .ok g)
    (hl : 1 / 2 ^ 10 ≤ length3 n) (hl' : length3 n ≤ 2 ^ 10) :
    CloseFlat ε g o ⟨n.x / length3 n, n.y / length3 n, n.z / length3 n⟩ ∧ g.friction = fin F := by
  have h52 : Fine (1 / 2 ^ 52 : ℝ) := ⟨le_rfl, by norm_num⟩
  have hN : Close3 (0 * (1 / 2 ^ 52)) (⟨fin n.x, fin n.y, fin n.z⟩ : V3 B64) n := ⟨Close.exact _, Close.exact _, Close.exact _⟩
  have hnn : V3.norm n = length3 n := V3.norm_eq n
  have h0 : 0 < length3 n := lt_of_lt_of_le (by norm_num) hl
  have key := hN.normalized h52 hnn (le_trans (by norm_num) hl) (hl'.trans (by norm_num)) le_rfl (by rw [zero_div]; positivity) (γ := 8)
    (by
      have : 1 / 2 ^ 9 / length3 n ≤ 2 := by rw [div_le_iff₀ h0]; norm_num at hl ⊢; linarith
      rw [zero_div]; linarith)
  rw [Flat.make] at hg
  rw [Res.bind_eq_ok] at hg
  obtain ⟨_, -, hg⟩ := hg
  rw [Res.bind_eq_ok] at hg
  obtain ⟨_, -, hg⟩ := hg
  have hg' := Res.ok.inj hg
  subst hg'
  refine ⟨⟨?_, ?_⟩, rfl⟩
  · have hp := hε.pos
    exact (⟨Close.exact (ε := ε) _, Close.exact _, Close.exact _⟩ : Close3 (0 * ε) (⟨fin o.x, fin o.y, fin o.z⟩ : V3 B64) o).mono
      (by rw [zero_mul]; positivity)
  · refine Close3.mono (e := 8 * (1 / 2 ^ 52)) ?_ (by norm_num at hε' ⊢; linarith)
    simp only [V3.real_sdiv] at key
    exact key

end Accurate

/-- **C105** (partial: moderate scenes, the flag only outside the error bound).  A rib, a pose and a flat ground in doubles that are
`ε`-close to an exact rib, a rigid pose and an exact plane: the sampling method finds contact when the true depth exceeds the error
bound, finds none when it is below the bound's negative, and whenever it finds contact the reported depth, normal, point and friction
are close to the true ones.  The bounds are some `10^8 ε`: with `ε = 2 ^ -52` less than a micrometre. -/
theorem C105_sampling_partial {ε : ℝ} (hε : Fine ε) {R y w F : ℝ} {P : Affine ℝ} {o n : V3 ℝ} (hs : CalmScene R y w P o n)
    {r : Rib B64} {g : Flat B64} {p : Affine B64} (hr : CloseRib ε r R y w) (hp : ClosePose ε p P) (hg : CloseFlat ε g o n)
    (hf : g.friction = fin F) (hF : 0 ≤ F) (hF' : F ≤ 8) :
    let e := 2 ^ 28 * (1 + R / w) * ε
    let D := sunkDepth R y P o n
    let res := r.envelopSamplingFlat g p
    (e < D → res.1 = true) ∧ (D < -e → res.1 = false) ∧
    (res.1 = true → Close e res.2.depth D ∧ Close3 (2 ^ 27 * (1 / R + 1 / w) * ε) res.2.normal n ∧
      Close3 (2 ^ 19 * ε) res.2.point (footAt o n (hub y P)) ∧ Close (16 * ε) res.2.friction F) := by
  intro e D res
  obtain ⟨d, h1, h2, h3⟩ := Accurate.all hε hs hr hp hg hf hF hF'
  have h1' := abs_le.1 h1
  refine ⟨fun h => ?_, fun h => ?_, fun h => ?_⟩
  · rw [show res.1 = decide (0 < d) from h2, decide_eq_true_eq]
    have := h1'.1
    simp only [e, D] at h
    linarith
  · rw [show res.1 = decide (0 < d) from h2, decide_eq_false_iff_not, not_lt]
    have := h1'.2
    simp only [e, D] at h
    linarith
  · rw [show res.1 = decide (0 < d) from h2, decide_eq_true_eq] at h
    obtain ⟨k1, k2, k3, k4, -, -⟩ := h3 h
    exact ⟨⟨d, k1, h1⟩, k2, k3, k4⟩

/-- **C105 for the tyre** (partial, as above).  After a setup in doubles with the sampling method on a flat ground made of the double
vectors `o` and `n`: the record of every rib shows the true depth up to the error bound if the rib is that deep in the ground, and
no contact if it is that far above it. -/
theorem C105_setup_partial {ε : ℝ} (hε : Fine ε) (hε' : 1 / 2 ^ 49 ≤ ε) {pol : Policy} {s s' : Shell B64} {F : ℝ} {o n : V3 ℝ}
    {g : Flat B64} (hg : Flat.make (fin F) ⟨fin o.x, fin o.y, fin o.z⟩ ⟨fin n.x, fin n.y, fin n.z⟩ = .ok g)
    (hl : 1 / 2 ^ 10 ≤ length3 n) (hl' : length3 n ≤ 2 ^ 10) (hF : 0 ≤ F) (hF' : F ≤ 8) {p : Affine B64} {P : Affine ℝ}
    (hp : ClosePose ε p P) {b : Bool} (hset : s.setupFlat pol g p "sampling" = .ok s' b) {i : Nat} {r : Rib B64} {out : Output B64}
    (h : Shows pol s' i r out) {R y w : ℝ} (hr : CloseRib ε r R y w)
    (hs : CalmScene R y w P o ⟨n.x / length3 n, n.y / length3 n, n.z / length3 n⟩) :
    let N : V3 ℝ := ⟨n.x / length3 n, n.y / length3 n, n.z / length3 n⟩
    let e := 2 ^ 28 * (1 + R / w) * ε
    let D := sunkDepth R y P o N
    (e < D → (zero <. out.depth) = true) ∧ (D < -e → out.depth = zero ∧ out.friction = zero ∧ out.area = zero ∧ out.volume = zero) ∧
    ((zero <. out.depth) = true → Close e out.depth D ∧ Close3 (2 ^ 27 * (1 / R + 1 / w) * ε) out.normal N ∧
      Close3 (2 ^ 19 * ε) out.point (footAt o N (hub y P)) ∧ Close (16 * ε) out.friction F) := by
  intro N e D
  obtain ⟨-, -, flag, he⟩ := h.flat hset
  have he := Rib.envelopFlat_sampling_eq he
  obtain ⟨hgf, hf⟩ := Accurate.flat_make hε hε' hg hl hl'
  obtain ⟨k1, k2, k3⟩ := C105_sampling_partial hε hs hr hp hgf hf hF hF'
  obtain ⟨d, q1, q2, q3⟩ := Accurate.all hε hs hr hp hgf hf hF hF'
  rw [he] at k1 k2 k3 q2 q3
  dsimp only at k1 k2 k3 q2 q3
  have hno : flag = false → out = r.noContact p := by
    intro hfl
    subst hfl
    exact Rib.envelopFlat_false (method := "sampling")
      (by rw [Rib.envelopFlat, if_neg (by decide), if_pos rfl, he])
  have hflag : (zero <. out.depth) = true ↔ flag = true := by
    cases flag with
    | true =>
      have hd : 0 < d := by simpa using q2.symm
      rw [(q3 hd).1, B64.zero_eq, lt_fin]
      simpa using hd
    | false =>
      rw [hno rfl, Rib.noContact, B64.zero_eq, lt_fin]
      simp
  refine ⟨fun h => hflag.2 (k1 h), fun h => ?_, fun h => k3 (hflag.1 h)⟩
  rw [hno (k2 h)]
  exact ⟨rfl, rfl, rfl, rfl⟩

/-- The scene of a wheel in the ground. -/
noncomputable def Accurate.demoPose : Affine ℝ := ⟨⟨⟨1, 0, 0⟩, ⟨0, 1, 0⟩, ⟨0, 0, 1⟩⟩, ⟨100, 0, 1 / 4⟩⟩

/-- The hypotheses are met: a rib of radius 1/2 in a wheel 100 m from the origin, 25 cm over a ground that slopes by 3 to 4; the bound
is less than a ten thousandth of a millimetre, and the depth is 1/4. -/
example : ∃ (r : Rib B64) (g : Flat B64) (p : Affine B64), CalmScene (1 / 2) 0 1 Accurate.demoPose ⟨100, 0, 0⟩ ⟨3 / 5, 0, 4 / 5⟩ ∧
    CloseRib (1 / 2 ^ 52) r (1 / 2) 0 1 ∧ ClosePose (1 / 2 ^ 52) p Accurate.demoPose ∧
    CloseFlat (1 / 2 ^ 52) g ⟨100, 0, 0⟩ ⟨3 / 5, 0, 4 / 5⟩ ∧
    (r.envelopSamplingFlat g p).1 = true ∧ Close (1 / 10 ^ 7) (r.envelopSamplingFlat g p).2.depth (1 / 4) := by
  have hε : Fine (1 / 2 ^ 52 : ℝ) := ⟨le_rfl, by norm_num⟩
  have cl : ∀ {e x : ℝ}, 0 ≤ e → Close e (fin x) x := fun he => ⟨_, rfl, by simpa using he⟩
  have cl3 : ∀ {e x y z : ℝ}, 0 ≤ e → Close3 e ⟨fin x, fin y, fin z⟩ ⟨x, y, z⟩ := fun he => ⟨cl he, cl he, cl he⟩
  have lit : ∀ a b : ℕ, (a : ℝ) / b ≤ 1 → Close (1 / 2 ^ 52) (Scalar.lit a b : B64) ((a : ℝ) / b) := by
    intro a b h
    show Close _ (B64.round (Scalar.lit a b : XR)) _
    rw [show (Scalar.lit a b : XR) = .fin ((a : ℝ) / b) from rfl]
    have := Close.round hε (v := (a : ℝ) / b) (X := (a : ℝ) / b) (α := 0) (C := 1) (γ := 1) (by simp)
      (by rw [abs_of_nonneg (by positivity)]; exact h) le_rfl (by norm_num) (by norm_num)
    rwa [one_mul] at this
  have hs : CalmScene (1 / 2) 0 1 Accurate.demoPose ⟨100, 0, 0⟩ ⟨3 / 5, 0, 4 / 5⟩ := by
    refine ⟨?_, ⟨?_, ?_, ?_⟩, ⟨?_, ?_, ?_⟩, ?_, ?_, ?_, ?_, ?_, ?_, ?_, ?_, ?_⟩
    · constructor <;> simp [Accurate.demoPose]
    all_goals norm_num [Accurate.demoPose, dot3]
    all_goals rw [abs_of_pos (by norm_num)]; norm_num
  let r : Rib B64 := ⟨⟨fin (1 / 2), ⟨⟨fin 0, fin 0, fin 0⟩, V3.ey⟩⟩, 0, fin 0, fin 1, fin 0⟩
  let g : Flat B64 := ⟨⟨⟨fin 100, fin 0, fin 0⟩, ⟨Scalar.lit 3 5, fin 0, Scalar.lit 4 5⟩⟩, fin 1⟩
  let p : Affine B64 := ⟨⟨⟨fin 1, fin 0, fin 0⟩, ⟨fin 0, fin 1, fin 0⟩, ⟨fin 0, fin 0, fin 1⟩⟩, ⟨fin 100, fin 0, fin (1 / 4)⟩⟩
  have hr : CloseRib (1 / 2 ^ 52) r (1 / 2) 0 1 := ⟨cl (by norm_num), cl3 (by norm_num), cl (by norm_num)⟩
  have hp : ClosePose (1 / 2 ^ 52) p Accurate.demoPose :=
    ⟨cl3 (by norm_num), cl3 (by norm_num), cl3 (by norm_num), cl3 (by norm_num)⟩
  have hg : CloseFlat (1 / 2 ^ 52) g ⟨100, 0, 0⟩ ⟨3 / 5, 0, 4 / 5⟩ := by
    refine ⟨cl3 (by norm_num), ⟨?_, cl (by norm_num), ?_⟩⟩
    · simpa using lit 3 5 (by norm_num)
    · simpa using lit 4 5 (by norm_num)
  have hD : sunkDepth (1 / 2) 0 Accurate.demoPose ⟨100, 0, 0⟩ ⟨3 / 5, 0, 4 / 5⟩ = 1 / 4 := by
    simp only [sunkDepth, hub, footAt, dist3, dot3, Accurate.demoPose]
    norm_num
    rw [show (16 : ℝ) = 4 ^ 2 by norm_num, Real.sqrt_sq (by norm_num)]
    norm_num
  obtain ⟨h1, -, h3⟩ := C105_sampling_partial hε hs hr hp hg (F := 1) rfl (by norm_num) (by norm_num)
  rw [hD] at h1 h3
  have ht := h1 (by norm_num)
  exact ⟨r, g, p, hs, hr, hp, hg, ht, (h3 ht).1.mono (by norm_num)⟩

/-! ## The same over the real numbers -/

namespace Accurate

theorem sample_exact {g : Flat ℝ} (hup : Scalar.eps < g.plane.normal.z) {l : Line ℝ} (hd : l.direction = V3.neg V3.ez) :
    Rib.samplingLineFlat g l = some (footAt g.plane.origin g.plane.normal l.origin, g.friction) := by
  have hz : 0 < g.plane.normal.z := real_eps_pos.trans hup
  have hdot : V3.dot g.plane.normal l.direction = -g.plane.normal.z := by
    rw [hd]; v3; ring
  rw [Rib.samplingLineFlat, Inter.linePlane, hdot]
  simp only [real_lt, real_abs, abs_neg, abs_of_pos hz, hup, decide_true, if_true, Option.map_some, Option.some.injEq, Prod.mk.injEq,
    and_true]
  rw [hd]
  simp only [footAt]
  v3
  ext <;> dsimp only <;> field_simp <;> ring

theorem lines_exact {r : Rib ℝ} {y : ℝ} (hc : r.center = ⟨0, y, 0⟩) (P : Affine ℝ) :
    (r.lineXp P).origin = V3.add P.trans (M3.mulVec P.linear ⟨r.radius / 10, y, 0⟩) ∧
    (r.lineXm P).origin = V3.add P.trans (M3.mulVec P.linear ⟨-(r.radius / 10), y, 0⟩) ∧
    (r.lineYp P).origin = V3.add P.trans (M3.mulVec P.linear ⟨0, y + 3 / 10 * r.width, 0⟩) ∧
    (r.lineYm P).origin = V3.add P.trans (M3.mulVec P.linear ⟨0, y - 3 / 10 * r.width, 0⟩) ∧
    r.centerGrd P = hub y P := by
  refine ⟨?_, ?_, ?_, ?_, ?_⟩
  · rw [Rib.lineXp, hc]; dsimp only; congr 2; v3; simp only [real_lit]; ext <;> dsimp only <;> push_cast <;> ring
  · rw [Rib.lineXm, hc]; dsimp only; congr 2; v3; simp only [real_lit]; ext <;> dsimp only <;> push_cast <;> ring
  · rw [Rib.lineYp, hc]; dsimp only; congr 2; v3; simp only [real_lit]; ext <;> dsimp only <;> push_cast <;> ring
  · rw [Rib.lineYm, hc]; dsimp only; congr 2; v3; simp only [real_lit]; ext <;> dsimp only <;> push_cast <;> ring
  · rw [Rib.centerGrd, hc]; exact hub_eq

theorem cross_feet {P : Affine ℝ} (hP : IsRigid P) {o n : V3 ℝ} (hz : n.z ≠ 0) (R y w : ℝ) :
    V3.cross (V3.sub (footAt o n (V3.add P.trans (M3.mulVec P.linear ⟨R / 10, y, 0⟩)))
        (footAt o n (V3.add P.trans (M3.mulVec P.linear ⟨-(R / 10), y, 0⟩))))
      (V3.sub (footAt o n (V3.add P.trans (M3.mulVec P.linear ⟨0, y + 3 / 10 * w, 0⟩)))
        (footAt o n (V3.add P.trans (M3.mulVec P.linear ⟨0, y - 3 / 10 * w, 0⟩)))) =
    V3.smul (3 / 25 * (R * w) * (P.linear.c2.z / n.z)) n := by
  have dU : V3.sub (V3.add P.trans (M3.mulVec P.linear ⟨R / 10, y, 0⟩)) (V3.add P.trans (M3.mulVec P.linear ⟨-(R / 10), y, 0⟩)) =
      V3.smul (R / 5) P.linear.c0 := by
    simp only [V3.real_sub, V3.real_add, V3.real_smul, M3.mulVec, Scalar.real_add, Scalar.real_mul]
    ext <;> dsimp only <;> ring
  have dV : V3.sub (V3.add P.trans (M3.mulVec P.linear ⟨0, y + 3 / 10 * w, 0⟩))
      (V3.add P.trans (M3.mulVec P.linear ⟨0, y - 3 / 10 * w, 0⟩)) = V3.smul (3 / 5 * w) P.linear.c1 := by
    simp only [V3.real_sub, V3.real_add, V3.real_smul, M3.mulVec, Scalar.real_add, Scalar.real_mul]
    ext <;> dsimp only <;> ring
  rw [foot_sub hz, foot_sub hz, dU, dV, slide_smul, slide_smul]
  have h1 : V3.cross (V3.smul (R / 5) (slide n P.linear.c0)) (V3.smul (3 / 5 * w) (slide n P.linear.c1)) =
      V3.smul (3 / 25 * (R * w)) (V3.cross (slide n P.linear.c0) (slide n P.linear.c1)) := by
    simp only [V3.real_cross, V3.real_smul]
    ext <;> dsimp only <;> ring
  rw [h1, cross_slide hz, hP.cross01]
  simp only [V3.real_smul]
  ext <;> dsimp only <;> ring

theorem reach_exact {n c : V3 ℝ} (hn : n.x ^ 2 + n.y ^ 2 + n.z ^ 2 = 1) (hc : c.x ^ 2 + c.y ^ 2 + c.z ^ 2 = 1) :
    |V3.dot n (V3.normalized (V3.cross c (V3.normalized (V3.cross n c))))| = Real.sqrt (1 - dot3 n c ^ 2) := by
  have hnx : V3.norm (V3.cross n c) = Real.sqrt (1 - dot3 n c ^ 2) := by
    rw [V3.norm_eq, length3]
    congr 1
    simp only [V3.real_cross, dot3]
    linear_combination (c.x ^ 2 + c.y ^ 2 + c.z ^ 2) * hn + hc
  rw [← hnx]
  by_cases h0 : V3.cross n c = ⟨0, 0, 0⟩
  · rw [V3.normalized_zero h0, h0]
    have h1 : V3.cross c (⟨0, 0, 0⟩ : V3 ℝ) = ⟨0, 0, 0⟩ := by v3; simp
    rw [h1, V3.normalized_zero rfl, V3.norm_eq_zero.2 rfl, V3.real_dot]
    simp
  · have hl : 0 < V3.norm (V3.cross n c) := V3.norm_pos.2 h0
    rw [V3.normalized_of_ne h0, ← V3.real_sdiv]
    obtain ⟨l, hld⟩ : ∃ l, l = V3.norm (V3.cross n c) := ⟨_, rfl⟩
    rw [← hld] at hl ⊢
    have hlsq : l ^ 2 = (V3.cross n c).x ^ 2 + (V3.cross n c).y ^ 2 + (V3.cross n c).z ^ 2 := by rw [hld, V3.norm_sq]
    have nz : V3.norm (V3.cross c (V3.sdiv (V3.cross n c) l)) = 1 := by
      rw [V3.norm_eq_one]
      simp only [V3.real_cross, V3.real_sdiv] at hlsq ⊢
      field_simp
      linear_combination (-1 : ℝ) * hlsq + ((n.y * c.z - n.z * c.y) ^ 2 + (n.z * c.x - n.x * c.z) ^ 2 + (n.x * c.y - n.y * c.x) ^ 2) * hc
    rw [V3.normalized_unit (V3.norm_eq_one.1 nz)]
    have hdot : V3.dot n (V3.cross c (V3.sdiv (V3.cross n c) l)) = l := by
      simp only [V3.real_dot, V3.real_cross, V3.real_sdiv] at hlsq ⊢
      field_simp
      linear_combination (-1 : ℝ) * hlsq
    rw [hdot, abs_of_pos hl]

/-- The whole method in closed form. -/
theorem run_exact {r : Rib ℝ} (hr : IsRib r) (hw : 0 < r.width) {P : Affine ℝ} (hP : IsRigid P) (htop : 0 < P.linear.c2.z)
    {f : ℝ} {o : V3 ℝ} {g : Flat ℝ} (hup : Scalar.eps < g.plane.normal.z) (h4 : g.plane.origin = o) (hfr : g.friction = f)
    (hu : g.plane.normal.x ^ 2 + g.plane.normal.y ^ 2 + g.plane.normal.z ^ 2 = 1) :
    r.envelopSamplingFlat g P = if 0 < sunkDepth r.radius r.y P o g.plane.normal then (true,
        { point := footAt o g.plane.normal (hub r.y P)
          normal := g.plane.normal
          friction := f
          depth := sunkDepth r.radius r.y P o g.plane.normal
          area := Rib.depthArea r.radius r.width (sunkDepth r.radius r.y P o g.plane.normal)
          volume := Rib.depthVolume r.radius r.width (sunkDepth r.radius r.y P o g.plane.normal) })
      else (false, r.noContact P) := by
  have hR : 0 < r.radius := hr.radius_pos
  have hz : 0 < g.plane.normal.z := real_eps_pos.trans hup
  obtain ⟨a0, a1, a2, a3, a4⟩ := lines_exact hr.center P
  unfold Rib.envelopSamplingFlat Rib.envelopSampling
  rw [sample_exact hup rfl, sample_exact hup rfl, sample_exact hup rfl, sample_exact hup rfl, a0, a1, a2, a3, a4, h4]
  dsimp only
  generalize g.plane.normal = N at *
  have hl : 0 < 3 / 25 * (r.radius * r.width) * (P.linear.c2.z / N.z) := by positivity
  have hlen : V3.norm (V3.sub (footAt o N (hub r.y P)) (hub r.y P)) = dist3 (hub r.y P) (footAt o N (hub r.y P)) := by
    rw [V3.norm_sub]
    simp only [dist3]
    congr 1; ring
  have hm := mean_foot (R := r.radius) (y := r.y) (w := r.width) (P := P) (o := o) (n := N)
  rw [hub_eq (y := r.y)] at hm
  rw [show (Scalar.lit 4 1 : ℝ) = 4 by rw [real_lit]; norm_num, hm, cross_feet hP hz.ne']
  have hnrm : V3.normalized (V3.smul (3 / 25 * (r.radius * r.width) * (P.linear.c2.z / N.z)) N) = N := by
    rw [V3.real_smul, V3.normalized_smul hl, V3.normalized_unit hu]
  rw [hnrm, V3.normalized_unit hP.unit1, hlen]
  have hre := reach_exact (n := N) hu hP.unit1
  rw [show Scalar.abs (V3.dot N (V3.normalized (V3.cross P.linear.c1 (V3.normalized (V3.cross N P.linear.c1))))) =
    Real.sqrt (1 - dot3 N P.linear.c1 ^ 2) from hre]
  rw [show r.radius *. Real.sqrt (1 - dot3 N P.linear.c1 ^ 2) -. dist3 (hub r.y P) (footAt o N (hub r.y P)) = sunkDepth r.radius r.y P o N from rfl]
  rw [show (g.friction +. g.friction +. g.friction +. g.friction) /. (4 : ℝ) = f by
    rw [hfr]; simp only [real_add, real_div]; ring]
  simp only [real_lt, real_zero, decide_eq_true_eq]

end Accurate

/-- **C60 on inclined ground.**  Any flat ground whose unit normal points upwards by more than the tolerance, any rigid pose whose
z axis points upwards: the sampling method reports contact exactly when the depth `sunkDepth` is positive; the record then holds
this depth, the normal of the ground, the point of the ground vertically below or above the centre of the rib and the friction of the
ground. -/
theorem C60_inclined {r : Rib ℝ} (hr : IsRib r) (hw : 0 < r.width) {P : Affine ℝ} (hP : IsRigid P) (htop : 0 < P.linear.c2.z)
    {f : ℝ} {o n : V3 ℝ} {g : Flat ℝ} (hg : Flat.make f o n = .ok g) (hup : Scalar.eps < g.plane.normal.z) :
    let N := g.plane.normal
    let D := sunkDepth r.radius r.y P o N
    let res := r.envelopSamplingFlat g P
    (∃ k > 0, N = ⟨k * n.x, k * n.y, k * n.z⟩) ∧ length3 N = 1 ∧ (res.1 = true ↔ 0 < D) ∧
    (res.1 = true → res.2.depth = D ∧ res.2.normal = N ∧ res.2.point = footAt o N (hub r.y P) ∧ res.2.friction = f) := by
  intro N D res
  obtain ⟨h1, h2, ⟨k, hk, h3⟩, h4⟩ := C26_flat_normal f o n g hg
  have hu := Flat.make_unit hg
  unfold Unit3 at hu
  have hfr : g.friction = f := by
    rw [Flat.make, Res.bind_eq_ok] at hg
    obtain ⟨_, -, hg⟩ := hg
    rw [Res.bind_eq_ok] at hg
    obtain ⟨_, -, hg⟩ := hg
    rw [← Res.ok.inj hg]
  have hrun := Accurate.run_exact hr hw hP htop hup h4 hfr hu
  refine ⟨⟨k, hk, h3⟩, h1, ?_, ?_⟩
  · simp only [res, hrun, D, N]; split <;> simp_all
  · simp only [res, hrun, D, N]; split <;> simp_all

/-! ## Far away -/

namespace Remote

/-- A vector of doubles. -/
def vec (x y z : ℝ) : V3 B64 := ⟨fin x, fin y, fin z⟩
/-- A rib of radius one half and width one. -/
noncomputable def rib : Rib B64 := ⟨⟨fin (1 / 2), ⟨vec 0 0 0, vec 0 1 0⟩⟩, 0, fin 0, fin 1, fin 0⟩
/-- The plane of all points of height zero. -/
noncomputable def ground : Flat B64 := ⟨⟨vec 0 0 0, vec 0 0 1⟩, fin 1⟩
/-- The upright wheel with its centre at `x = 3 * 2 ^ 50` and the height 1/4. -/
noncomputable def pose : Affine B64 := ⟨⟨vec 1 0 0, vec 0 1 0, vec 0 0 1⟩, vec 3377699720527872 0 (1 / 4)⟩
/-- The same pose, exactly. -/
noncomputable def exactPose : Affine ℝ := ⟨⟨⟨1, 0, 0⟩, ⟨0, 1, 0⟩, ⟨0, 0, 1⟩⟩, ⟨3377699720527872, 0, 1 / 4⟩⟩

theorem exactPose_rigid : IsRigid exactPose := by
  constructor <;> simp [exactPose]

/-- Steps along the x axis are lost. -/
theorem lost {a : ℝ} (h : |a| ≤ 1 / 8) : B64.round (.fin (3377699720527872 + a)) = fin 3377699720527872 := by
  have h' := abs_le.1 h
  refine B64.round_eq 51 6755399441055744 (by norm_num) (by norm_num) (by norm_num) ?_ ?_ ?_
  · rw [abs_of_pos (by linarith)]; norm_num; linarith
  · rw [abs_of_pos (by linarith)]; norm_num; linarith
  · rw [add_sub_cancel_left]; norm_num; linarith

theorem half : B64.round (.fin (1 / 2)) = fin (1 / 2) := B64.exact 1 (-1) (by norm_num) (by norm_num) (by norm_num) (by norm_num)
theorem quarter : B64.round (.fin (1 / 4)) = fin (1 / 4) := B64.exact 1 (-2) (by norm_num) (by norm_num) (by norm_num) (by norm_num)
theorem mquarter : B64.round (.fin (-(1 / 4))) = fin (-(1 / 4)) :=
  B64.exact (-1) (-2) (by norm_num) (by norm_num) (by norm_num) (by norm_num)

theorem sixteenth : B64.round (.fin (1 / 16)) = fin (1 / 16) :=
  B64.exact 1 (-4) (by norm_num) (by norm_num) (by norm_num) (by norm_num)
theorem rX (k : ℤ) (h : |k| ≤ 6) : B64.round (.fin (k * 3377699720527872)) = fin (k * 3377699720527872) :=
  B64.exact (3 * k) 50 (by push_cast; norm_num; ring) (by rw [abs_mul]; norm_num; linarith) (by norm_num) (by norm_num)
theorem rX1 : B64.round (.fin 3377699720527872) = fin 3377699720527872 := by simpa using rX 1 (by norm_num)
theorem rmX : B64.round (.fin (-3377699720527872)) = fin (-3377699720527872) := by simpa using rX (-1) (by norm_num)
theorem rX2 : B64.round (.fin (3377699720527872 + 3377699720527872)) = fin (2 * 3377699720527872) := by
  rw [show (3377699720527872 + 3377699720527872 : ℝ) = 2 * 3377699720527872 by norm_num]; exact_mod_cast rX 2 (by norm_num)
theorem rX3 : B64.round (.fin (2 * 3377699720527872 + 3377699720527872)) = fin (3 * 3377699720527872) := by
  rw [show (2 * 3377699720527872 + 3377699720527872 : ℝ) = 3 * 3377699720527872 by norm_num]; exact_mod_cast rX 3 (by norm_num)
theorem rX4 : B64.round (.fin (3 * 3377699720527872 + 3377699720527872)) = fin (4 * 3377699720527872) := by
  rw [show (3 * 3377699720527872 + 3377699720527872 : ℝ) = 4 * 3377699720527872 by norm_num]; exact_mod_cast rX 4 (by norm_num)

theorem rep_keep {δ : ℝ} (h : Rep δ) (h1 : |δ| ≤ 1) : B64.round (.fin δ) = fin δ := by
  rw [round_near (k := 0) (by norm_num) (by simpa using h1), near_rep h]

theorem stepX : ∃ δ : ℝ, Scalar.lit 1 10 *. fin (1 / 2) = fin δ ∧ |δ| ≤ 1 / 8 ∧ Rep δ := by
  have r4 : Rep (1 / 4) := ⟨1, -2, by norm_num, by norm_num, by norm_num⟩
  have r8 : Rep (1 / 8) := ⟨1, -3, by norm_num, by norm_num, by norm_num⟩
  have hl : (Scalar.lit 1 10 : B64) = fin (near (1 / 10)) := by
    show B64.round (Scalar.lit 1 10 : XR) = _
    rw [show (Scalar.lit 1 10 : XR) = .fin (1 / 10) from by show XR.fin _ = _; norm_num]
    exact round_near (k := 0) (by norm_num) (by rw [abs_of_pos] <;> norm_num)
  have h0 : 0 ≤ near (1 / 10) := near_neg_le rep_zero (by norm_num)
  have h1 : near (1 / 10) ≤ 1 / 4 := near_le r4 (by norm_num)
  have h2 : 0 ≤ near (near (1 / 10) * (1 / 2)) := near_neg_le rep_zero (by positivity)
  have h3 : near (near (1 / 10) * (1 / 2)) ≤ 1 / 8 := near_le r8 (by linarith)
  refine ⟨near (near (1 / 10) * (1 / 2)), ?_, ?_, rep_near _⟩
  · rw [hl, mul_fin]
    exact round_near (k := 0) (by norm_num) (by rw [abs_of_nonneg (by positivity)]; norm_num; linarith)
  · rw [abs_of_nonneg h2]; exact h3

theorem stepY : ∃ η : ℝ, Scalar.lit 3 10 *. fin 1 = fin η ∧ |η| ≤ 1 ∧ Rep η := by
  have r1 : Rep 1 := ⟨1, 0, by norm_num, by norm_num, by norm_num⟩
  have hl : (Scalar.lit 3 10 : B64) = fin (near (3 / 10)) := by
    show B64.round (Scalar.lit 3 10 : XR) = _
    rw [show (Scalar.lit 3 10 : XR) = .fin (3 / 10) from by show XR.fin _ = _; norm_num]
    exact round_near (k := 0) (by norm_num) (by rw [abs_of_pos] <;> norm_num)
  have h0 : 0 ≤ near (3 / 10) := near_neg_le rep_zero (by norm_num)
  have h1 : near (3 / 10) ≤ 1 := near_le r1 (by norm_num)
  refine ⟨near (3 / 10), ?_, by rw [abs_of_nonneg h0]; exact h1, rep_near _⟩
  rw [hl, mul_fin, mul_one, rep_keep (rep_near _) (by rw [abs_of_nonneg h0]; exact h1)]

theorem sample {a : ℝ} (h : B64.round (.fin a) = fin a) (h' : B64.round (.fin (-a)) = fin (-a)) :
    Rib.samplingLineFlat ground ⟨vec 3377699720527872 a (1 / 4), V3.neg V3.ez⟩ = some (vec 3377699720527872 a 0, fin 1) := by
  have hez : V3.neg V3.ez = vec 0 0 (-1) := by
    simp only [V3.neg, V3.ez, B64.zero_eq, B64.one_eq, vec, Far.neg_fin, neg_zero]
  have hdet : V3.dot (vec 0 0 1) (vec 0 0 (-1)) = fin (-1) := by
    norm_num [V3.dot, vec, Far.z0, Far.zm1]
  have hsub : V3.sub (vec 0 0 0) (vec 3377699720527872 a (1 / 4)) = vec (-3377699720527872) (-a) (-(1 / 4)) := by
    simp only [V3.sub, vec, sub_fin, zero_sub, rmX, h', mquarter]
  have hdot : V3.dot (vec (-3377699720527872) (-a) (-(1 / 4))) (vec 0 0 1) = fin (-(1 / 4)) := by
    simp only [V3.dot, vec, mul_fin, add_fin, mul_zero, mul_one, Far.z0, mquarter, add_zero, zero_add]
  have heps : ((Scalar.eps : B64) <. fin 1) = true := by
    rw [Far.eps_eq, lt_fin]; simpa using real_eps_lt_one
  rw [Rib.samplingLineFlat, Inter.linePlane, ground, hez]
  dsimp only
  rw [hdet, Far.abs_fin, abs_neg, abs_one, heps, if_pos rfl, hsub, hdot, div_fin _ (by norm_num),
    show (-(1 / 4) / -1 : ℝ) = 1 / 4 by norm_num, quarter]
  simp only [V3.smul, V3.add, vec, mul_fin, add_fin, mul_zero, mul_neg, mul_one, Far.z0, mquarter, add_zero, rX1, h, add_neg_cancel,
    Option.map_some]

theorem run : (rib.envelopSamplingFlat ground pose).1 = false := by
  obtain ⟨δ, d1, d2, d3⟩ := stepX
  obtain ⟨η, e1, e2, e3⟩ := stepY
  have kδ := rep_keep d3 (by linarith)
  have kmδ := rep_keep d3.neg (by rw [abs_neg]; linarith)
  have kη := rep_keep e3 e2
  have kmη := rep_keep e3.neg (by rw [abs_neg]; exact e2)
  have hex : (V3.ex : V3 B64) = vec 1 0 0 := by simp only [V3.ex, B64.zero_eq, B64.one_eq, vec]
  have hey : (V3.ey : V3 B64) = vec 0 1 0 := by simp only [V3.ey, B64.zero_eq, B64.one_eq, vec]
  have l0 : rib.lineXp pose = ⟨vec 3377699720527872 0 (1 / 4), V3.neg V3.ez⟩ := by
    rw [Rib.lineXp, show rib.radius = fin (1 / 2) from rfl, d1, hex]
    simp only [rib, pose, Rib.center, Disk.center, V3.smul, V3.add, M3.mulVec, vec, mul_fin, add_fin, mul_zero, mul_one, zero_mul, one_mul,
      Far.z0, zero_add, add_zero, kδ, quarter, lost d2]
  have l1 : rib.lineXm pose = ⟨vec 3377699720527872 0 (1 / 4), V3.neg V3.ez⟩ := by
    have d2' : |-δ| ≤ 1 / 8 := by rw [abs_neg]; exact d2
    rw [Rib.lineXm, show rib.radius = fin (1 / 2) from rfl, d1, hex]
    simp only [rib, pose, Rib.center, Disk.center, V3.smul, V3.add, V3.sub, M3.mulVec, vec, mul_fin, add_fin, sub_fin, mul_zero, mul_one,
      zero_mul, one_mul, Far.z0, zero_add, add_zero, zero_sub, sub_zero, kδ, kmδ, quarter, lost d2']
  have l2 : rib.lineYp pose = ⟨vec 3377699720527872 η (1 / 4), V3.neg V3.ez⟩ := by
    rw [Rib.lineYp, show rib.width = fin 1 from rfl, e1, hey]
    simp only [rib, pose, Rib.center, Disk.center, V3.smul, V3.add, M3.mulVec, vec, mul_fin, add_fin, mul_zero, mul_one, zero_mul, one_mul,
      Far.z0, zero_add, add_zero, kη, quarter, rX1]
  have l3 : rib.lineYm pose = ⟨vec 3377699720527872 (-η) (1 / 4), V3.neg V3.ez⟩ := by
    rw [Rib.lineYm, show rib.width = fin 1 from rfl, e1, hey]
    simp only [rib, pose, Rib.center, Disk.center, V3.smul, V3.add, V3.sub, M3.mulVec, vec, mul_fin, add_fin, sub_fin, mul_zero, mul_one,
      zero_mul, one_mul, Far.z0, zero_add, add_zero, zero_sub, sub_zero, kη, kmη, quarter, rX1]
  have hc : rib.centerGrd pose = vec 3377699720527872 0 (1 / 4) := by
    simp only [Rib.centerGrd, rib, pose, Rib.center, Disk.center, V3.add, M3.mulVec, vec, mul_fin, add_fin, mul_zero, zero_mul,
      Far.z0, zero_add, add_zero, quarter, rX1]
  have s0 := sample Far.z0 (by rw [neg_zero]; exact Far.z0)
  have s2 := sample kη kmη
  have s3 := sample kmη (by rw [neg_neg]; exact kη)
  have hpt : V3.sdiv (V3.add (V3.add (V3.add (vec 3377699720527872 0 0) (vec 3377699720527872 0 0)) (vec 3377699720527872 η 0))
      (vec 3377699720527872 (-η) 0)) (Scalar.lit 4 1) = vec 3377699720527872 0 0 := by
    rw [Accurate.four]
    simp only [V3.sdiv, V3.add, vec, add_fin, add_zero, zero_add, rX2, rX3, rX4, Far.z0, kη, add_neg_cancel,
      div_fin _ (by norm_num : (4 : ℝ) ≠ 0), zero_div]
    rw [show (4 * 3377699720527872 / 4 : ℝ) = 3377699720527872 by norm_num, rX1]
  have hx : V3.sub (vec 3377699720527872 0 0) (vec 3377699720527872 0 0) = vec 0 0 0 := by
    simp only [V3.sub, vec, sub_fin, sub_self, Far.z0]
  have hy : ∃ b, V3.sub (vec 3377699720527872 η 0) (vec 3377699720527872 (-η) 0) = vec 0 b 0 := by
    have : |η + η| ≤ 2 ^ 1 := (abs_add_le _ _).trans (by linarith)
    refine ⟨near (η + η), ?_⟩
    simp only [V3.sub, vec, sub_fin, sub_self, sub_neg_eq_add, Far.z0, round_near (by norm_num) this]
  obtain ⟨b, hy⟩ := hy
  have hn0 : V3.normalized (vec 0 0 0) = vec 0 0 0 := by
    simp [V3.normalized, V3.sqNorm, V3.dot, vec, B64.zero_eq, Far.z0]
  have hcr : ∀ b, V3.cross (vec 0 0 0) (vec 0 b 0) = vec 0 0 0 := by
    intro b; simp only [V3.cross, vec, mul_fin, sub_fin, zero_mul, mul_zero, sub_zero, Far.z0]
  have hcz : V3.cross (vec 0 1 0) (vec 0 0 0) = vec 0 0 0 := by
    simp only [V3.cross, vec, mul_fin, sub_fin, zero_mul, mul_zero, sub_zero, Far.z0]
  have hm : V3.normalized (vec 0 1 0) = vec 0 1 0 := by
    norm_num [V3.normalized, V3.sqNorm, V3.dot, V3.sdiv, vec, Far.z0, Far.z1, B64.zero_eq, Far.sqrt1, B64.div_fin]
  have hd : V3.dot (vec 0 0 0) (vec 0 0 0) = fin 0 := by
    simp only [V3.dot, vec, mul_fin, add_fin, mul_zero, Far.z0, add_zero]
  have hlen : V3.norm (V3.sub (vec 3377699720527872 0 0) (vec 3377699720527872 0 (1 / 4))) = fin (1 / 4) := by
    have h1 : Scalar.sqrt (fin (1 / 16)) = fin (1 / 4) := by
      rw [sqrt_fin (by norm_num), show (1 / 16 : ℝ) = (1 / 4) ^ 2 by norm_num, Real.sqrt_sq (by norm_num), quarter]
    simp only [V3.norm, V3.sqNorm, V3.dot, V3.sub, vec, sub_fin, mul_fin, add_fin, sub_self, zero_sub, mul_zero, Far.z0, mquarter, zero_add]
    rw [show (-(1 / 4) * -(1 / 4) : ℝ) = 1 / 16 by norm_num, sixteenth, add_fin, zero_add, sixteenth, h1]
  unfold Rib.envelopSamplingFlat Rib.envelopSampling
  rw [l0, l1, l2, l3, s0, s2, s3]
  dsimp only
  rw [hpt, hx, hy, hcr, hn0, show pose.linear.c1 = vec 0 1 0 from rfl, hm, hcr, hn0, hcz, hn0, hd, hc, hlen, Far.abs_fin,
    show rib.radius = fin (1 / 2) from rfl, mul_fin, abs_zero, mul_zero, Far.z0, sub_fin, zero_sub, mquarter, B64.zero_eq, lt_fin,
    if_neg (by norm_num)]

end Remote

/-- Far away from the origin this fails: a rib that is 25 cm deep in a horizontal ground.  The numbers are all doubles, the
pose is rigid, and only the distance from the origin is larger than in a moderate scene; the sampling lines left and right of the
centre coincide, and no contact is found. -/
theorem C105_far_refuted : ∃ (r : Rib B64) (g : Flat B64) (p : Affine B64) (P : Affine ℝ) (o n : V3 ℝ),
    IsRigid P ∧ P.linear.c2 = ⟨0, 0, 1⟩ ∧ o = ⟨0, 0, 0⟩ ∧ n = ⟨0, 0, 1⟩ ∧ CloseRib (1 / 2 ^ 52) r (1 / 2) 0 1 ∧
    ClosePose (1 / 2 ^ 52) p P ∧ CloseFlat (1 / 2 ^ 52) g o n ∧ sunkDepth (1 / 2) 0 P o n = 1 / 4 ∧
    (r.envelopSamplingFlat g p).1 = false := by
  have cl : ∀ {e x : ℝ}, 0 ≤ e → Close e (fin x) x := fun he => ⟨_, rfl, by simpa using he⟩
  have cl3 : ∀ {e x y z : ℝ}, 0 ≤ e → Close3 e ⟨fin x, fin y, fin z⟩ ⟨x, y, z⟩ := fun he => ⟨cl he, cl he, cl he⟩
  refine ⟨Remote.rib, Remote.ground, Remote.pose, Remote.exactPose, ⟨0, 0, 0⟩, ⟨0, 0, 1⟩, Remote.exactPose_rigid, rfl, rfl, rfl,
    ⟨cl (by norm_num), cl3 (by norm_num), cl (by norm_num)⟩,
    ⟨cl3 (by norm_num), cl3 (by norm_num), cl3 (by norm_num), cl3 (by norm_num)⟩, ⟨cl3 (by norm_num), cl3 (by norm_num)⟩, ?_, Remote.run⟩
  simp only [sunkDepth, hub, footAt, dist3, dot3, Remote.exactPose]
  norm_num
  rw [show (16 : ℝ) = 4 ^ 2 by norm_num, Real.sqrt_sq (by norm_num)]
  norm_num

end Enve
