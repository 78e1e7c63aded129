import Verif.Props.RelistWallProps

/-! # The order in which the vertices of a face are listed: C134, sampling lines beside a corner -/

namespace Enve
open Scalar Spec

/-- The test of the code for a vertical line, in the weights of the point of the plane of the triangle: the weight of the second vertex is
compared with `1 + eps`, those of the others are not. -/
theorem Relist.eval {o a b c : V3 ℝ} {x y z : ℝ} (hd : Scalar.eps ≤ |Relist.part a b c|) (hs : x + y + z = 1)
    (hx : x * a.x + y * b.x + z * c.x = o.x) (hy : x * a.y + y * b.y + z * c.y = o.y) (hz : a.z = 0 ∧ b.z = 0 ∧ c.z = 0) :
    Inter.lineTriangle ⟨o, V3.neg V3.ez⟩ ⟨a, b, c⟩ Scalar.eps =
      if y < -Scalar.eps ∨ 1 + Scalar.eps < y then none else if z < -Scalar.eps ∨ x < -Scalar.eps then none else some ⟨o.x, o.y, 0⟩ := by
  have heps := real_eps_pos
  have h0 : Relist.part a b c ≠ 0 := by intro h; rw [h, abs_zero] at hd; linarith
  have ha : V3.dot (V3.sub b a) (V3.cross (V3.neg V3.ez) (V3.sub c a)) = Relist.part a b c := by
    unfold Relist.part; v3; ring
  have hu : V3.dot (V3.sub o a) (V3.cross (V3.neg V3.ez) (V3.sub c a)) = y * Relist.part a b c := by
    obtain rfl : x = 1 - y - z := by linarith
    unfold Relist.part; v3; rw [← hx, ← hy]; ring
  have hv : V3.dot (V3.neg V3.ez) (V3.cross (V3.sub o a) (V3.sub b a)) = z * Relist.part a b c := by
    obtain rfl : x = 1 - y - z := by linarith
    unfold Relist.part; v3; rw [← hx, ← hy]; ring
  unfold Inter.lineTriangle
  dsimp only
  rw [ha, hu, hv, if_neg]
  swap
  · simp only [real_lt, real_neg, Bool.and_eq_true, decide_eq_true_eq]
    exact fun hc => absurd (abs_lt.2 hc) (by linarith)
  have hp : V3.add o (V3.smul (one /. Relist.part a b c *. V3.dot (V3.sub c a) (V3.cross (V3.sub o a) (V3.sub b a))) (V3.neg V3.ez)) =
      ⟨o.x, o.y, 0⟩ := by
    have h3 : V3.dot (V3.sub c a) (V3.cross (V3.sub o a) (V3.sub b a)) = o.z * Relist.part a b c := by
      obtain ⟨h1, h2, h3⟩ := hz
      unfold Relist.part; v3; rw [h1, h2, h3]; ring
    rw [h3]
    v3
    congr 1
    · ring
    · ring
    · field_simp; ring
  rw [hp]
  have e1 : one /. Relist.part a b c *. (y * Relist.part a b c) = y := by
    simp only [real_div, real_mul, real_one]; field_simp
  have e2 : one /. Relist.part a b c *. (z * Relist.part a b c) = z := by
    simp only [real_div, real_mul, real_one]; field_simp
  rw [e1, e2]
  simp only [real_lt, real_sub, real_zero, real_add, real_one, Bool.or_eq_true, decide_eq_true_eq, zero_sub]
  have hc : (z < -Scalar.eps ∨ 1 + Scalar.eps < y + z) ↔ (z < -Scalar.eps ∨ x < -Scalar.eps) := by
    constructor
    · rintro (h | h)
      · exact .inl h
      · right; linarith
    · rintro (h | h)
      · exact .inl h
      · right; linarith
  rw [if_congr hc rfl rfl]

/-- Where the corner is. -/
noncomputable def Demo.tip : ℝ := 11 / 10 / (1 + 3 / 2 * Scalar.eps) - 1

/-- A triangle that ends `3/20 eps` before a sampling line, the corner listed second. -/
noncomputable def Demo.flag : TriangleGround ℝ :=
  TriangleGround.updateBBox (TriangleGround.updateNormal
    ⟨⟨⟨-1, -1, 0⟩, ⟨Demo.tip, 0, 0⟩, ⟨-1, 1, 0⟩⟩, 0, 1, V3.nan, Box.default⟩)

/-- The same, the corner listed first. -/
noncomputable def Demo.flag' : TriangleGround ℝ :=
  TriangleGround.updateBBox (TriangleGround.updateNormal
    ⟨⟨⟨Demo.tip, 0, 0⟩, ⟨-1, -1, 0⟩, ⟨-1, 1, 0⟩⟩, 0, 1, V3.nan, Box.default⟩)

theorem Demo.flag_make :
    TriangleGround.make 0 (1 : ℝ) ⟨-1, -1, 0⟩ ⟨Demo.tip, 0, 0⟩ ⟨-1, 1, 0⟩ = .ok Demo.flag ∧
    TriangleGround.make 0 (1 : ℝ) ⟨Demo.tip, 0, 0⟩ ⟨-1, -1, 0⟩ ⟨-1, 1, 0⟩ = .ok Demo.flag' := by
  constructor
  · simp [TriangleGround.make, Demo.flag]
  · simp [TriangleGround.make, Demo.flag']

theorem Demo.flag_relisted : Relisted Demo.flag Demo.flag' := ⟨List.Perm.swap _ _ _, rfl⟩

theorem Demo.tip_eq : (1 + 3 / 2 * Scalar.eps) * (1 + Demo.tip) = 11 / 10 := by
  have := real_eps_pos
  unfold Demo.tip
  have : (1 + 3 / 2 * Scalar.eps : ℝ) ≠ 0 := by positivity
  field_simp
  ring

theorem Demo.tip_pos : 1 < 1 + Demo.tip ∧ 1 + Demo.tip ≤ 11 / 10 := by
  have h := Demo.tip_eq
  have h0 := real_eps_pos
  have h1 : (Scalar.eps : ℝ) < 1 / 100 := by rw [real_eps]; norm_num
  constructor <;> nlinarith

/-- The weight of the corner for the line over `(x, y)`. -/
theorem Demo.flag_line (x y : ℝ) : ∃ w : ℝ, w * (1 + Demo.tip) = 1 + x ∧
    Rib.samplingLineMesh [Demo.flag] ⟨⟨x, y, 1 / 2⟩, V3.neg V3.ez⟩ =
      (if w < -Scalar.eps ∨ 1 + Scalar.eps < w then none else
        if (1 - w + y) / 2 < -Scalar.eps ∨ (1 - w - y) / 2 < -Scalar.eps then none else some (⟨x, y, 0⟩, 1)) ∧
    Rib.samplingLineMesh [Demo.flag'] ⟨⟨x, y, 1 / 2⟩, V3.neg V3.ez⟩ =
      (if (1 - w - y) / 2 < -Scalar.eps ∨ 1 + Scalar.eps < (1 - w - y) / 2 then none else
        if (1 - w + y) / 2 < -Scalar.eps ∨ w < -Scalar.eps then none else some (⟨x, y, 0⟩, 1)) := by
  obtain ⟨t1, t2⟩ := Demo.tip_pos
  have he := real_eps_lt_one
  have hw : (1 + x) / (1 + Demo.tip) * (1 + Demo.tip) = 1 + x := by field_simp
  refine ⟨(1 + x) / (1 + Demo.tip), hw, ?_, ?_⟩
  all_goals
    generalize (1 + x) / (1 + Demo.tip) = w at *
    unfold Rib.samplingLineMesh Rib.samplingHits
    rw [List.filterMap_cons, List.filterMap_nil]
  · have hf : Demo.flag.friction = 1 := rfl
    rw [hf, show Demo.flag.tri = ⟨⟨-1, -1, 0⟩, ⟨Demo.tip, 0, 0⟩, ⟨-1, 1, 0⟩⟩ from rfl,
      Relist.eval (x := (1 - w - y) / 2) (y := w) (z := (1 - w + y) / 2) ?_ (by ring) (by dsimp only; linarith) (by dsimp only; ring) ⟨rfl, rfl, rfl⟩]
    · split_ifs <;> rfl
    · refine he.le.trans ?_
      rw [le_abs]; left
      unfold Relist.part; dsimp only; linarith
  · have hf : Demo.flag'.friction = 1 := rfl
    rw [hf, show Demo.flag'.tri = ⟨⟨Demo.tip, 0, 0⟩, ⟨-1, -1, 0⟩, ⟨-1, 1, 0⟩⟩ from rfl,
      Relist.eval (x := w) (y := (1 - w - y) / 2) (z := (1 - w + y) / 2) ?_ (by ring) (by dsimp only; linarith) (by dsimp only; ring) ⟨rfl, rfl, rfl⟩]
    · split_ifs <;> rfl
    · refine he.le.trans ?_
      rw [le_abs]; right
      unfold Relist.part; dsimp only; linarith

theorem Demo.thin_lines : (Demo.ribOf (1 / 10)).lineXp (Demo.upright (1 / 2)) = ⟨⟨1 / 10, 0, 1 / 2⟩, V3.neg V3.ez⟩ ∧
    (Demo.ribOf (1 / 10)).lineXm (Demo.upright (1 / 2)) = ⟨⟨-(1 / 10), 0, 1 / 2⟩, V3.neg V3.ez⟩ ∧
    (Demo.ribOf (1 / 10)).lineYp (Demo.upright (1 / 2)) = ⟨⟨0, 3 / 100, 1 / 2⟩, V3.neg V3.ez⟩ ∧
    (Demo.ribOf (1 / 10)).lineYm (Demo.upright (1 / 2)) = ⟨⟨0, -(3 / 100), 1 / 2⟩, V3.neg V3.ez⟩ := by
  refine ⟨?_, ?_, ?_, ?_⟩ <;>
    simp only [Rib.lineXp, Rib.lineXm, Rib.lineYp, Rib.lineYm, Demo.upright, Demo.ribOf, Rib.make, Rib.center, Rib.radius, Disk.center,
      Disk.radius] <;> congr 1 <;> v3 <;> norm_num [Scalar.lit]

/-- **C134**, counterexample for sampling lines beside a corner: a wheel over a level triangle whose corner is a tolerance away from a
sampling line.  The sampling method reports a contact of depth 1/2 if the corner is listed first, and none if it is listed second. -/
theorem C134_corner_refuted : ∃ (r : Rib ℝ) (pose : Affine ℝ) (t t' : TriangleGround ℝ), IsRib r ∧ IsRigid pose ∧
    t.Constructed ∧ t'.Constructed ∧ Relisted t t' ∧ (r.envelopSamplingMesh [t] pose).1 = false ∧
    (r.envelopSamplingMesh [t'] pose).1 = true ∧ (r.envelopSamplingMesh [t'] pose).2.depth = 1 / 2 := by
  obtain ⟨t1, t2⟩ := Demo.tip_pos
  have htip := Demo.tip_eq
  have h0 := real_eps_pos
  have h1 : (Scalar.eps : ℝ) < 1 / 100 := by rw [real_eps]; norm_num
  obtain ⟨l1, l2, l3, l4⟩ := Demo.thin_lines
  obtain ⟨w1, e1, a1, b1⟩ := Demo.flag_line (1 / 10) 0
  obtain ⟨w2, e2, a2, b2⟩ := Demo.flag_line (-(1 / 10)) 0
  obtain ⟨w3, e3, a3, b3⟩ := Demo.flag_line 0 (3 / 100)
  obtain ⟨w4, e4, a4, b4⟩ := Demo.flag_line 0 (-(3 / 100))
  obtain rfl : w1 = 1 + 3 / 2 * Scalar.eps := by nlinarith
  rw [if_pos (by right; linarith)] at a1
  rw [if_neg (by rintro (h | h) <;> linarith), if_neg (by rintro (h | h) <;> linarith)] at b1
  have g2 : 4 / 5 ≤ w2 ∧ w2 ≤ 9 / 10 := by constructor <;> nlinarith
  have g3 : 10 / 11 ≤ w3 ∧ w3 ≤ 10 / 11 + 2 * Scalar.eps := by constructor <;> nlinarith
  have g4 : 10 / 11 ≤ w4 ∧ w4 ≤ 10 / 11 + 2 * Scalar.eps := by constructor <;> nlinarith
  have h2 : (Scalar.eps : ℝ) < 1 / 1000 := by rw [real_eps]; norm_num
  rw [if_neg (by rintro (h | h) <;> linarith), if_neg (by rintro (h | h) <;> linarith)] at b2
  rw [if_neg (by rintro (h | h) <;> linarith), if_neg (by rintro (h | h) <;> linarith)] at b3
  rw [if_neg (by rintro (h | h) <;> linarith), if_neg (by rintro (h | h) <;> linarith)] at b4
  have hno : (Demo.ribOf (1 / 10)).envelopSamplingMesh [Demo.flag] (Demo.upright (1 / 2)) =
      (false, (Demo.ribOf (1 / 10)).noContact (Demo.upright (1 / 2))) := by
    rw [Rib.envelopSamplingMesh, Rib.envelopSampling, l1, a1]
  have hz : ∀ a : ℝ, 0 < a → V3.normalized (⟨0, 0, a⟩ : V3 ℝ) = ⟨0, 0, 1⟩ := by
    intro a ha
    have hn : V3.norm (⟨0, 0, a⟩ : V3 ℝ) = a := by
      rw [V3.norm_eq, length3]; simp only [ne_eq, OfNat.ofNat_ne_zero, not_false_eq_true, zero_pow, zero_add]; exact Real.sqrt_sq ha.le
    rw [V3.normalized_of_ne (by simp [ha.ne']), hn]
    simp [ha.ne']
  have hyes : ((Demo.ribOf (1 / 10)).envelopSamplingMesh [Demo.flag'] (Demo.upright (1 / 2))).1 = true ∧
      ((Demo.ribOf (1 / 10)).envelopSamplingMesh [Demo.flag'] (Demo.upright (1 / 2))).2.depth = 1 / 2 := by
    rw [Rib.envelopSamplingMesh, Rib.envelopSampling, l1, l2, l3, l4, b1, b2, b3, b4]
    dsimp only
    have n1 : V3.normalized (V3.cross (V3.sub ⟨1 / 10, 0, 0⟩ ⟨-(1 / 10), 0, 0⟩) (V3.sub ⟨0, 3 / 100, 0⟩ ⟨0, -(3 / 100), 0⟩)) =
        (⟨0, 0, 1⟩ : V3 ℝ) := by
      have : V3.cross (V3.sub ⟨1 / 10, 0, 0⟩ ⟨-(1 / 10), 0, 0⟩) (V3.sub ⟨0, 3 / 100, 0⟩ ⟨0, -(3 / 100), 0⟩) = (⟨0, 0, 3 / 250⟩ : V3 ℝ) := by
        v3; norm_num
      rw [this, hz _ (by norm_num)]
    have n2 : V3.normalized (Demo.upright (1 / 2)).linear.c1 = (⟨0, 1, 0⟩ : V3 ℝ) := by
      show V3.normalized (⟨0, 1, 0⟩ : V3 ℝ) = _
      have hn : V3.norm (⟨0, 1, 0⟩ : V3 ℝ) = 1 := by rw [V3.norm_eq, length3]; norm_num
      rw [V3.normalized_of_ne (by simp), hn]; norm_num
    have n3 : V3.normalized (V3.cross (⟨0, 0, 1⟩ : V3 ℝ) ⟨0, 1, 0⟩) = ⟨-1, 0, 0⟩ := by
      have : V3.cross (⟨0, 0, 1⟩ : V3 ℝ) ⟨0, 1, 0⟩ = ⟨-1, 0, 0⟩ := by v3; norm_num
      have hn : V3.norm (⟨-1, 0, 0⟩ : V3 ℝ) = 1 := by rw [V3.norm_eq, length3]; norm_num
      rw [this, V3.normalized_of_ne (by simp), hn]; norm_num
    have n4 : V3.normalized (V3.cross (⟨0, 1, 0⟩ : V3 ℝ) ⟨-1, 0, 0⟩) = ⟨0, 0, 1⟩ := by
      have : V3.cross (⟨0, 1, 0⟩ : V3 ℝ) ⟨-1, 0, 0⟩ = ⟨0, 0, 1⟩ := by v3; norm_num
      rw [this, hz _ one_pos]
    rw [n1, n2, n3, n4]
    have hdep : (Demo.ribOf (1 / 10)).radius *. Scalar.abs (V3.dot (⟨0, 0, 1⟩ : V3 ℝ) ⟨0, 0, 1⟩) -.
        V3.norm (V3.sub (V3.sdiv (V3.add (V3.add (V3.add ⟨1 / 10, 0, 0⟩ ⟨-(1 / 10), 0, 0⟩) ⟨0, 3 / 100, 0⟩) ⟨0, -(3 / 100), 0⟩) (lit 4 1))
          ((Demo.ribOf (1 / 10)).centerGrd (Demo.upright (1 / 2)))) = 1 / 2 := by
      have hc : V3.sub (V3.sdiv (V3.add (V3.add (V3.add ⟨1 / 10, 0, 0⟩ ⟨-(1 / 10), 0, 0⟩) ⟨0, 3 / 100, 0⟩) ⟨0, -(3 / 100), 0⟩) (lit 4 1))
          ((Demo.ribOf (1 / 10)).centerGrd (Demo.upright (1 / 2))) = (⟨0, 0, -(1 / 2)⟩ : V3 ℝ) := by
        simp only [Rib.centerGrd, Demo.upright, Demo.ribOf, Rib.make, Rib.center, Disk.center]
        v3; norm_num
      have hn : V3.norm (⟨0, 0, -(1 / 2)⟩ : V3 ℝ) = 1 / 2 := by
        rw [V3.norm_eq, length3, show (0 : ℝ) ^ 2 + 0 ^ 2 + (-(1 / 2)) ^ 2 = (1 / 2) ^ 2 by norm_num, Real.sqrt_sq (by norm_num)]
      have hd : V3.dot (⟨0, 0, 1⟩ : V3 ℝ) ⟨0, 0, 1⟩ = 1 := by v3; norm_num
      rw [hc, hn, hd, show (Demo.ribOf (1 / 10)).radius = 1 from rfl]
      simp; norm_num
    rw [hdep]
    simp
  exact ⟨_, _, _, _, Demo.ribOf_isRib (by norm_num), Demo.upright_rigid _, ⟨_, _, _, _, _, Demo.flag_make.1⟩,
    ⟨_, _, _, _, _, Demo.flag_make.2⟩, Demo.flag_relisted, by rw [hno], hyes.1, hyes.2⟩

end Enve
