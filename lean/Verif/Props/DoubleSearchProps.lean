import Verif.Props.DoubleProps
import Verif.Props.MeshProps
import Verif.Props.SamplingProps
import Verif.Props.SafetyProps
import Verif.Props.LoaderProps

/-! # The search for the ground below the wheel, in the arithmetic of `double`

`shell::setup` (`shell.cc:440-478`) asks the mesh for the triangles whose box overlaps the box of the wheel, a cube
around the hub whose corners are computed with rounding.  The boxes of the triangles are not rounded: their corners
are coordinates of vertices. -/

namespace Enve
open Scalar Spec

/-! ## Rounding and its error -/

namespace B64

theorem nearestEven_error (q : ℝ) : |(nearestEven q : ℝ) - q| ≤ 1 / 2 := by
  have h0 := Int.fract_nonneg q
  have h1 := Int.fract_lt_one q
  have h2 : (⌊q⌋ : ℝ) = q - Int.fract q := by rw [Int.fract]; ring
  unfold nearestEven
  split_ifs with a b c <;> push_cast <;> rw [h2, abs_le] <;> constructor <;> linarith

/-- Rounding changes a number by at most its 2⁻⁵³ part, or by half the smallest number. -/
theorem near_error (x : ℝ) : |near x - x| ≤ |x| * (2 : ℝ) ^ (-53 : ℤ) + (2 : ℝ) ^ (-1075 : ℤ) := by
  by_cases hx0 : x = 0
  · rw [hx0, near_zero, sub_self, abs_zero]; positivity
  have hxp : 0 < |x| := abs_pos.2 hx0
  have hu : 0 < ulp x := by unfold ulp; positivity
  have h1 : |near x - x| ≤ ulp x / 2 := by
    have h := nearestEven_error (x / ulp x)
    have e : near x - x = ((nearestEven (x / ulp x) : ℝ) - x / ulp x) * ulp x := by
      unfold near; field_simp
    rw [e, abs_mul, abs_of_pos hu]
    have := mul_le_mul_of_nonneg_right h hu.le
    linarith
  refine h1.trans ?_
  unfold ulp
  rcases max_cases (Int.log 2 |x| - 52) (-1074) with ⟨e, -⟩ | ⟨e, -⟩
  · rw [e]
    have hlo : (2 : ℝ) ^ (Int.log 2 |x|) ≤ |x| := by
      exact_mod_cast Int.zpow_log_le_self (b := 2) (by norm_num) hxp
    have e2 : (2 : ℝ) ^ (Int.log 2 |x| - 52) / 2 = 2 ^ (Int.log 2 |x|) * 2 ^ (-53 : ℤ) := by
      rw [← zpow_add₀ (by norm_num), show Int.log 2 |x| - 52 = (Int.log 2 |x| + -53) + 1 by ring,
        zpow_add_one₀ (by norm_num)]
      ring
    rw [e2]
    have : (2 : ℝ) ^ (Int.log 2 |x|) * 2 ^ (-53 : ℤ) ≤ |x| * 2 ^ (-53 : ℤ) :=
      mul_le_mul_of_nonneg_right hlo (by positivity)
    have h3 : (0 : ℝ) ≤ 2 ^ (-1075 : ℤ) := by positivity
    linarith
  · rw [e]
    have e2 : (2 : ℝ) ^ (-1074 : ℤ) / 2 = 2 ^ (-1075 : ℤ) := by
      rw [show (-1074 : ℤ) = -1075 + 1 by norm_num, zpow_add_one₀ (by norm_num)]; ring
    rw [e2]
    have : 0 ≤ |x| * (2 : ℝ) ^ (-53 : ℤ) := by positivity
    linarith

/-- Rounding an exact number gives a number or an infinity. -/
theorem round_ne_nan (y : ℝ) : (round (.fin y)).val ≠ .nan := by
  rw [round_def]; dsimp only; split_ifs <;> simp

end B64

/-- `a` is the finite double whose value is `x`. -/
structure Spec.IsDouble (a : B64) (x : ℝ) : Prop where
  eq : a = .fin x
  rep : B64.Rep x
  lt : |x| < 2 ^ (1024 : ℤ)

/-- The three doubles of `a` have the values `v`. -/
structure Spec.IsDouble3 (a : V3 B64) (v : V3 ℝ) : Prop where
  x : IsDouble a.x v.x
  y : IsDouble a.y v.y
  z : IsDouble a.z v.z

/-- The corners of the triangle `t` are the points `v0`, `v1`, `v2` exactly. -/
structure Spec.HasCorners (t : Triangle B64) (v0 v1 v2 : V3 ℝ) : Prop where
  v0 : IsDouble3 t.v0 v0
  v1 : IsDouble3 t.v1 v1
  v2 : IsDouble3 t.v2 v2

/-- Every vertex of the mesh is a point whose coordinates are finite doubles. -/
def Spec.FiniteMesh (m : Mesh B64) : Prop := ∀ t ∈ m.triangles, ∃ v0 v1 v2, HasCorners t.tri v0 v1 v2

/-- `p` lies in the cube with half side `R` around `c`. -/
def Spec.InCube (c : V3 ℝ) (R : ℝ) (p : V3 ℝ) : Prop :=
  |p.x - c.x| ≤ R ∧ |p.y - c.y| ≤ R ∧ |p.z - c.z| ≤ R

theorem Spec.IsDouble.ne_nan {a : B64} {x : ℝ} (h : IsDouble a x) : a.val ≠ .nan := by rw [h.eq]; simp [B64.fin]

theorem Spec.IsDouble3.all {a : V3 B64} {v : V3 ℝ} (h : IsDouble3 a v) : a.All (fun a : B64 => a.val ≠ .nan) :=
  ⟨h.x.ne_nan, h.y.ne_nan, h.z.ne_nan⟩

theorem Spec.FiniteMesh.verticesIn {m : Mesh B64} (h : FiniteMesh m) :
    m.VerticesIn (fun a : B64 => a.val ≠ .nan) := by
  intro t ht
  obtain ⟨v0, v1, v2, h⟩ := h t ht
  exact ⟨h.v0.all, h.v1.all, h.v2.all⟩

theorem Spec.IsDouble.min {a b : B64} {x y : ℝ} (ha : IsDouble a x) (hb : IsDouble b y) :
    IsDouble (Scalar.min a b) (Min.min x y) := by
  unfold Scalar.min
  rw [ha.eq, hb.eq, B64.lt_fin]
  by_cases h : y < x
  · simp only [h, decide_true, if_true, min_eq_right h.le]; exact ⟨rfl, hb.rep, hb.lt⟩
  · simp only [h, decide_false, min_eq_left (not_lt.1 h)]; exact ⟨rfl, ha.rep, ha.lt⟩

theorem Spec.IsDouble.max {a b : B64} {x y : ℝ} (ha : IsDouble a x) (hb : IsDouble b y) :
    IsDouble (Scalar.max a b) (Max.max x y) := by
  unfold Scalar.max
  rw [ha.eq, hb.eq, B64.lt_fin]
  by_cases h : x < y
  · simp only [h, decide_true, if_true, max_eq_right h.le]; exact ⟨rfl, hb.rep, hb.lt⟩
  · simp only [h, decide_false, max_eq_left (not_lt.1 h)]; exact ⟨rfl, ha.rep, ha.lt⟩

/-- Comparing a double with a rounded number. -/
theorem Spec.IsDouble.le_round {a : B64} {x : ℝ} (ha : IsDouble a x) (y : ℝ) :
    (a <=. B64.round (.fin y)) = true ↔ x ≤ B64.near y := by
  have h := abs_lt.1 ha.lt
  rw [ha.eq, B64.round_def]
  split_ifs with h1 h2
  · exact ⟨fun _ => by linarith, fun _ => rfl⟩
  · exact ⟨fun h => absurd h Bool.false_ne_true, fun _ => by linarith⟩
  · exact decide_eq_true_iff

theorem Spec.IsDouble.round_le {a : B64} {x : ℝ} (ha : IsDouble a x) (y : ℝ) :
    (B64.round (.fin y) <=. a) = true ↔ B64.near y ≤ x := by
  have h := abs_lt.1 ha.lt
  rw [ha.eq, B64.round_def]
  split_ifs with h1 h2
  · exact ⟨fun h => absurd h Bool.false_ne_true, fun _ => by linarith⟩
  · exact ⟨fun _ => by linarith, fun _ => rfl⟩
  · exact decide_eq_true_iff

/-! ## The box of the wheel -/

/-- The box of a wheel of radius `R` at `c` as the program computes it. -/
theorem Shell.updateBBox_b64 {s : Shell B64} {c : V3 ℝ} {R : ℝ} (hc : IsDouble3 s.pose.trans c)
    (hR : IsDouble s.shape.rx R) (h0 : 0 ≤ R) :
    s.updateBBox.bbox.WF (fun a : B64 => a.val ≠ .nan) ∧
    s.updateBBox.bbox.min = ⟨.round (.fin (c.x - R)), .round (.fin (c.y - R)), .round (.fin (c.z - R))⟩ ∧
    s.updateBBox.bbox.max = ⟨.round (.fin (c.x + R)), .round (.fin (c.y + R)), .round (.fin (c.z + R))⟩ := by
  have hlow : ∀ {a : B64} {x : ℝ}, IsDouble a x → a -. s.shape.rx = .round (.fin (x - R)) := by
    intro a x h; rw [h.eq, hR.eq, B64.sub_fin]
  have hhigh : ∀ {a : B64} {x : ℝ}, IsDouble a x → a +. s.shape.rx = .round (.fin (x + R)) := by
    intro a x h; rw [h.eq, hR.eq, B64.add_fin]
  have hle : ∀ {a : B64} {x : ℝ}, IsDouble a x →
      (B64.round (.fin (x - R)) <=. B64.round (.fin (x + R))) = true := by
    intro a x h
    exact OrderOn.b64.trans (B64.round_ne_nan _) h.ne_nan (B64.round_ne_nan _)
      ((h.round_le _).2 (B64.near_le h.rep (by linarith))) ((h.le_round _).2 (B64.near_neg_le h.rep (by linarith)))
  obtain ⟨b, hb⟩ : ∃ b : Box B64, b = { s.bbox with
      min := V3.sub s.pose.trans ⟨s.shape.rx, s.shape.rx, s.shape.rx⟩
      max := V3.add s.pose.trans ⟨s.shape.rx, s.shape.rx, s.shape.rx⟩ } := ⟨_, rfl⟩
  have e1 : b.min = ⟨.round (.fin (c.x - R)), .round (.fin (c.y - R)), .round (.fin (c.z - R))⟩ := by
    rw [hb]; simp only [V3.sub, hlow hc.x, hlow hc.y, hlow hc.z]
  have e2 : b.max = ⟨.round (.fin (c.x + R)), .round (.fin (c.y + R)), .round (.fin (c.z + R))⟩ := by
    rw [hb]; simp only [V3.add, hhigh hc.x, hhigh hc.y, hhigh hc.z]
  have hwf : b.WF (fun a : B64 => a.val ≠ .nan) := by
    refine ⟨?_, ?_, ?_⟩
    · rw [e1]; exact ⟨B64.round_ne_nan _, B64.round_ne_nan _, B64.round_ne_nan _⟩
    · rw [e2]; exact ⟨B64.round_ne_nan _, B64.round_ne_nan _, B64.round_ne_nan _⟩
    · rw [e1, e2]; exact ⟨hle hc.x, hle hc.y, hle hc.z⟩
  have hbb : s.updateBBox.bbox = b := by
    show Box.updateMaxMin _ = _
    rw [← Box.updateMaxMin_of_WF OrderOn.b64 hwf, hb]; rfl
  rw [hbb]
  exact ⟨hwf, e1, e2⟩

/-- Each coordinate of `p` is between the smallest and the largest of the three points. -/
def Spec.BetweenCorners (v0 v1 v2 p : V3 ℝ) : Prop :=
  InBox ⟨Min.min v0.x (Min.min v1.x v2.x), Min.min v0.y (Min.min v1.y v2.y), Min.min v0.z (Min.min v1.z v2.z)⟩
    ⟨Max.max v0.x (Max.max v1.x v2.x), Max.max v0.y (Max.max v1.y v2.y), Max.max v0.z (Max.max v1.z v2.z)⟩ p

/-- The half side of a cube around `c` that is larger by the rounding error of its corners. -/
noncomputable def Spec.widened (c : V3 ℝ) (R : ℝ) : ℝ :=
  R + (Max.max |c.x| (Max.max |c.y| |c.z|) + R) * 2 ^ (-53 : ℤ) + 2 ^ (-1075 : ℤ)

theorem Spec.InTriangle.between {v0 v1 v2 p : V3 ℝ} (h : InTriangle v0 v1 v2 p) : BetweenCorners v0 v1 v2 p := by
  obtain ⟨a, b, c, ha, hb, hc, h1, rfl⟩ := h
  have key : ∀ x y z : ℝ, Min.min x (Min.min y z) ≤ a * x + b * y + c * z ∧
      a * x + b * y + c * z ≤ Max.max x (Max.max y z) := by
    intro x y z
    obtain ⟨m, hm⟩ : ∃ m, m = Min.min x (Min.min y z) := ⟨_, rfl⟩
    obtain ⟨n, hn⟩ : ∃ n, n = Max.max x (Max.max y z) := ⟨_, rfl⟩
    have m1 : m ≤ x := by rw [hm]; exact min_le_left _ _
    have m2 : m ≤ y := by rw [hm]; exact (min_le_right _ _).trans (min_le_left _ _)
    have m3 : m ≤ z := by rw [hm]; exact (min_le_right _ _).trans (min_le_right _ _)
    have n1 : x ≤ n := by rw [hn]; exact le_max_left _ _
    have n2 : y ≤ n := by rw [hn]; exact (le_max_left _ _).trans (le_max_right _ _)
    have n3 : z ≤ n := by rw [hn]; exact (le_max_right _ _).trans (le_max_right _ _)
    rw [← hm, ← hn]
    have em : m = a * m + b * m + c * m := by rw [← add_mul, ← add_mul, h1, one_mul]
    have en : n = a * n + b * n + c * n := by rw [← add_mul, ← add_mul, h1, one_mul]
    have := mul_le_mul_of_nonneg_left m1 ha
    have := mul_le_mul_of_nonneg_left m2 hb
    have := mul_le_mul_of_nonneg_left m3 hc
    have := mul_le_mul_of_nonneg_left n1 ha
    have := mul_le_mul_of_nonneg_left n2 hb
    have := mul_le_mul_of_nonneg_left n3 hc
    constructor <;> linarith
  exact ⟨key _ _ _, key _ _ _, key _ _ _⟩

/-- When the box of a triangle overlaps the box of the wheel. -/
theorem TriangleGround.overlaps_iff {t : TriangleGround B64} (ht : t.Constructed) {v0 v1 v2 : V3 ℝ}
    (hv : HasCorners t.tri v0 v1 v2) {s : Shell B64} {c : V3 ℝ} {R : ℝ} (hc : IsDouble3 s.pose.trans c)
    (hR : IsDouble s.shape.rx R) (h0 : 0 ≤ R) :
    t.bbox.intersects s.updateBBox.bbox = true ↔
      ((Min.min v0.x (Min.min v1.x v2.x) ≤ B64.near (c.x + R) ∧ B64.near (c.x - R) ≤ Max.max v0.x (Max.max v1.x v2.x)) ∧
      (Min.min v0.y (Min.min v1.y v2.y) ≤ B64.near (c.y + R) ∧ B64.near (c.y - R) ≤ Max.max v0.y (Max.max v1.y v2.y)) ∧
      (Min.min v0.z (Min.min v1.z v2.z) ≤ B64.near (c.z + R) ∧ B64.near (c.z - R) ≤ Max.max v0.z (Max.max v1.z v2.z))) := by
  obtain ⟨-, e1, e2⟩ := Shell.updateBBox_b64 hc hR h0
  unfold Box.intersects
  rw [e1, e2, ht.bbox_eq]
  simp only [Box.clamp, Bool.and_eq_true, (hv.v0.x.min (hv.v1.x.min hv.v2.x)).le_round,
    (hv.v0.y.min (hv.v1.y.min hv.v2.y)).le_round, (hv.v0.z.min (hv.v1.z.min hv.v2.z)).le_round,
    (hv.v0.x.max (hv.v1.x.max hv.v2.x)).round_le, (hv.v0.y.max (hv.v1.y.max hv.v2.y)).round_le,
    (hv.v0.z.max (hv.v1.z.max hv.v2.z)).round_le]
  tauto

/-- **C97**: in the arithmetic of `double`, with a wheel of radius `R` at `c`: the search of the ground below the
wheel succeeds; it finds every triangle with a point in the exact cube with half side `R` around `c`; and the
coordinates of a triangle it finds come at least as close as a cube larger by the rounding error. -/
theorem C97_search (np : NumParse B64) (m : Mesh B64) (hm : m.Loaded np) (hv : FiniteMesh m) (s : Shell B64)
    (pose : Affine B64) {c : V3 ℝ} {R : ℝ} (hc : IsDouble3 pose.trans c) (hR : IsDouble s.shape.rx R) (h0 : 0 ≤ R) :
    ∃ loc, m.intersection (s.transform pose).updateBBox.bbox = .ok loc ∧
      (∀ t ∈ m.triangles, ∀ v0 v1 v2 p, HasCorners t.tri v0 v1 v2 → InTriangle v0 v1 v2 p → InCube c R p → t ∈ loc) ∧
      ∀ t ∈ loc, t ∈ m.triangles ∧ ∀ v0 v1 v2, HasCorners t.tri v0 v1 v2 →
        ∃ p, BetweenCorners v0 v1 v2 p ∧ InCube c (widened c R) p := by
  have hc' : IsDouble3 (s.transform pose).pose.trans c := hc
  have hR' : IsDouble (s.transform pose).shape.rx R := hR
  obtain ⟨hcons, hne⟩ := hm.consistent
  obtain ⟨loc, h1, h2⟩ := Mesh.intersection_spec OrderOn.b64 m hcons hv.verticesIn hne _
    (Shell.updateBBox_b64 hc' hR' h0).1
  have hmem : ∀ t, t ∈ loc ↔ t ∈ m.triangles ∧ t.bbox.intersects (s.transform pose).updateBBox.bbox = true := by
    intro t; rw [h2.mem_iff, List.mem_filter]
  refine ⟨loc, h1, ?_, ?_⟩
  · intro t ht v0 v1 v2 p hk hp hin
    rw [hmem, TriangleGround.overlaps_iff (hcons.constructed t ht) hk hc' hR' h0]
    obtain ⟨⟨a1, a2⟩, ⟨a3, a4⟩, a5, a6⟩ := hp.between
    simp only at a1 a2 a3 a4 a5 a6
    obtain ⟨i1, i2, i3⟩ := hin
    rw [abs_le] at i1 i2 i3
    refine ⟨ht, ⟨?_, ?_⟩, ⟨?_, ?_⟩, ?_, ?_⟩
    · exact B64.near_neg_le (hk.v0.x.min (hk.v1.x.min hk.v2.x)).rep (by linarith)
    · exact B64.near_le (hk.v0.x.max (hk.v1.x.max hk.v2.x)).rep (by linarith)
    · exact B64.near_neg_le (hk.v0.y.min (hk.v1.y.min hk.v2.y)).rep (by linarith)
    · exact B64.near_le (hk.v0.y.max (hk.v1.y.max hk.v2.y)).rep (by linarith)
    · exact B64.near_neg_le (hk.v0.z.min (hk.v1.z.min hk.v2.z)).rep (by linarith)
    · exact B64.near_le (hk.v0.z.max (hk.v1.z.max hk.v2.z)).rep (by linarith)
  · intro t ht
    obtain ⟨ht1, ht2⟩ := (hmem t).1 ht
    refine ⟨ht1, fun v0 v1 v2 hk => ?_⟩
    rw [TriangleGround.overlaps_iff (hcons.constructed t ht1) hk hc' hR' h0] at ht2
    have key : ∀ {k lo hi : ℝ}, lo ≤ hi → |k| ≤ Max.max |c.x| (Max.max |c.y| |c.z|) → lo ≤ B64.near (k + R) →
        B64.near (k - R) ≤ hi → ∃ x, (lo ≤ x ∧ x ≤ hi) ∧ |x - k| ≤ widened c R := by
      intro k lo hi hle hk b1 b2
      have hp : (0 : ℝ) < 2 ^ (-53 : ℤ) := by positivity
      have hp' : (0 : ℝ) < 2 ^ (-1075 : ℤ) := by positivity
      obtain ⟨M, hM⟩ : ∃ M, M = Max.max |c.x| (Max.max |c.y| |c.z|) := ⟨_, rfl⟩
      rw [← hM] at hk
      have hM0 : 0 ≤ M := (abs_nonneg k).trans hk
      have e1 := (abs_le.1 (B64.near_error (k + R))).2
      have e2 := (abs_le.1 (B64.near_error (k - R))).1
      have g1 : |k + R| ≤ M + R := (abs_add_le _ _).trans (by rw [abs_of_nonneg h0]; linarith)
      have g2 : |k - R| ≤ M + R := (abs_sub _ _).trans (by rw [abs_of_nonneg h0]; linarith)
      have f1 := mul_le_mul_of_nonneg_right g1 hp.le
      have f2 := mul_le_mul_of_nonneg_right g2 hp.le
      have hw : widened c R = R + (M + R) * 2 ^ (-53 : ℤ) + 2 ^ (-1075 : ℤ) := by rw [widened, ← hM]
      have hw0 : 0 ≤ widened c R := by rw [hw]; positivity
      refine ⟨Max.max lo (k - widened c R), ⟨le_max_left _ _, max_le hle (by rw [hw]; linarith)⟩, ?_⟩
      rw [abs_le]
      constructor
      · linarith [le_max_right lo (k - widened c R)]
      · rw [sub_le_iff_le_add]
        exact max_le (by rw [hw]; linarith) (by linarith)
    have hlo : ∀ x y z : ℝ, Min.min x (Min.min y z) ≤ Max.max x (Max.max y z) := fun x y z =>
      (min_le_left _ _).trans (le_max_left _ _)
    obtain ⟨x, x1, x2⟩ := key (hlo _ _ _) (le_max_left _ _) ht2.1.1 ht2.1.2
    obtain ⟨y, y1, y2⟩ := key (hlo _ _ _) ((le_max_left _ _).trans (le_max_right _ _)) ht2.2.1.1 ht2.2.1.2
    obtain ⟨z, z1, z2⟩ := key (hlo _ _ _) ((le_max_right _ _).trans (le_max_right _ _)) ht2.2.2.1 ht2.2.2.2
    exact ⟨⟨x, y, z⟩, ⟨x1, y1, z1⟩, x2, y2, z2⟩

/-- **C97**: in the arithmetic of `double`, after a setup on a mesh with a method other than "geometric", whether it
returns or throws, every triangle with a point in the exact cube around the wheel is a candidate of every rib. -/
theorem C97_candidates (np : NumParse B64) (m : Mesh B64) (hm : m.Loaded np) (hv : FiniteMesh m) (pol : Policy)
    (s s' : Shell B64) (hs : s.Reachable pol) (pose : Affine B64) (method : String) (hmeth : method ≠ "geometric")
    (hset : (∃ b, s.setupMesh pol m pose method = .ok s' b) ∨ ∃ e, s.setupMesh pol m pose method = .throw s' e)
    {c : V3 ℝ} {R : ℝ} (hc : IsDouble3 pose.trans c) (hR : IsDouble s.shape.rx R) (h0 : 0 ≤ R)
    (t : TriangleGround B64) (ht : t ∈ m.triangles) (v0 v1 v2 p : V3 ℝ) (hk : HasCorners t.tri v0 v1 v2)
    (hp : InTriangle v0 v1 v2 p) (hin : InCube c R p) (i : Nat) (hi : i < s'.ribs.length) :
    ∃ cands, s'.cands[i]? = some cands ∧ t ∈ cands := by
  obtain ⟨loc, h1, h2, -⟩ := C97_search np m hm hv s pose hc hR h0
  have hmem := h2 t ht v0 v1 v2 p hk hp hin
  rw [Shell.setupMesh_some hs.inv.cands h1 (List.ne_nil_of_mem hmem)] at hset
  have hrel : s'.ribs = s.ribs ∧ s'.cands = s.ribs.map (Shell.ribCandidates pose method loc) ++
      s.cands.drop s.ribs.length := by
    rcases hset with ⟨b, hset⟩ | ⟨e, hset⟩ <;> unfold Shell.withOut at hset <;> split at hset <;> cases hset <;>
      exact ⟨rfl, rfl⟩
  rw [hrel.1] at hi
  refine ⟨Shell.ribCandidates pose method loc s.ribs[i], ?_, ?_⟩
  · rw [hrel.2, List.getElem?_append_left (by rw [List.length_map]; exact hi), List.getElem?_map,
      List.getElem?_eq_getElem hi]
    rfl
  · rw [Shell.ribCandidates, List.mem_filter]
    have hr : Shell.refines method loc = false := by simp [Shell.refines, hmeth]
    rw [hr]
    exact ⟨hmem, rfl⟩

/-- **C97**: in the arithmetic of `double`, a sampling line misses the candidates exactly when it misses each of
them, and as long as the heights of the hits are not NaN it returns a hit that is not below any other. -/
theorem C97_highest (ts : List (TriangleGround B64)) (l : Line B64) :
    (Rib.samplingLineMesh ts l = none ↔ ∀ t ∈ ts, Inter.lineTriangle l t.tri Scalar.eps = none) ∧
    ∀ p f, Rib.samplingLineMesh ts l = some (p, f) →
      (∃ t ∈ ts, Inter.lineTriangle l t.tri Scalar.eps = some p ∧ t.friction = f) ∧
      ((∀ t ∈ ts, ∀ q, Inter.lineTriangle l t.tri Scalar.eps = some q → q.z.val ≠ .nan) →
        ∀ t ∈ ts, ∀ q, Inter.lineTriangle l t.tri Scalar.eps = some q → (q.z <=. p.z) = true) :=
  C28_highest_hit OrderOn.b64 ts l

/-! ## A wheel of radius 1 at (2, 0, 0) and the triangle with the corners (0, 0, 0), (1, 0, 0) and (0, 1, 0) -/

namespace DoubleDemo

noncomputable def num : NumParse B64 where
  stod
    | ['0'] => some (.fin 0)
    | ['1'] => some (.fin 1)
    | _ => none
  stoi
    | ['0'] => some 0
    | ['1'] => some 1
    | ['2'] => some 2
    | _ => none

theorem wl {l : List Char} {ws : List (List Char)} (h1 : ∀ c ∈ l, c ≠ '\t' ∧ c ≠ '\r' ∧ c ≠ '\n')
    (h2 : Text.split l = ws) : WordLine l ws := ⟨h1, (Text.words_iff l ws).2 h2⟩

theorem nres {w : List Char} (h : w.head? ≠ some '{' ∧ w.head? ≠ some '%' ∧
    w.head? ≠ some '#' ∧ w ≠ "[NODES]".toList ∧ w ≠ "NODES".toList ∧ w ≠ "[ELEMENTS]".toList ∧
    w ≠ "ELEMENTS".toList) : ¬ Reserved w := by
  simp only [Reserved, CommentWord, NodesWord, ElementsWord]
  tauto

theorem d0 : num.stod "0".toList = some (.fin 0) := rfl
theorem d1 : num.stod "1".toList = some (.fin 1) := rfl
theorem i0 : num.stoi "0".toList = some ((0 : Nat) : Int) := rfl
theorem i1 : num.stoi "1".toList = some ((1 : Nat) : Int) := rfl
theorem i2 : num.stoi "2".toList = some ((2 : Nat) : Int) := rfl

theorem text : RdfText num.stod num.stoi (fun f => (zero <=. f) = true)
    ["[NODES]".toList, "1 0 0 0".toList, "2 1 0 0".toList, "3 0 1 0".toList, "[ELEMENTS]".toList, "0 1 2 1".toList]
    [(.fin 0, .fin 0, .fin 0), (.fin 1, .fin 0, .fin 0), (.fin 0, .fin 1, .fin 0)] [(0, 1, 2, .fin 1)] where
  ex := ⟨[], [.node (.fin 0) (.fin 0) (.fin 0), .node (.fin 1) (.fin 0) (.fin 0), .node (.fin 0) (.fin 1) (.fin 0)],
    [.element 0 1 2 (.fin 1)],
    .cons (.nodes (wl (ws := ["[NODES]".toList]) (by decide) (by decide)) (Or.inl rfl))
    (.cons (.node (wl (ws := ["1".toList, "0".toList, "0".toList, "0".toList]) (by decide) (by decide))
      (nres (by decide)) d0 d0 d0)
    (.cons (.node (wl (ws := ["2".toList, "1".toList, "0".toList, "0".toList]) (by decide) (by decide))
      (nres (by decide)) d1 d0 d0)
    (.cons (.node (wl (ws := ["3".toList, "0".toList, "1".toList, "0".toList]) (by decide) (by decide))
      (nres (by decide)) d0 d1 d0)
    (.cons (.elements (wl (ws := ["[ELEMENTS]".toList]) (by decide) (by decide)) (Or.inl rfl))
    (.cons (.element (wl (ws := ["0".toList, "1".toList, "2".toList, "1".toList]) (by decide) (by decide))
      (nres (by decide)) i0 i1 i2 d1) .nil))))), by simp, by simp, by simp, rfl, rfl⟩
  range := by
    intro i j k f h
    simp at h
    obtain ⟨rfl, rfl, rfl, rfl⟩ := h
    simp [B64.zero_eq]
  ne := by simp

theorem isDouble (n : ℤ) (h : |n| < 2 ^ 53) : IsDouble (.fin n) n :=
  ⟨rfl, ⟨n, 0, by simp, h.le, by norm_num⟩, by
    have h1 : ((|n| : ℤ) : ℝ) < ((2 ^ 53 : ℤ) : ℝ) := by exact_mod_cast h
    calc |(n : ℝ)| = ((|n| : ℤ) : ℝ) := by push_cast; rfl
      _ < ((2 ^ 53 : ℤ) : ℝ) := h1
      _ = 2 ^ (53 : ℤ) := by norm_num
      _ < 2 ^ (1024 : ℤ) := zpow_lt_zpow_right₀ (by norm_num) (by norm_num)⟩

theorem is0 : IsDouble (.fin 0) 0 := by simpa using isDouble 0 (by norm_num)
theorem is1 : IsDouble (.fin 1) 1 := by simpa using isDouble 1 (by norm_num)
theorem is2 : IsDouble (.fin 2) 2 := by simpa using isDouble 2 (by norm_num)

theorem r0 : B64.round (.fin 0) = .fin 0 := B64.exact 0 0 (by norm_num) (by norm_num) (by norm_num) (by norm_num)
theorem r1 : B64.round (.fin 1) = .fin 1 := B64.exact 1 0 (by norm_num) (by norm_num) (by norm_num) (by norm_num)
theorem r2 : B64.round (.fin 2) = .fin 2 := B64.exact 2 0 (by norm_num) (by norm_num) (by norm_num) (by norm_num)
theorem rm2 : B64.round (.fin (-2)) = .fin (-2) :=
  B64.exact (-2) 0 (by norm_num) (by norm_num) (by norm_num) (by norm_num)

theorem two_eq : (Scalar.two : B64) = .fin 2 := by
  show B64.round (Scalar.lit 2 1) = _
  have : (Scalar.lit 2 1 : XR) = .fin 2 := by show XR.fin _ = _; norm_num
  rw [this, r2]

theorem nat1 : (Scalar.ofNat 1 : B64) = .fin 1 := by
  show B64.round (Scalar.lit 1 1) = _
  have : (Scalar.lit 1 1 : XR) = .fin 1 := by show XR.fin _ = _; norm_num
  rw [this, r1]

theorem neg_fin (x : ℝ) : -. (B64.fin x) = .fin (-x) := rfl
theorem eq_fin (x : ℝ) : (B64.fin x ==. B64.fin x) = true := by
  show decide (x = x) = true
  simp
theorem abs_fin (x : ℝ) : Scalar.abs (B64.fin x) = .fin |x| := by
  show B64.mk (Scalar.abs (XR.fin x)) = _; rw [XR.abs_fin]; rfl

/-- A pose that moves the hub to (2, 0, 0). -/
noncomputable def pose : Affine B64 := ⟨M3.id, ⟨.fin 2, .fin 0, .fin 0⟩⟩

theorem pow0 : Scalar.pow (B64.fin 0) (.fin 2) = .fin 0 := by
  show B64.round (Scalar.pow (XR.fin 0) (XR.fin 2)) = _
  have : Scalar.pow (XR.fin 0) (XR.fin 2) = .fin 0 := by
    rw [XR.pow_fin _ _ (.inr ⟨rfl, by norm_num⟩), Real.zero_rpow (by norm_num)]
  rw [this, r0]

theorem pow1 (y : ℝ) : Scalar.pow (B64.fin 1) (.fin y) = .fin 1 := by
  show B64.round (Scalar.pow (XR.fin 1) (XR.fin y)) = _
  rw [XR.one_pow, r1]

theorem atan0 : Scalar.atan (B64.fin 0) = .fin 0 := by
  show B64.round (Scalar.atan (XR.fin 0)) = _
  have : Scalar.atan (XR.fin 0) = .fin 0 := by
    simp [Scalar.atan, XR.partialFun]
  rw [this, r0]

/-- A shell with one rib of radius 1. -/
theorem shell (fresh : Nat → Output B64) :
    ∃ s, Shell.make fresh 1 (.fin 1) (.fin 1) (.fin 1) (.fin 2) (.fin 1) = .ok s ∧ s.shape.rx = .fin 1 ∧
      s.ribs = [Rib.make 0 (.fin 1) (.fin 0) (.fin 2) (.fin 0)] := by
  have heps : (Scalar.eps : B64) = .fin Scalar.eps := rfl
  have hp := real_eps_pos
  have hl : Shell.resizeLoop (⟨.fin 1, .fin 1, .fin 1, .fin 2, .fin 1⟩ : Shape B64) (.fin 2) 1 0 (.fin (-2)) [] =
      .ok [Rib.make 0 (.fin 1) (.fin 0) (.fin 2) (.fin 0)] () := by
    norm_num [Shell.resizeLoop, Shape.surfaceRadius, Shape.surfaceAngle, Shape.surfaceDerivative,
      Shape.checkWidthBound, r0, abs_fin, Res.assert, B64.div_fin, pow0, pow1, B64.one_eq, r1, B64.zero_eq, heps,
      not_lt.2 hp.le, atan0, eq_fin]
  have hr : ∀ s : Shell B64, s.shape = ⟨.fin 1, .fin 1, .fin 1, .fin 2, .fin 1⟩ →
      ∃ s', s.resize fresh 1 = .ok s' () ∧ s'.shape.rx = .fin 1 ∧
        s'.ribs = [Rib.make 0 (.fin 1) (.fin 0) (.fin 2) (.fin 0)] := by
    intro s hs
    have e : Shell.resize fresh s 1 = .ok { s with
        ribs := [Rib.make 0 (.fin 1) (.fin 0) (.fin 2) (.fin 0)], out := s.out.clearReserve fresh
        cands := List.replicate 1 [] } () := by
      unfold Shell.resize
      have e1 : (-. (B64.fin 1)) -. (B64.fin 2) /. two = .fin (-2) := by
        norm_num [two_eq, neg_fin, B64.div_fin, r1, rm2]
      have e2 : two *. (B64.fin 1) /. Scalar.ofNat 1 = .fin 2 := by
        norm_num [two_eq, nat1, B64.div_fin, r2]
      rw [if_neg one_ne_zero]
      dsimp only [Shape.surfaceMaxWidth]
      rw [hs]
      dsimp only
      rw [e2, e1, hl]
    exact ⟨_, e, by rw [hs], rfl⟩
  obtain ⟨s', h1, h2, h3⟩ := hr ⟨Affine.id, ⟨.fin 1, .fin 1, .fin 1, .fin 2, .fin 1⟩, Box.default, [],
    RecVec.init fresh, []⟩ rfl
  refine ⟨s'.updateBBox, ?_, h2, h3⟩
  unfold Shell.make
  dsimp only
  rw [h1]

/-- The triangle is found, and is a candidate of the rib after a setup: the corner (1, 0, 0) lies on the surface of
the cube around the wheel. -/
example (fresh : Nat → Output B64) : ∃ (m : Mesh B64) (s : Shell B64) (t : TriangleGround B64) (s' : Shell B64),
    m.Loaded num ∧ FiniteMesh m ∧ s.Reachable .raw ∧ IsDouble3 pose.trans ⟨2, 0, 0⟩ ∧ IsDouble s.shape.rx 1 ∧
    t ∈ m.triangles ∧ ((∃ b, s.setupMesh .raw m pose "sampling" = .ok s' b) ∨
      ∃ e, s.setupMesh .raw m pose "sampling" = .throw s' e) ∧
    (0 < s'.ribs.length → ∃ cands, s'.cands[0]? = some cands ∧ t ∈ cands) := by
  obtain ⟨m, -, h1, hlen, h3⟩ := C19_rdf_load num "a".toList _ Affine.id _ _ text
  have hl : m.Loaded num := .inl ⟨_, _, _, h1⟩
  obtain ⟨t, p, q, r, e1, e2, e3, e4, -, -, e5, e6, e7⟩ := h3 0 0 1 2 (.fin 1) rfl
  have ht : t ∈ m.triangles := List.mem_of_getElem? e1
  simp only [List.getElem?_cons_zero, List.getElem?_cons_succ, Option.some.injEq] at e2 e3 e4
  subst e2 e3 e4
  have happ : ∀ x y : ℝ, (x = 0 ∨ x = 1) → (y = 0 ∨ y = 1) →
      (Affine.id : Affine B64).apply ⟨.fin x, .fin y, .fin 0⟩ = ⟨.fin x, .fin y, .fin 0⟩ := by
    rintro x y (rfl | rfl) (rfl | rfl) <;>
    norm_num [Affine.apply, Affine.id, M3.mulVec, M3.id, V3.ex, V3.ey, V3.ez, V3.add, V3.zeros, B64.zero_eq,
      B64.one_eq, r0, r1]
  have hk : HasCorners t.tri ⟨0, 0, 0⟩ ⟨1, 0, 0⟩ ⟨0, 1, 0⟩ := by
    constructor
    · rw [e5, happ 0 0 (by simp) (by simp)]; exact ⟨is0, is0, is0⟩
    · rw [e6, happ 1 0 (by simp) (by simp)]; exact ⟨is1, is0, is0⟩
    · rw [e7, happ 0 1 (by simp) (by simp)]; exact ⟨is0, is1, is0⟩
  have hf : FiniteMesh m := by
    intro t' ht'
    obtain ⟨i, hi, rfl⟩ := List.getElem_of_mem ht'
    have : i = 0 := by simp only [hlen, List.length_cons, List.length_nil] at hi; omega
    subst this
    have e : m.triangles[0] = t := by
      have := List.getElem?_eq_getElem hi
      rw [this] at e1; exact Option.some.inj e1
    rw [e]
    exact ⟨_, _, _, hk⟩
  obtain ⟨s, hs, hrx, hsz⟩ := shell fresh
  have hub := C06_mesh_setup_partial num s (.make hs) (by show s.ribs.length ≤ 200; rw [hsz]; simp) m hl pose "sampling"
  have hc : IsDouble3 pose.trans ⟨2, 0, 0⟩ := ⟨is2, is0, is0⟩
  have hR : IsDouble s.shape.rx 1 := by rw [hrx]; exact is1
  have hout : ∃ s', (∃ b, s.setupMesh .raw m pose "sampling" = .ok s' b) ∨
      ∃ e, s.setupMesh .raw m pose "sampling" = .throw s' e := by
    cases h : s.setupMesh .raw m pose "sampling" with
    | ok s' b => exact ⟨s', .inl ⟨b, rfl⟩⟩
    | throw s' e => exact ⟨s', .inr ⟨e, rfl⟩⟩
    | ub w => rw [h] at hub; cases hub
  obtain ⟨s', hset⟩ := hout
  refine ⟨m, s, t, s', hl, hf, .make hs, hc, hR, ht, hset, fun hi => ?_⟩
  exact C97_candidates num m hl hf .raw s s' (.make hs) pose "sampling" (by decide) hset hc hR zero_le_one t ht _ _ _
    ⟨1, 0, 0⟩ hk ⟨0, 1, 0, by norm_num, by norm_num, by norm_num, by norm_num, by norm_num⟩
    ⟨by norm_num, by norm_num, by norm_num⟩ 0 hi

end DoubleDemo

end Enve
