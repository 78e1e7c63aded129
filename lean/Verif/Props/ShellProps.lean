import Verif.Lemmas.Shell
import Verif.Lemmas.RealVec
import Verif.Props.ShapeProps
import Verif.Spec.Box

/-! # The shell: ribs, pose and bounding box (C04, C05, C07, C08, C09, C10, C57) -/

namespace Enve
open Scalar Spec

/-! ## C04: ribs -/

namespace Shape

theorem radius_pos {s : Shape ℝ} (hv : s.Valid) {y : ℝ} (h : |y| < s.ly) :
    0 < s.rx * (1 - (|y| / s.ry) ^ s.my) ^ (1 / s.mx) := by
  have h1 : |y| / s.ry < 1 := (div_lt_one hv.ry_pos).mpr (h.trans_le hv.ly_le)
  have h2 := Real.rpow_lt_one (div_nonneg (abs_nonneg y) hv.ry_pos.le) h1 hv.my_pos
  exact mul_pos hv.rx_pos (Real.rpow_pos_of_pos (by linarith) _)

theorem surfaceAngle_ok {s : Shape ℝ} {y tol : ℝ} (h : |y| ≤ s.ly) :
    ∃ a, s.surfaceAngle y tol = .ok a := by
  rw [surfaceAngle, surfaceDerivative_ok h]
  exact ⟨_, rfl⟩

end Shape

namespace Shell

/-- On a valid profile the loop returns, and rib `j` is centred `j + 1` widths from the start. -/
theorem resizeLoop_valid {sh : Shape ℝ} (hv : sh.Valid) {w : ℝ} (k i : Nat) (y : ℝ)
    (acc : List (Rib ℝ)) (hy : ∀ j : ℕ, j < k → |y + (j + 1) * w| < sh.ly) :
    ∃ new : List (Rib ℝ), resizeLoop sh w k i y acc = .ok (acc ++ new) () ∧ new.length = k ∧
      ∀ (j : Nat) r, new[j]? = some r → ∃ rad a, sh.surfaceRadius (y + (j + 1) * w) = .ok rad ∧
        sh.surfaceAngle (y + (j + 1) * w) Scalar.eps = .ok a ∧
        r = Rib.make ((i + j : ℕ) : Int) rad (y + (j + 1) * w) w a := by
  induction k generalizing i y acc with
  | zero => exact ⟨[], by simp [resizeLoop], rfl, by simp⟩
  | succ k ih =>
    have h0 := hy 0 (Nat.succ_pos k)
    simp only [Nat.cast_zero, zero_add, one_mul] at h0
    have hr := Shape.surfaceRadius_ok h0.le
    obtain ⟨a, ha⟩ := Shape.surfaceAngle_ok (tol := Scalar.eps) h0.le
    have hpos := Shape.radius_pos hv h0
    obtain ⟨new, e1, e2, e3⟩ := ih (i + 1) (y + w)
      (acc ++ [Rib.make (i : Int) (sh.rx * (1 - (|y + w| / sh.ry) ^ sh.my) ^ (1 / sh.mx)) (y + w) w a])
      (by
        intro j hj
        have := hy (j + 1) (by omega)
        push_cast at this
        rwa [show y + w + (j + 1) * w = y + (j + 1 + 1) * w by ring])
    refine ⟨Rib.make (i : Int) (sh.rx * (1 - (|y + w| / sh.ry) ^ sh.my) ^ (1 / sh.mx)) (y + w) w a :: new,
      ?_, by simp [e2], ?_⟩
    · rw [resizeLoop]
      simp only [real_add, hr, ha, Res.bind_ok, real_lt, real_zero, real_eq, hpos, decide_true,
        Res.assert_true, Res.pure_eq]
      rw [e1]
      simp
    · intro j r hj
      cases j with
      | zero =>
        simp only [List.getElem?_cons_zero, Option.some.injEq] at hj
        subst hj
        refine ⟨sh.rx * (1 - (|y + w| / sh.ry) ^ sh.my) ^ (1 / sh.mx), a, ?_, ?_, ?_⟩
        · simpa using hr
        · simpa using ha
        · simp
      | succ j =>
        simp only [List.getElem?_cons_succ] at hj
        obtain ⟨rad, a', f1, f2, f3⟩ := e3 j r hj
        rw [show y + w + (j + 1) * w = y + ((j + 1 : ℕ) + 1) * w by push_cast; ring] at f1 f2 f3
        refine ⟨rad, a', f1, f2, ?_⟩
        rw [f3]
        congr 1
        push_cast; ring

theorem real_centre {ly : ℝ} {n : Nat} (hn : n ≠ 0) (j : ℕ) :
    -ly - 2 * ly / n / 2 + (j + 1) * (2 * ly / n) = -ly + (2 * j + 1) * ly / n := by
  have : (n : ℝ) ≠ 0 := by exact_mod_cast hn
  field_simp
  ring

theorem real_centre_abs {ly : ℝ} (hly : 0 < ly) {n j : Nat} (hj : j < n) :
    |-ly + (2 * j + 1) * ly / n| < ly := by
  have hn : (0 : ℝ) < n := by exact_mod_cast (Nat.zero_lt_of_lt hj)
  have hj' : (j : ℝ) + 1 ≤ n := by exact_mod_cast hj
  have h1 : 0 < (2 * (j : ℝ) + 1) * ly / n := by positivity
  have h2 : (2 * (j : ℝ) + 1) * ly / n < 2 * ly := by
    rw [div_lt_iff₀ hn]
    nlinarith
  rw [abs_lt]
  constructor <;> linarith

end Shell

/-- **C04.**  On a valid profile, `resize(n)` with `n ≥ 1` succeeds and leaves exactly `n` ribs; rib
`i` is centred on the y axis at `-Ly + (2i+1)·Ly/n`, has width `2·Ly/n`, the (positive) radius of the
profile at its centre, and the profile's angle there. -/
theorem C04_resize_ribs (fresh : Nat → Output ℝ) (s : Shell ℝ) (hv : s.shape.Valid) (n : Nat)
    (hn : 1 ≤ n) :
    ∃ s', s.resize fresh n = .ok s' () ∧ s'.size = n ∧ s'.shape = s.shape ∧
      ∀ i < n, ∃ r a : ℝ, 0 < r ∧
        s'.ribCenter i = .ok ⟨0, -s.shape.ly + (2 * i + 1) * s.shape.ly / n, 0⟩ ∧
        s'.ribWidth i = .ok (2 * s.shape.ly / n) ∧
        s'.ribRadius i = .ok r ∧
        OnProfile s.shape.rx s.shape.mx s.shape.ry s.shape.my
          (-s.shape.ly + (2 * i + 1) * s.shape.ly / n) r ∧
        s'.ribAngle i = .ok a ∧
        s.shape.surfaceAngle (-s.shape.ly + (2 * i + 1) * s.shape.ly / n) Scalar.eps = .ok a := by
  have hn0 : n ≠ 0 := by omega
  obtain ⟨new, e1, e2, e3⟩ := Shell.resizeLoop_valid hv (w := 2 * s.shape.ly / n) n 0
    (-s.shape.ly - 2 * s.shape.ly / n / 2) [] (by
      intro j hj
      rw [Shell.real_centre hn0]
      exact Shell.real_centre_abs hv.ly_pos hj)
  simp only [List.nil_append, Shell.real_centre hn0, Nat.zero_add] at e1 e3
  refine ⟨{ s with ribs := new, out := s.out.clearReserve fresh, cands := List.replicate n [] },
    ?_, e2, rfl, ?_⟩
  · unfold Shell.resize
    simp only [if_neg hn0, real_two, real_mul, real_div, real_ofNat, real_neg, real_sub,
      Shape.surfaceMaxWidth, e1]
  · intro i hi
    obtain ⟨rib, hrib⟩ : ∃ r, new[i]? = some r := ⟨_, List.getElem?_eq_getElem (e2 ▸ hi)⟩
    obtain ⟨rad, a, f1, f2, rfl⟩ := e3 i rib hrib
    have hc := Shell.real_centre_abs hv.ly_pos hi
    obtain ⟨c1, -⟩ := C01_profile_radius s.shape hv
    obtain ⟨rad', g1, -, -, g4⟩ := c1 _ hc.le
    rw [f1] at g1
    cases g1
    refine ⟨rad, a, ?_, ?_, ?_, ?_, (g4 rad).1 rfl, ?_, f2⟩
    · rw [Shape.surfaceRadius_ok hc.le] at f1
      rw [← Res.ok.inj f1]
      exact Shape.radius_pos hv hc
    · simp [Shell.ribCenter, Shell.ribAt, hrib, Rib.center, Disk.center, Rib.make]
    · simp [Shell.ribWidth, Shell.ribAt, hrib, Rib.make]
    · simp [Shell.ribRadius, Shell.ribAt, hrib, Rib.make, Rib.radius]
    · simp [Shell.ribAngle, Shell.ribAt, hrib, Rib.make]

/-- **C04, tiling.**  With the centres and widths of `C04_resize_ribs`: the first rib starts at `-Ly`,
consecutive ribs share an edge, the last ends at `Ly`; ribs `i` and `n-1-i` are mirror images, with
the same radius. -/
theorem C04_ribs_tile_width (fresh : Nat → Output ℝ) (s : Shell ℝ) (hv : s.shape.Valid) (n : Nat)
    (hn : 1 ≤ n) :
    ∃ (s' : Shell ℝ) (y w : ℕ → ℝ) (r : ℕ → ℝ), s.resize fresh n = .ok s' () ∧ s'.size = n ∧
      (∀ i < n, s'.ribCenter i = .ok ⟨0, y i, 0⟩ ∧ s'.ribWidth i = .ok (w i) ∧
        s'.ribRadius i = .ok (r i)) ∧
      y 0 - w 0 / 2 = -s.shape.ly ∧
      (∀ i, i + 1 < n → y i + w i / 2 = y (i + 1) - w (i + 1) / 2) ∧
      y (n - 1) + w (n - 1) / 2 = s.shape.ly ∧
      ∀ i < n, y (n - 1 - i) = -y i ∧ w (n - 1 - i) = w i ∧ r (n - 1 - i) = r i := by
  obtain ⟨s', h1, h2, -, h4⟩ := C04_resize_ribs fresh s hv n hn
  have hnr : (n : ℝ) ≠ 0 := by exact_mod_cast (show n ≠ 0 by omega)
  have mir : ∀ i, i < n → -s.shape.ly + (2 * ((n - 1 - i : ℕ) : ℝ) + 1) * s.shape.ly / n =
      -(-s.shape.ly + (2 * (i : ℝ) + 1) * s.shape.ly / n) := by
    intro i hi
    have : ((n - 1 - i : ℕ) : ℝ) = n - 1 - i := by
      rw [Nat.cast_sub (by omega), Nat.cast_sub (by omega)]; simp
    rw [this]
    field_simp
    ring
  choose! r a hr using h4
  refine ⟨s', fun i => -s.shape.ly + (2 * i + 1) * s.shape.ly / n, fun _ => 2 * s.shape.ly / n,
    r, h1, h2, fun i hi => ⟨(hr i hi).2.1, (hr i hi).2.2.1, (hr i hi).2.2.2.1⟩, ?_, ?_, ?_, ?_⟩
  · simp only [Nat.cast_zero]
    ring
  · intro i _
    push_cast
    ring
  · have : ((n - 1 : ℕ) : ℝ) = n - 1 := by rw [Nat.cast_sub hn]; simp
    simp only [this]
    field_simp
    ring
  · intro i hi
    refine ⟨mir i hi, rfl, ?_⟩
    have hi' : n - 1 - i < n := by omega
    have p1 := (hr i hi).2.2.2.2.1
    have p2 := (hr _ hi').2.2.2.2.1
    rw [mir i hi] at p2
    have hc := Shell.real_centre_abs hv.ly_pos hi
    obtain ⟨c1, -⟩ := C01_profile_radius s.shape hv
    obtain ⟨rad, -, -, -, g4⟩ := c1 _ hc.le
    have q1 := (g4 (r i)).2 p1
    have q2 := (g4 (r (n - 1 - i))).2 (by rwa [OnProfile, abs_neg] at p2)
    rw [q1, q2]

/-- **C04, construction.**  A new shell on a valid profile has the ribs of `C04_resize_ribs`, sits at
the identity pose, and its box is the cube of half extent `Rx` around the origin. -/
theorem C04_construct (fresh : Nat → Output ℝ) (n : Nat) (hn : 1 ≤ n) (rx mx ry my ly : ℝ)
    (hv : ValidProfile rx mx ry my ly) :
    ∃ s, Shell.make fresh n rx mx ry my ly = .ok s ∧ s.size = n ∧ s.pose = Affine.id ∧
      s.shape = ⟨rx, mx, ry, my, ly⟩ ∧
      (∀ i < n, ∃ r, 0 < r ∧ s.ribCenter i = .ok ⟨0, -ly + (2 * i + 1) * ly / n, 0⟩ ∧
        s.ribWidth i = .ok (2 * ly / n) ∧ s.ribRadius i = .ok r ∧
        OnProfile rx mx ry my (-ly + (2 * i + 1) * ly / n) r) ∧
      s.bbox.min = ⟨-rx, -rx, -rx⟩ ∧ s.bbox.max = ⟨rx, rx, rx⟩ := by
  have hrx := hv.rx_pos
  obtain ⟨s', h1, h2, h3, h4⟩ := C04_resize_ribs fresh
    ⟨Affine.id, ⟨rx, mx, ry, my, ly⟩, Box.default, [], RecVec.init fresh, []⟩ hv n hn
  have hp := (Shell.resize_ok h1).1.pose
  have hle : ¬ rx < -rx := by linarith
  refine ⟨s'.updateBBox, by simp [Shell.make, h1], h2, hp, h3, ?_, ?_, ?_⟩
  · intro i hi
    obtain ⟨r, a, g1, g2, g3, g4, g5, -⟩ := h4 i hi
    exact ⟨r, g1, g2, g3, g4, g5⟩
  · simp [Shell.updateBBox, hp, h3, Box.updateMaxMin, Box.order1, Shape.surfaceMaxRadius, Affine.id,
      V3.zeros, V3.real_sub, V3.real_add, hle]
  · simp [Shell.updateBBox, hp, h3, Box.updateMaxMin, Box.order1, Shape.surfaceMaxRadius, Affine.id,
      V3.zeros, V3.real_sub, V3.real_add, hle]

/-- Shells exist: 25 ribs on a realistic profile. -/
example : ∃ s : Shell ℝ, Shell.make (fun _ => Output.default) 25 (1/2) 4 (1/4) 2 (1/8) = .ok s ∧
    s.size = 25 := by
  obtain ⟨s, h1, h2, -⟩ := C04_construct (fun _ => Output.default) 25 (by norm_num) (1/2) 4 (1/4) 2
    (1/8) ⟨by norm_num, by norm_num, by norm_num, by norm_num, by norm_num, by norm_num⟩
  exact ⟨s, h1, h2⟩

/-! ## C05, C57: failing resizes -/

/-- **C05.**  For every scalar type: `resize(0)` raises an error and leaves the whole shell
unchanged; constructing a shell with no ribs raises an error. -/
theorem C05_resize_zero {α : Type} [Scalar α] (fresh : Nat → Output α) (s : Shell α) :
    (∃ e, s.resize fresh 0 = .throw s e) ∧
    ∀ rx mx ry my ly : α, (Shell.make fresh 0 rx mx ry my ly).isThrow = true :=
  ⟨⟨_, rfl⟩, fun _ _ _ _ _ => rfl⟩

namespace Shell

theorem resizeLoop_step {sh : Shape ℝ} {w y r a : ℝ} (hr : sh.surfaceRadius (y + w) = .ok r)
    (ha : sh.surfaceAngle (y + w) Scalar.eps = .ok a) (k i : Nat) (acc : List (Rib ℝ)) :
    resizeLoop sh w (k + 1) i y acc =
      if 0 < r then resizeLoop sh w k (i + 1) (y + w) (acc ++ [Rib.make i r (y + w) w a])
      else .throw acc "negative rib radius detected." := by
  rw [resizeLoop]
  simp only [real_add, hr, ha, Res.bind_ok, real_lt, real_zero, real_eq, decide_true,
    Res.assert_true, Res.pure_eq]
  by_cases h : 0 < r <;> simp [h]

end Shell

/-- **C57 is false.**  On the profile with `My = -1` a shell with two ribs can be constructed, but
`resize(4)` on it raises an error after one rib has been built: the shell is left with exactly one
of its four ribs. -/
theorem C57_failed_resize_refuted (fresh : Nat → Output ℝ) :
    ∃ (s s' : Shell ℝ) (e : String), Shell.make fresh 2 1 1 1 (-1) 3 = .ok s ∧ s.size = 2 ∧
      s.resize fresh 4 = .throw s' e ∧ s'.size = 1 := by
  have rad : ∀ y : ℝ, |y| ≤ 3 →
      (⟨1, 1, 1, -1, 3⟩ : Shape ℝ).surfaceRadius y = .ok (1 - |y|⁻¹) := by
    intro y hy
    rw [Shape.surfaceRadius_ok (s := ⟨1, 1, 1, -1, 3⟩) hy]
    simp [Real.rpow_neg_one]
  have ang : ∀ y : ℝ, |y| ≤ 3 →
      ∃ a, (⟨1, 1, 1, -1, 3⟩ : Shape ℝ).surfaceAngle y Scalar.eps = .ok a :=
    fun y hy => Shape.surfaceAngle_ok (s := ⟨1, 1, 1, -1, 3⟩) hy
  have step : ∀ (k i : Nat) (y w : ℝ) (acc : List (Rib ℝ)), |y + w| ≤ 3 →
      ∃ a, Shell.resizeLoop ⟨1, 1, 1, -1, 3⟩ w (k + 1) i y acc =
        if 0 < 1 - |y + w|⁻¹ then Shell.resizeLoop ⟨1, 1, 1, -1, 3⟩ w k (i + 1) (y + w)
          (acc ++ [Rib.make i (1 - |y + w|⁻¹) (y + w) w a])
        else .throw acc "negative rib radius detected." := by
    intro k i y w acc h
    obtain ⟨a, ha⟩ := ang _ h
    exact ⟨a, Shell.resizeLoop_step (rad _ h) ha k i acc⟩
  have b1 : |(-(9/2) + 3 : ℝ)| = 3/2 := by norm_num [abs_of_neg]
  have b2 : |(-(3/2) + 3 : ℝ)| = 3/2 := by norm_num [abs_of_pos]
  have b3 : |(-(15/4) + 3/2 : ℝ)| = 9/4 := by norm_num [abs_of_neg]
  have b4 : |(-(9/4) + 3/2 : ℝ)| = 3/4 := by norm_num [abs_of_neg]
  -- construction with two ribs
  obtain ⟨a1, s1⟩ := step 1 0 (-(9/2)) 3 [] (by rw [b1]; norm_num)
  rw [b1, if_pos (by norm_num), show (-(9/2) + 3 : ℝ) = -(3/2) by norm_num] at s1
  obtain ⟨a2, s2⟩ := step 0 1 (-(3/2)) 3
    ([] ++ [Rib.make (0 : ℕ) (1 - (3/2 : ℝ)⁻¹) (-(3/2)) 3 a1]) (by rw [b2]; norm_num)
  rw [b2, if_pos (by norm_num), Shell.resizeLoop] at s2
  rw [s2] at s1
  -- the failing resize
  obtain ⟨a3, s3⟩ := step 3 0 (-(15/4)) (3/2) [] (by rw [b3]; norm_num)
  rw [b3, if_pos (by norm_num), show (-(15/4) + 3/2 : ℝ) = -(9/4) by norm_num] at s3
  obtain ⟨a4, s4⟩ := step 2 1 (-(9/4)) (3/2)
    ([] ++ [Rib.make (0 : ℕ) (1 - (9/4 : ℝ)⁻¹) (-(9/4)) (3/2) a3]) (by rw [b4]; norm_num)
  rw [b4, if_neg (by norm_num)] at s4
  rw [s4] at s3
  have mk : ∃ s, Shell.make fresh 2 1 1 1 (-1) 3 = .ok s ∧ s.size = 2 ∧
      s.shape = ⟨1, 1, 1, -1, 3⟩ := by
    unfold Shell.make Shell.resize
    simp only [Shape.surfaceMaxWidth, real_two, real_mul, real_div, real_ofNat, real_neg, real_sub,
      Nat.cast_ofNat]
    rw [show (2 * 3 / 2 : ℝ) = 3 by norm_num, show (-3 - 3 / 2 : ℝ) = -(9/2) by norm_num, s1]
    exact ⟨_, rfl, rfl, rfl⟩
  obtain ⟨s, h1, h2, h3⟩ := mk
  have rs : ∃ s' e, s.resize fresh 4 = .throw s' e ∧ s'.size = 1 := by
    unfold Shell.resize
    simp only [Shape.surfaceMaxWidth, real_two, real_mul, real_div, real_ofNat, real_neg, real_sub,
      Nat.cast_ofNat, h3]
    rw [show (2 * 3 / 4 : ℝ) = 3/2 by norm_num, show (-3 - 3 / 2 / 2 : ℝ) = -(15/4) by norm_num, s3]
    exact ⟨_, _, rfl, rfl⟩
  obtain ⟨s', e, h4, h5⟩ := rs
  exact ⟨s, s', e, h1, h2, h4, h5⟩

/-- **C57 (partial).**  For every scalar type: a resize that raises an error leaves fewer than the
requested number of ribs, each of them well formed, and does not touch pose, shape and box; and it
never has undefined behaviour.  (Missing: the ribs that were there before are lost and the ribs built
before the error are kept.) -/
theorem C57_failed_resize_partial {α : Type} [Scalar α] (fresh : Nat → Output α) (s s' : Shell α)
    (n : Nat) (e : String) (h : s.resize fresh n = .throw s' e) :
    s'.pose = s.pose ∧ s'.shape = s.shape ∧ s'.bbox = s.bbox ∧ (n = 0 → s' = s) ∧
    (n ≠ 0 → s'.size < n ∧ ∃ w : α, ∀ i < s'.size, ∃ radius y angle,
      s'.ribAt i = .ok (Rib.make i radius y w angle)) := by
  rcases Shell.resize_throw h with ⟨rfl, rfl⟩ | ⟨h1, h2⟩
  · exact ⟨rfl, rfl, rfl, fun _ => rfl, fun h => absurd rfl h⟩
  · refine ⟨h1.pose, h1.shape, h1.bbox, fun h0 => ?_, fun _ => ⟨h2, ?_⟩⟩
    · subst h0; exact absurd h2 (Nat.not_lt_zero _)
    · obtain ⟨w, hw⟩ := h1.ribs
      refine ⟨w, fun i hi => ?_⟩
      have hi' : s'.ribs[i]? = some s'.ribs[i] := List.getElem?_eq_getElem hi
      obtain ⟨radius, y, angle, e⟩ := hw i _ hi'
      exact ⟨radius, y, angle, by rw [Shell.ribAt, hi']; simp [e]⟩

/-- On valid profiles `resize(n)` fails only for `n = 0`, which leaves the shell as it was. -/
theorem C57_valid_profile_partial (fresh : Nat → Output ℝ) (s s' : Shell ℝ) (hv : s.shape.Valid)
    (n : Nat) (e : String) (h : s.resize fresh n = .throw s' e) : n = 0 ∧ s' = s := by
  rcases Nat.eq_zero_or_pos n with rfl | hn
  · rcases Shell.resize_throw h with ⟨-, h⟩ | ⟨-, h⟩
    · exact ⟨rfl, h⟩
    · exact absurd h (Nat.not_lt_zero _)
  · obtain ⟨s'', h1, -⟩ := C04_resize_ribs fresh s hv n hn
    rw [h1] at h
    cases h

/-! ## C07, C08: the pose -/

/-- **C07 is false.**  Whatever the pose, `transform` stores it and returns normally, and so does
`setup` on a flat ground (for any number of ribs whose records can be stored): the scaling by `2`,
the zero matrix and NaNs included. -/
theorem C07_pose_not_checked_refuted {α : Type} [Scalar α] (s : Shell α) (pose : Affine α) :
    (s.transform pose).pose = pose ∧
    ∀ (ground : Flat α) (s' : Shell α) (method : String) (b : Bool) (pol : Policy),
      s.setupFlat pol ground pose method = .ok s' b → s'.pose = pose :=
  ⟨rfl, fun _ _ _ b _ h => (Shell.setupFlat_rel (.inl ⟨b, h⟩)).pose⟩

/-- The check itself, on exact reals: `checkTransformation` accepts every matrix whose determinant is
within the tolerance of one; it accepts all rigid poses, but also non-rigid ones (a shear). -/
theorem C07_check_accepts_shear_refuted :
    (∀ (p : Affine ℝ) (tol : ℝ), 0 < tol → IsRigid p → Shell.checkTransformation p tol = true) ∧
    ∃ p : Affine ℝ, ¬ IsRigid p ∧ ∀ tol : ℝ, 0 < tol → Shell.checkTransformation p tol = true := by
  constructor
  · intro p tol ht hp
    have : M3.det p.linear = 1 := by
      rw [M3.det, V3.real_cross, V3.real_dot]
      linear_combination hp.det
    simp [Shell.checkTransformation, this, ht]
  · refine ⟨⟨⟨⟨1, 0, 0⟩, ⟨5, 1, 0⟩, ⟨0, 0, 1⟩⟩, ⟨0, 0, 0⟩⟩, fun h => ?_, fun tol ht => ?_⟩
    · have := h.orth01; norm_num at this
    · simp [Shell.checkTransformation, M3.det, V3.real_cross, V3.real_dot, ht]

/-- Rodrigues' formula gives a rotation when the axis has unit length. -/
theorem Spec.isRotation_angleAxis (angle : ℝ) (u : V3 ℝ) (h : length3 u = 1) :
    IsRotation (M3.ofAngleAxis angle u) := by
  rw [length3, Real.sqrt_eq_one] at h
  have hs := Real.sin_sq_add_cos_sq angle
  obtain ⟨x, y, z⟩ := u
  simp only at h
  set c := Real.cos angle
  set s := Real.sin angle
  constructor <;>
    simp only [M3.ofAngleAxis, real_add, real_sub, real_mul, real_one, real_cos, real_sin]
  · linear_combination ((1 - c) ^ 2 * x ^ 2 + (1 - c ^ 2)) * h + (y ^ 2 + z ^ 2) * hs
  · linear_combination ((1 - c) ^ 2 * y ^ 2 + (1 - c ^ 2)) * h + (x ^ 2 + z ^ 2) * hs
  · linear_combination ((1 - c) ^ 2 * z ^ 2 + (1 - c ^ 2)) * h + (x ^ 2 + y ^ 2) * hs
  · linear_combination ((1 - c) ^ 2 * x * y) * h - (x * y) * hs
  · linear_combination ((1 - c) ^ 2 * x * z) * h - (x * z) * hs
  · linear_combination ((1 - c) ^ 2 * y * z) * h - (y * z) * hs
  · linear_combination ((1 - c) * (c ^ 2 + s ^ 2 * (x ^ 2 + y ^ 2 + z ^ 2)) + s ^ 2) * h + hs

/-- **C08.**  After any history in which the poses given by the caller are rigid and the rotation axes
have unit length, the pose of the shell is rigid: its linear part is orthonormal with determinant
one, and distances between points of the tyre are preserved. -/
theorem C08_pose_stays_rigid (pol : Policy) (s : Shell ℝ) (h : s.RigidHistory pol) :
    IsRigid s.pose ∧ ∀ p q, dist3 (s.pose.apply p) (s.pose.apply q) = dist3 p q := by
  have key : IsRigid s.pose := by
    induction h with
    | make h =>
      obtain ⟨s0, s1, rfl, hr, rfl⟩ := Shell.make_ok h
      have := (Shell.resize_ok hr).1.pose
      show IsRigid s1.pose
      rw [this]
      exact isRotation_id
    | resize _ h ih =>
      rcases h with h | ⟨e, h⟩
      · rw [(Shell.resize_ok h).1.pose]; exact ih
      · rcases Shell.resize_throw h with ⟨-, rfl⟩ | ⟨h1, -⟩
        · exact ih
        · rw [h1.pose]; exact ih
    | translate v _ ih => exact ih
    | rotate a u hu _ ih => exact IsRotation.mul ih (isRotation_angleAxis a u hu)
    | transform p hp _ ih => exact hp
    | updateBBox _ ih => exact ih
    | setupMesh hp _ h ih =>
      rw [(Shell.setupMesh_rel (h.imp (fun h => ⟨_, h⟩) id)).pose]; exact hp
    | setupFlat hp _ h ih =>
      rw [(Shell.setupFlat_rel (h.imp (fun h => ⟨_, h⟩) id)).pose]; exact hp
  refine ⟨key, fun p q => ?_⟩
  rw [← V3.norm_sub, ← V3.norm_sub]
  have : V3.sub (s.pose.apply p) (s.pose.apply q) = M3.mulVec s.pose.linear (V3.sub p q) := by
    ext <;> v3 <;> ring
  rw [this, IsRotation.norm_mulVec key]

/-- A history with all kinds of pose operations. -/
example : ∃ s : Shell ℝ, s.RigidHistory .raw ∧ s.pose.trans = ⟨1, 2, 3⟩ := by
  obtain ⟨s, h1, -, h3, -⟩ := C04_construct (fun _ => Output.default) 25 (by norm_num) (1/2) 4 (1/4) 2
    (1/8) ⟨by norm_num, by norm_num, by norm_num, by norm_num, by norm_num, by norm_num⟩
  refine ⟨((s.translate ⟨1, 2, 3⟩).rotate 1 ⟨0, 3/5, 4/5⟩),
    .rotate _ _ ?_ (.translate _ (.make h1)), ?_⟩
  · rw [length3, Real.sqrt_eq_one]; norm_num
  · simp [Shell.rotate, Shell.translate, Affine.rotate, Affine.translate, h3, Affine.id, M3.id,
      M3.mulVec, V3.ex, V3.ey, V3.ez, V3.zeros, V3.real_add]

/-! ## C09, C10: the bounding box -/

/-- `p` is a point of the disk of rib `rib` when the shell has pose `pose`. -/
def Spec.OnRibDisk (pose : Affine ℝ) (rib : Rib ℝ) (p : V3 ℝ) : Prop :=
  ∃ x z : ℝ, x ^ 2 + z ^ 2 ≤ rib.radius ^ 2 ∧
    p = pose.apply ⟨rib.center.x + x, rib.center.y, rib.center.z + z⟩

/-- The box is the cube of half extent `Rx` centred on the shell origin. -/
def Spec.BoxFollowsPose (s : Shell ℝ) : Prop :=
  s.bbox.min = ⟨s.pose.trans.x - s.shape.rx, s.pose.trans.y - s.shape.rx, s.pose.trans.z - s.shape.rx⟩ ∧
  s.bbox.max = ⟨s.pose.trans.x + s.shape.rx, s.pose.trans.y + s.shape.rx, s.pose.trans.z + s.shape.rx⟩

theorem Shell.updateBBox_follows (s : Shell ℝ) (h : 0 ≤ s.shape.rx) :
    BoxFollowsPose s.updateBBox := by
  have h1 : ∀ t : ℝ, ¬ t + s.shape.rx < t - s.shape.rx := fun t => by linarith
  constructor <;>
    simp [Shell.updateBBox, Box.updateMaxMin, Box.order1, Shape.surfaceMaxRadius, V3.real_sub,
      V3.real_add, h1]

/-- **C10 (partial).**  After construction, `updateBBox`, and any `setup` (returning or throwing) the
box is the cube of half extent `Rx` centred on the shell origin.  Missing: the operations of
`C10_box_stale_refuted`. -/
theorem C10_box_follows_pose_partial (s : Shell ℝ) (hr : 0 ≤ s.shape.rx) :
    BoxFollowsPose s.updateBBox ∧
    (∀ (pol : Policy) ground pose method s' b, s.setupMesh pol ground pose method = .ok s' b →
      s'.pose = pose ∧ BoxFollowsPose s') ∧
    (∀ (pol : Policy) ground pose method s' e, s.setupMesh pol ground pose method = .throw s' e →
      s'.pose = pose ∧ BoxFollowsPose s') ∧
    (∀ (pol : Policy) ground pose method s' b, s.setupFlat pol ground pose method = .ok s' b →
      s'.pose = pose ∧ BoxFollowsPose s') ∧
    (∀ (pol : Policy) ground pose method s' e, s.setupFlat pol ground pose method = .throw s' e →
      s'.pose = pose ∧ BoxFollowsPose s') := by
  have key : ∀ {s' : Shell ℝ} {pose}, Shell.SetupRel s s' pose → s'.pose = pose ∧ BoxFollowsPose s' := by
    intro s' pose h
    have := Shell.updateBBox_follows (s.transform pose) hr
    refine ⟨h.pose, ?_⟩
    unfold BoxFollowsPose at this ⊢
    rw [h.pose, h.shape, h.bbox]
    exact this
  exact ⟨Shell.updateBBox_follows s hr, fun _ _ _ _ _ b h => key (Shell.setupMesh_rel (.inl ⟨b, h⟩)),
    fun _ _ _ _ _ e h => key (Shell.setupMesh_rel (.inr ⟨e, h⟩)),
    fun _ _ _ _ _ b h => key (Shell.setupFlat_rel (.inl ⟨b, h⟩)),
    fun _ _ _ _ _ e h => key (Shell.setupFlat_rel (.inr ⟨e, h⟩))⟩

/-- **C10 is false.**  From a shell whose box follows its pose, `translate` by a vector `v` leaves the
box behind whenever `v ≠ 0` (for a rigid pose), and `transform` to any pose with another origin does
too. -/
theorem C10_box_stale_refuted (s : Shell ℝ) (hs : BoxFollowsPose s) :
    (IsRigid s.pose → ∀ v : V3 ℝ, v ≠ ⟨0, 0, 0⟩ → ¬ BoxFollowsPose (s.translate v)) ∧
    (∀ pose : Affine ℝ, pose.trans ≠ s.pose.trans → ¬ BoxFollowsPose (s.transform pose)) := by
  have key : ∀ s' : Shell ℝ, s'.shape = s.shape → s'.bbox = s.bbox → BoxFollowsPose s' →
      s'.pose.trans = s.pose.trans := by
    intro s' h1 h2 h3
    have e := h3.1
    rw [h1, h2, hs.1, V3.mk.injEq] at e
    ext
    · linarith [e.1]
    · linarith [e.2.1]
    · linarith [e.2.2]
  refine ⟨fun hr v hv h => ?_, fun pose hp h => hp (key (s.transform pose) rfl rfl h)⟩
  have e : V3.add s.pose.trans (M3.mulVec s.pose.linear v) = s.pose.trans := key (s.translate v) rfl rfl h
  have e0 : M3.mulVec s.pose.linear v = ⟨0, 0, 0⟩ := by
    rw [V3.real_add, V3.ext_iff] at e
    dsimp only at e
    ext
    · dsimp only; linarith [e.1]
    · dsimp only; linarith [e.2.1]
    · dsimp only; linarith [e.2.2]
  have := IsRotation.transpose_mulVec hr v
  rw [e0] at this
  apply hv
  rw [← this]
  simp [M3.mulVec]

/-- The hypothesis of `C10_box_stale_refuted` holds for new shells. -/
example : ∃ s : Shell ℝ, s.Reachable .raw ∧ BoxFollowsPose s ∧ IsRigid s.pose ∧
    ¬ BoxFollowsPose (s.translate ⟨1, 0, 0⟩) := by
  obtain ⟨s, h1, -, h3, h4, -, h5, h6⟩ := C04_construct (fun _ => Output.default) 25 (by norm_num)
    (1/2) 4 (1/4) 2 (1/8)
    ⟨by norm_num, by norm_num, by norm_num, by norm_num, by norm_num, by norm_num⟩
  have hb : BoxFollowsPose s := by
    constructor
    · simp [h5, h3, h4, Affine.id, V3.zeros]
    · simp [h6, h3, h4, Affine.id, V3.zeros]
  have hp : IsRigid s.pose := by rw [h3]; exact isRotation_id
  exact ⟨s, .make h1, hb, hp, (C10_box_stale_refuted s hb).1 hp _ (by simp)⟩

/-- A component of a rotated vector is bounded by its length. -/
theorem Spec.IsRotation.abs_comp_le {m : M3 ℝ} (h : IsRotation m) (v : V3 ℝ) {R : ℝ} (hR : 0 ≤ R)
    (hv : v.x ^ 2 + v.y ^ 2 + v.z ^ 2 ≤ R ^ 2) :
    |(M3.mulVec m v).x| ≤ R ∧ |(M3.mulVec m v).y| ≤ R ∧ |(M3.mulVec m v).z| ≤ R := by
  have e := h.dot_mulVec v v
  simp only [dot3] at e
  refine ⟨abs_le_of_sq_le_sq ?_ hR, abs_le_of_sq_le_sq ?_ hR, abs_le_of_sq_le_sq ?_ hR⟩ <;>
    nlinarith [sq_nonneg (M3.mulVec m v).x, sq_nonneg (M3.mulVec m v).y, sq_nonneg (M3.mulVec m v).z]

/-- **C09 (partial).**  In a rigid pose the box contains every point of the disk of a rib that lies on
the y axis, provided radius `r` and position `y` of the rib satisfy `r² + y² ≤ Rx²`. -/
theorem C09_box_encloses_ribs_partial (s : Shell ℝ) (hb : BoxFollowsPose s) (hr : IsRigid s.pose)
    (hx : 0 ≤ s.shape.rx) (rib : Rib ℝ) (radius y width angle : ℝ) (id : Int)
    (hrib : rib = Rib.make id radius y width angle)
    (hle : radius ^ 2 + y ^ 2 ≤ s.shape.rx ^ 2) (p : V3 ℝ) (hp : OnRibDisk s.pose rib p) :
    InBox s.bbox.min s.bbox.max p := by
  obtain ⟨x, z, h1, rfl⟩ := hp
  subst hrib
  simp only [Rib.radius, Rib.center, Disk.center, Rib.make, real_zero, zero_add] at h1 ⊢
  obtain ⟨a, b, c⟩ := hr.abs_comp_le ⟨x, y, z⟩ hx (by dsimp only; linarith)
  rw [abs_le] at a b c
  rw [hb.1, hb.2]
  simp only [InBox, Affine.apply, V3.real_add]
  refine ⟨⟨?_, ?_⟩, ⟨?_, ?_⟩, ?_, ?_⟩ <;> linarith [a.1, a.2, b.1, b.2, c.1, c.2]

/-- For profiles with `Mx, My ≤ 2` and `Ry ≤ Rx` every rib satisfies the condition of
`C09_box_encloses_ribs_partial`: after any setup with a rigid pose the box contains every point of
every rib disk. -/
theorem C09_round_profiles_partial (fresh : Nat → Output ℝ) (n : Nat) (hn : 1 ≤ n)
    (rx mx ry my ly : ℝ) (hv : ValidProfile rx mx ry my ly) (hmx : mx ≤ 2) (hmy : my ≤ 2)
    (hry : ry ≤ rx) (pose : Affine ℝ) (hp : IsRigid pose) :
    ∃ s, Shell.make fresh n rx mx ry my ly = .ok s ∧
      ∀ (pol : Policy) ground method s' b, (s.setupMesh pol ground pose method = .ok s' b) →
        ∀ rib ∈ s'.ribs, ∀ p, OnRibDisk pose rib p → InBox s'.bbox.min s'.bbox.max p := by
  obtain ⟨s, h1, h2, h3, h4, h5, -⟩ := C04_construct fresh n hn rx mx ry my ly hv
  refine ⟨s, h1, fun pol ground method s' b hs rib hrib p hpt => ?_⟩
  have hrel := Shell.setupMesh_rel (.inl ⟨b, hs⟩)
  obtain ⟨hpose, hbox⟩ := (C10_box_follows_pose_partial s (by rw [h4]; exact hv.rx_pos.le)).2.1
    pol ground pose method s' b hs
  rw [hrel.ribs] at hrib
  obtain ⟨i, hi, hie⟩ := List.getElem_of_mem hrib
  have hi' : s.ribs[i]? = some rib := by rw [List.getElem?_eq_getElem hi, hie]
  obtain ⟨w, hw⟩ := (Shell.Reachable.make (pol := pol) h1).inv.ribs
  obtain ⟨radius, y, angle, e⟩ := hw i rib hi'
  obtain ⟨r, hr0, hc, -, hrad, hon⟩ := h5 i (by rw [← h2]; exact hi)
  have hc' : (⟨0, y, 0⟩ : V3 ℝ) = ⟨0, -ly + (2 * i + 1) * ly / n, 0⟩ := by
    have : s.ribCenter i = .ok ⟨0, y, 0⟩ := by
      simp [Shell.ribCenter, Shell.ribAt, hi', e, Rib.center, Disk.center, Rib.make]
    rw [this] at hc
    exact Res.ok.inj hc
  have hrad' : radius = r := by
    have : s.ribRadius i = .ok radius := by
      simp [Shell.ribRadius, Shell.ribAt, hi', e, Rib.radius, Rib.make]
    rw [this] at hrad
    exact Res.ok.inj hrad
  have hy : y = -ly + (2 * i + 1) * ly / n := (V3.mk.injEq _ _ _ _ _ _ ▸ hc').2.1
  rw [← hy] at hon
  subst hrad'
  have hyl : |y| < ly := by
    rw [hy]; exact Shell.real_centre_abs hv.ly_pos (by rw [← h2]; exact hi)
  have hshape : s'.shape = ⟨rx, mx, ry, my, ly⟩ := by rw [hrel.shape, h4]
  refine C09_box_encloses_ribs_partial s' hbox (by rw [hpose]; exact hp)
    (by rw [hshape]; exact hv.rx_pos.le) rib radius y w angle i e ?_ p (by rw [hpose]; exact hpt)
  rw [hshape]
  show radius ^ 2 + y ^ 2 ≤ rx ^ 2
  obtain ⟨hr0', heq⟩ := hon
  have hrx := hv.rx_pos
  have hry' := hv.ry_pos
  have q1 : 0 ≤ radius / rx := by positivity
  have q2 : 0 ≤ |y| / ry := by positivity
  have q3 : |y| / ry ≤ 1 := (div_le_one hry').2 (hyl.le.trans hv.ly_le)
  have p1 : 0 ≤ (radius / rx) ^ mx := Real.rpow_nonneg q1 _
  have p2 : 0 ≤ (|y| / ry) ^ my := Real.rpow_nonneg q2 _
  have q4 : radius / rx ≤ 1 := by
    by_contra hc
    rw [not_le] at hc
    have := Real.one_lt_rpow hc hv.mx_pos
    linarith
  have k1 : (radius / rx) ^ (2 : ℕ) ≤ (radius / rx) ^ mx := by
    rw [← Real.rpow_natCast]
    exact Real.rpow_le_rpow_of_exponent_ge' q1 q4 hv.mx_pos.le (by exact_mod_cast hmx)
  have k2 : (|y| / ry) ^ (2 : ℕ) ≤ (|y| / ry) ^ my := by
    rw [← Real.rpow_natCast]
    exact Real.rpow_le_rpow_of_exponent_ge' q2 q3 hv.my_pos.le (by exact_mod_cast hmy)
  have k3 : (radius / rx) ^ 2 + (|y| / ry) ^ 2 ≤ 1 := by linarith
  rw [div_pow, div_pow, sq_abs] at k3
  have k4 : y ^ 2 / rx ^ 2 ≤ y ^ 2 / ry ^ 2 :=
    div_le_div_of_nonneg_left (sq_nonneg y) (by positivity) (by gcongr)
  have k5 : (radius ^ 2 + y ^ 2) / rx ^ 2 ≤ 1 := by rw [add_div]; linarith
  rwa [div_le_one (by positivity)] at k5

/-- The hypotheses of `C09_round_profiles_partial` are met by a torus-like tyre. -/
example : ValidProfile (1/2 : ℝ) 2 (1/4) (3/2) (1/8) ∧ (2 : ℝ) ≤ 2 ∧ (3/2 : ℝ) ≤ 2 ∧
    (1/4 : ℝ) ≤ 1/2 :=
  ⟨⟨by norm_num, by norm_num, by norm_num, by norm_num, by norm_num, by norm_num⟩, by norm_num,
    by norm_num, by norm_num⟩

/-- **C09 is false.**  There are a valid profile, a rib count and a rigid pose (a tilt about the x
axis) such that after every setup with that pose, on any ground and with any method, a point of a rib
disk is outside the box used for the ground query. -/
theorem C09_tilted_refuted (fresh : Nat → Output ℝ) :
    ∃ (rx mx ry my ly : ℝ) (n : Nat) (pose : Affine ℝ) (s : Shell ℝ),
      ValidProfile rx mx ry my ly ∧ 1 ≤ n ∧ IsRigid pose ∧
      Shell.make fresh n rx mx ry my ly = .ok s ∧
      ∀ (pol : Policy) ground method s' b, s.setupMesh pol ground pose method = .ok s' b →
        ∃ rib ∈ s'.ribs, ∃ p, OnRibDisk pose rib p ∧ ¬ InBox s'.bbox.min s'.bbox.max p := by
  have hv : ValidProfile (1 : ℝ) 1 1 4 (3/4) :=
    ⟨by norm_num, by norm_num, by norm_num, by norm_num, by norm_num, by norm_num⟩
  obtain ⟨s, h1, h2, h3, h4, h5, -⟩ := C04_construct fresh 3 (by norm_num) 1 1 1 4 (3/4) hv
  refine ⟨1, 1, 1, 4, 3/4, 3,
    ⟨⟨⟨1, 0, 0⟩, ⟨0, 15/17, -8/17⟩, ⟨0, 8/17, 15/17⟩⟩, ⟨0, 0, 0⟩⟩, s, hv, by norm_num,
    ⟨by norm_num, by norm_num, by norm_num, by norm_num, by norm_num, by norm_num, by norm_num⟩,
    h1, ?_⟩
  intro pol ground method s' b hs
  have hrel := Shell.setupMesh_rel (.inl ⟨b, hs⟩)
  obtain ⟨hpose, hbox⟩ := (C10_box_follows_pose_partial s (by rw [h4]; norm_num)).2.1
    pol ground _ method s' b hs
  have hshape : s'.shape = ⟨1, 1, 1, 4, 3/4⟩ := by rw [hrel.shape, h4]
  obtain ⟨r, hr0, hc, -, hrad, -, heq⟩ := h5 2 (by norm_num)
  have hi : 2 < s.ribs.length := by have : s.ribs.length = 3 := h2; omega
  have hi' : s.ribs[2]? = some s.ribs[2] := List.getElem?_eq_getElem hi
  simp only [Shell.ribCenter, Shell.ribRadius, Shell.ribAt, hi', Res.bind_ok, Res.pure_eq,
    Res.ok.injEq] at hc hrad
  have hr : r = 15/16 := by
    have e : |(-(3/4) + (2 * ((2 : ℕ) : ℝ) + 1) * (3/4) / ((3 : ℕ) : ℝ))| = 1/2 := by
      rw [abs_of_pos] <;> norm_num
    rw [e, div_one, div_one, Real.rpow_one, show (4 : ℝ) = ((4 : ℕ) : ℝ) by norm_num,
      Real.rpow_natCast] at heq
    norm_num at heq
    linarith
  refine ⟨s.ribs[2], by rw [hrel.ribs]; exact List.getElem_mem hi, ⟨0, 0, -17/16⟩,
    ⟨0, -15/16, by rw [hrad, hr]; norm_num, ?_⟩, ?_⟩
  · rw [hc]
    simp only [Affine.apply, M3.mulVec, V3.real_add, real_add, real_mul]
    norm_num
  · rintro ⟨-, -, h, -⟩
    rw [hbox.1, hpose, hshape] at h
    norm_num at h

end Enve
