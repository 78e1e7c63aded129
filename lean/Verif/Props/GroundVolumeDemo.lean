import Verif.Props.GroundVolumeProps
import Verif.Props.WholeTyreDemo

/-! # C121: the hypotheses are met -/

namespace Enve
open Scalar Spec B64

/-- A common tyre (radius 31 cm, 25 cm wide) of 1 to 200 ribs, upright over a level road, its axis 25 cm above it: the contact volume is a
number, and it is the volume of the part of the tyre below the road up to the error of `n` slices and four millilitres. -/
example (fresh : Nat → Output B64) {n : ℕ} (hn : 1 ≤ n) (hn' : n ≤ 200) : ∃ (s s' : Shell B64) (b : Bool) (V : ℝ) (p : Affine B64),
    Shell.make fresh n (fin (5 / 16)) (fin 8) (fin (3 / 16)) (fin 4) (fin (1 / 8)) = .ok s ∧
    p = ⟨⟨⟨fin 1, fin 0, fin 0⟩, ⟨fin 0, fin 1, fin 0⟩, ⟨fin 0, fin 0, fin 1⟩⟩, ⟨fin 0, fin 0, fin (1 / 4)⟩⟩ ∧
    s.setupFlat .raw Yawed.road p "geometric" = .ok s' b ∧ s'.contactVolume .raw = .ok (fin V) ∧
    |V - sunkVolume (5 / 16) 8 (3 / 16) 4 (1 / 8) ⟨⟨⟨1, 0, 0⟩, ⟨0, 1, 0⟩, ⟨0, 0, 1⟩⟩, ⟨0, 0, 1 / 4⟩⟩ ⟨0, 0, 0⟩ ⟨0, 0, 1⟩| ≤
      segmentArea (5 / 16) (1 / 16) / (2 * n) + 1 / 2 ^ 18 := by
  have d : ∀ (x : ℝ) (m f : ℤ), x = m * (2 : ℝ) ^ f → |m| ≤ 2 ^ 53 → -1074 ≤ f → |x| < 2 ^ (10 : ℤ) → IsDouble (fin x) x :=
    fun x m f h1 h2 h3 h4 => ⟨rfl, ⟨m, f, h1, h2, h3⟩, h4.trans (zpow_lt_zpow_right₀ (by norm_num) (by norm_num))⟩
  have d1 := d (5 / 16) 5 (-4) (by norm_num) (by norm_num) (by norm_num) (by rw [abs_of_pos] <;> norm_num)
  have d2 := d 8 8 0 (by norm_num) (by norm_num) (by norm_num) (by rw [abs_of_pos] <;> norm_num)
  have d3 := d (3 / 16) 3 (-4) (by norm_num) (by norm_num) (by norm_num) (by rw [abs_of_pos] <;> norm_num)
  have d4 := d 4 4 0 (by norm_num) (by norm_num) (by norm_num) (by rw [abs_of_pos] <;> norm_num)
  have d5 := d (1 / 8) 1 (-3) (by norm_num) (by norm_num) (by norm_num) (by rw [abs_of_pos] <;> norm_num)
  have hv : ValidProfile (5 / 16) 8 (3 / 16) 4 (1 / 8) := by constructor <;> norm_num
  have hpl : PlainProfile (5 / 16) 8 (3 / 16) 4 (1 / 8) := by constructor <;> norm_num
  have four : (2 / 3 : ℝ) ^ (4 : ℝ) = 16 / 81 := by
    rw [show (4 : ℝ) = ((4 : ℕ) : ℝ) by norm_num, Real.rpow_natCast]; norm_num
  -- on the profile the radius is at least 9/32
  have prof : ∀ c R, |c| ≤ 1 / 8 → OnProfile (5 / 16) 8 (3 / 16) 4 c R → 9 / 32 ≤ R ∧ 65 / 81 ≤ (R / (5 / 16)) ^ (8 : ℝ) := by
    intro c R hc hR
    have h4 : (|c| / (3 / 16)) ^ (4 : ℝ) ≤ 16 / 81 := by
      rw [← four]; exact Real.rpow_le_rpow (by positivity) (by linarith) (by norm_num)
    have h5 : 65 / 81 ≤ (R / (5 / 16)) ^ (8 : ℝ) := by linarith [hR.2]
    refine ⟨?_, h5⟩
    by_contra h
    have h6 : (R / (5 / 16)) ^ (8 : ℝ) ≤ (9 / 10 : ℝ) ^ (8 : ℝ) :=
      Real.rpow_le_rpow (by have := hR.1; positivity) (by linarith) (by norm_num)
    rw [show (8 : ℝ) = ((8 : ℕ) : ℝ) by norm_num, Real.rpow_natCast (9 / 10 : ℝ)] at h6
    norm_num at h6 h5
    linarith
  obtain ⟨RL, hRL⟩ : ∃ RL, OnProfile (5 / 16) 8 (3 / 16) 4 (1 / 8) RL :=
    ⟨_, (radAt_profile hv (by rw [abs_of_pos] <;> norm_num) _).2 rfl⟩
  obtain ⟨l1, l2⟩ := prof (1 / 8) RL (by rw [abs_of_pos] <;> norm_num) hRL
  have ht : RoadTyre (5 / 16) 8 (3 / 16) 4 (1 / 8) RL := ⟨hv, by norm_num, by norm_num, hRL, by linarith⟩
  have hκ : radiusError (5 / 16) 8 4 RL ≤ 1 / 2 ^ 40 := by
    have h6 : ((4 : ℝ) + 1) / (8 * (RL / (5 / 16)) ^ (8 : ℝ)) ≤ 1 := by
      rw [div_le_one (by linarith)]; linarith
    rw [radiusError, div_le_div_iff₀ (by positivity) (by positivity)]
    norm_num at h6 ⊢
    linarith
  obtain ⟨s, hs, hsz, hribs⟩ := C104_radius_partial fresh hn (hn'.trans (by norm_num)) d1 d2 d3 d4 d5 hv hpl
  obtain ⟨s', b, hset⟩ := Shell.setupFlat_total (.make hs) (by omega) Yawed.road
    ⟨⟨⟨fin 1, fin 0, fin 0⟩, ⟨fin 0, fin 1, fin 0⟩, ⟨fin 0, fin 0, fin 1⟩⟩, ⟨fin 0, fin 0, fin (1 / 4)⟩⟩ (method := "geometric") (.inl rfl)
  have hε : Fine (1 / 2 ^ 49 : ℝ) := ⟨by norm_num, by norm_num⟩
  have hg : Flat.make (fin 1) ⟨fin (⟨0, 0, 0⟩ : V3 ℝ).x, fin (⟨0, 0, 0⟩ : V3 ℝ).y, fin (⟨0, 0, 0⟩ : V3 ℝ).z⟩
      ⟨fin (⟨0, 0, 1⟩ : V3 ℝ).x, fin (⟨0, 0, 1⟩ : V3 ℝ).y, fin (⟨0, 0, 1⟩ : V3 ℝ).z⟩ = .ok Yawed.road := by
    have := Yawed.road_make
    rwa [V3.zeros, V3.ez, B64.zero_eq, B64.one_eq] at this
  have hlen : length3 (⟨0, 0, 1⟩ : V3 ℝ) = 1 := by norm_num [length3]
  have cl : ∀ {e x : ℝ}, 0 ≤ e → Close e (fin x) x := fun he => ⟨_, rfl, by simpa using he⟩
  have cl3 : ∀ {e x y z : ℝ}, 0 ≤ e → Close3 e ⟨fin x, fin y, fin z⟩ ⟨x, y, z⟩ := fun he => ⟨cl he, cl he, cl he⟩
  obtain ⟨P, hP⟩ : ∃ P : Affine ℝ, P = ⟨⟨⟨1, 0, 0⟩, ⟨0, 1, 0⟩, ⟨0, 0, 1⟩⟩, ⟨0, 0, 1 / 4⟩⟩ := ⟨_, rfl⟩
  have hp : CutPose 16 (1 / 2 ^ 49) ⟨⟨⟨fin 1, fin 0, fin 0⟩, ⟨fin 0, fin 1, fin 0⟩, ⟨fin 0, fin 0, fin 1⟩⟩, ⟨fin 0, fin 0, fin (1 / 4)⟩⟩ P := by
    rw [hP]; exact ⟨cl3 (by norm_num), cl3 (by norm_num), cl3 (by norm_num), cl3 (by norm_num)⟩
  have hrig : IsRigid P := by rw [hP]; constructor <;> simp
  have hN : (⟨(⟨0, 0, 1⟩ : V3 ℝ).x / length3 ⟨0, 0, 1⟩, (⟨0, 0, 1⟩ : V3 ℝ).y / length3 ⟨0, 0, 1⟩,
      (⟨0, 0, 1⟩ : V3 ℝ).z / length3 ⟨0, 0, 1⟩⟩ : V3 ℝ) = ⟨0, 0, 1⟩ := by rw [hlen]; norm_num
  have hplace : length3 P.trans ≤ 16 := by
    rw [hP, length3, Real.sqrt_le_left (by norm_num)]; norm_num
  have key := C121_volume_partial hε le_rfl ⟨le_rfl, by norm_num⟩ hn d1 d2 d3 d4 d5 ht hpl (hκ.trans (by norm_num))
    (by
      have : (n : ℝ) ≤ 200 := by exact_mod_cast hn'
      exact this.trans (by norm_num)) hs hg (by rw [hlen]; norm_num) (by rw [hlen]; norm_num) hp hrig hplace
    (by norm_num [length3]) hset
  dsimp only at key
  rw [hN] at key
  have hc : dot3 ⟨0, 0, 1⟩ P.linear.c1 = 0 := by rw [hP]; norm_num [dot3]
  have hh : dot3 (minus P.trans ⟨0, 0, 0⟩) ⟨0, 0, 1⟩ = 1 / 4 := by rw [hP]; norm_num [dot3, minus]
  rw [hc, hh] at key
  obtain ⟨v, v1, v2, v3⟩ := key (by norm_num) (by norm_num)
  have hcut : ∀ r y, cutDepth r y P ⟨0, 0, 0⟩ ⟨0, 0, 1⟩ = r - 1 / 4 := by
    intro r y
    have : dist3 (hub y P) (nearCut y P ⟨0, 0, 0⟩ ⟨0, 0, 1⟩) = 1 / 4 := by
      simp only [hub, nearCut, dist3, dot3, hP]
      rw [show (1 / 4 : ℝ) = Real.sqrt ((1 / 4) ^ 2) by rw [Real.sqrt_sq (by norm_num)]]
      congr 1
      norm_num
    rw [cutDepth, this]
  have hnn : v ≠ Scalar.nan := by
    refine v3 fun i hi x y z r hc hr => ?_
    obtain ⟨c, r', R, k1, k2, -, k4, k5, k6, k7⟩ := hribs i hi
    rw [k2] at hr
    have hrr : r' = r := by
      have := congrArg B64.val (Res.ok.inj hr)
      exact XR.fin.inj this
    subst hrr
    obtain ⟨p1, p2⟩ := prof c R k4 k5
    have hR : R ≤ 5 / 16 := by
      rw [(radAt_profile hv k4 R).1 k5]; exact (radAt_mem hv k4).2
    have h6 : ((4 : ℝ) + 1) / (8 * (R / (5 / 16)) ^ (8 : ℝ)) ≤ 1 := by
      rw [div_le_one (by linarith)]; linarith
    have h7 : (((4 : ℝ) + 1) / (8 * (R / (5 / 16)) ^ (8 : ℝ)) + 2 ^ 9) / 2 ^ 50 ≤ 1 / 2 ^ 40 := by
      rw [div_le_div_iff₀ (by positivity) (by positivity)]
      norm_num at h6 ⊢
      linarith
    have h8 := (abs_le.1 (k7.trans (mul_le_mul_of_nonneg_left h7 k6.le))).1
    have hr27 : 17 / 64 ≤ r' := by
      norm_num at h8; linarith
    left
    rw [hcut, div_le_iff₀ (by linarith)]
    norm_num
    nlinarith
  rcases v2 with h | ⟨V, e1, e2⟩
  · exact absurd h hnn
  refine ⟨s, s', b, V, _, hs, rfl, hset, by rw [v1, e1], ?_⟩
  rw [← hP]
  refine e2.trans ?_
  have hnr : (1 : ℝ) ≤ n := by exact_mod_cast hn
  have hnr' : (n : ℝ) ≤ 200 := by exact_mod_cast hn'
  have hκ0 : 0 ≤ radiusError (5 / 16) 8 4 RL := by
    rw [radiusError]; positivity
  have q1 : (2 : ℝ) * (1 / 8) / n * (2 * segmentArea (5 / 16) (5 / 16 - (1 / 4 - |0| * (1 / 8)) / √(1 - 0 ^ 2)) +
      4 * (5 / 16) * (1 / 8) * |0| / √(1 - 0 ^ 2)) = segmentArea (5 / 16) (1 / 16) / (2 * n) := by
    norm_num
    field_simp
    ring
  rw [q1]
  set κ := radiusError (5 / 16) 8 4 RL with hκd
  have q2 : (n : ℝ) * (2 * (1 / 8) * (8 + (2 ^ 21 * 16 ^ 2 * (1 / 2 ^ 49) + 1 / 2 ^ 20 + 64 * κ)) + 1) / 2 ^ 52 ≤ 200 * 4 / 2 ^ 52 := by
    refine div_le_div_of_nonneg_right (mul_le_mul hnr' ?_ ?_ (by norm_num)) (by norm_num)
    · norm_num at hκ ⊢; linarith
    · positivity
  norm_num at q2 hκ ⊢
  linarith

end Enve
