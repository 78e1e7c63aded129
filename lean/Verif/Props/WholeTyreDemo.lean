import Verif.Props.WholeTyreProps
import Verif.Props.CamberProps
import Verif.Props.RoadContactDemo

/-! # C117: the hypotheses are met -/

namespace Enve
open Scalar Spec B64

/-- A tyre of one rib of radius 1 m and width 1 m is built in doubles and put 75 cm over a level road of friction 1.  The volume is that
of the segment of 25 cm up to ten millilitres, the friction right up to a millionth and the depth up to ten micrometres. -/
example (fresh : Nat → Output B64) : ∃ (s s' : Shell B64) (b : Bool) (V f d : ℝ),
    Shell.make fresh 1 (.fin 1) (.fin 1) (.fin (1 / 2)) (.fin 2) (.fin (1 / 2)) = .ok s ∧
    s.setupFlat .raw Yawed.road RoadDemo.pose "sampling" = .ok s' b ∧
    s'.contactVolume .raw = .ok (fin V) ∧ |V - segmentArea 1 (1 / 4)| ≤ 1 / 10 ^ 5 ∧
    s'.contactFriction .raw = .ok (fin f) ∧ |f - 1| ≤ 1 / 10 ^ 6 ∧
    s'.contactDepth .raw = .ok (fin d) ∧ |d - 1 / 4| ≤ 1 / 10 ^ 5 := by
  obtain ⟨s, hs, -, hribs⟩ := RoadDemo.shell fresh
  have hsz : s.size = 1 := by show s.ribs.length = 1; rw [hribs]; rfl
  obtain ⟨s', b, hset⟩ := Shell.setupFlat_total (.make hs) (by omega) Yawed.road RoadDemo.pose (method := "sampling")
    (.inr rfl)
  have hε : Fine (1 / 2 ^ 49 : ℝ) := ⟨by norm_num, by norm_num⟩
  have hg : Flat.make (fin 1) ⟨fin (⟨0, 0, 0⟩ : V3 ℝ).x, fin (⟨0, 0, 0⟩ : V3 ℝ).y, fin (⟨0, 0, 0⟩ : V3 ℝ).z⟩
      ⟨fin (⟨0, 0, 1⟩ : V3 ℝ).x, fin (⟨0, 0, 1⟩ : V3 ℝ).y, fin (⟨0, 0, 1⟩ : V3 ℝ).z⟩ = .ok Yawed.road := by
    have := Yawed.road_make
    rwa [V3.zeros, V3.ez, B64.zero_eq, B64.one_eq] at this
  have hlen : length3 (⟨0, 0, 1⟩ : V3 ℝ) = 1 := by norm_num [length3]
  have cl : ∀ {e x : ℝ}, 0 ≤ e → Close e (fin x) x := fun he => ⟨_, rfl, by simpa using he⟩
  have cl3 : ∀ {e x y z : ℝ}, 0 ≤ e → Close3 e ⟨fin x, fin y, fin z⟩ ⟨x, y, z⟩ := fun he => ⟨cl he, cl he, cl he⟩
  have hp : ClosePose (1 / 2 ^ 49) RoadDemo.pose RoadDemo.exact :=
    ⟨cl3 (by norm_num), cl3 (by norm_num), cl3 (by norm_num), cl3 (by norm_num)⟩
  have hrib : ∀ (i : Nat) (r : Rib B64), s.ribs[i]? = some r → r = Rib.make 0 (.fin 1) (.fin 0) (.fin 1) (.fin 0) := by
    intro i r h
    rw [hribs] at h
    cases i with
    | zero => exact (Option.some.inj h).symm
    | succ i => simp at h
  have hN : (⟨(⟨0, 0, 1⟩ : V3 ℝ).x / length3 ⟨0, 0, 1⟩, (⟨0, 0, 1⟩ : V3 ℝ).y / length3 ⟨0, 0, 1⟩,
      (⟨0, 0, 1⟩ : V3 ℝ).z / length3 ⟨0, 0, 1⟩⟩ : V3 ℝ) = ⟨0, 0, 1⟩ := by rw [hlen]; norm_num
  have ht : CalmTyre s (fun _ => 1) (fun _ => 0) (fun _ => 1) RoadDemo.exact ⟨0, 0, 0⟩
      ⟨(⟨0, 0, 1⟩ : V3 ℝ).x / length3 ⟨0, 0, 1⟩, (⟨0, 0, 1⟩ : V3 ℝ).y / length3 ⟨0, 0, 1⟩, (⟨0, 0, 1⟩ : V3 ℝ).z / length3 ⟨0, 0, 1⟩⟩ := by
    refine ⟨fun i r h => ?_, fun i r h => ?_, fun _ _ => by rw [hN]; exact RoadDemo.scene⟩
    · rw [hrib i r h]
      exact ⟨rfl, rfl, B64.rep_one, by norm_num, by norm_num, by norm_num, by norm_num⟩
    · rw [hrib i r h, Rib.make, B64.zero_eq]
  have he : depthError (1 / 2 ^ 49) 1 1 = 1 / 2 ^ 20 := by norm_num [depthError]
  have hvol := C117_volume_partial hε le_rfl hg (by rw [hlen]; norm_num) (by rw [hlen]; norm_num) (by norm_num) (by norm_num) hp hset
    (by rw [hsz]; norm_num) ht (fun i _ => by rw [hN, RoadDemo.depth, he]; norm_num)
  dsimp only at hvol
  rw [hN, RoadDemo.depth, he, hsz, total, total, Finset.sum_range_one, Finset.sum_range_one] at hvol
  obtain ⟨V, v1, v2⟩ := hvol
  have hlow := SegRound.area_lower (R := 1) (d := 1 / 4) one_pos (by norm_num) (by norm_num)
  have hsq : Real.sqrt (1 * (1 / 4)) = 1 / 2 := by
    rw [show (1 * (1 / 4) : ℝ) = (1 / 2) ^ 2 by norm_num, Real.sqrt_sq (by norm_num)]
  rw [hsq] at hlow
  have hup := (le_abs_self _).trans (Whole.seg_lip (R := 1) (d := 1 / 4) (d' := 0) zero_le_one)
  rw [Whole.seg_zero zero_le_one le_rfl] at hup
  norm_num at hup
  set A := segmentArea 1 (1 / 4) with hA
  have v3 : |V - A| ≤ 1 / 10 ^ 5 := by
    rw [one_mul] at v2
    refine v2.trans ?_
    norm_num
    linarith
  have hV : 1 / 2 ^ 26 ≤ V := by
    have := (abs_le.1 v3).1
    norm_num at this ⊢
    linarith
  have hcon := C117_contact_partial hε le_rfl hg (by rw [hlen]; norm_num) (by rw [hlen]; norm_num) (by norm_num) (by norm_num) hp hset
    (by rw [hsz]) (by rw [hsz]; norm_num) ht
  dsimp only at hcon
  rw [hN, RoadDemo.depth, he, hsz] at hcon
  obtain ⟨⟨f, f1, f2⟩, -, -, h4⟩ := hcon (fun _ _ => by norm_num) (fun _ _ => .inr (by norm_num)) V v1 hV
  obtain ⟨d, d1, d2, d3⟩ := h4 (1 / 4 - 1 / 2 ^ 20) (1 / 4 + 1 / 2 ^ 20) fun _ _ _ => ⟨le_rfl, le_rfl⟩
  refine ⟨s, s', b, V, f, d, hs, hset, v1, v3, f1, f2.trans (by norm_num), d1, ?_⟩
  rw [abs_le]
  norm_num at d2 d3 ⊢
  constructor <;> linarith

end Enve
