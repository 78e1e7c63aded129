import Verif.Props.NaNMeshProps
import Verif.Props.RoadContactDemo
import Verif.Props.CamberProps

/-! # C118 and C119: the hypotheses are met -/

namespace Enve
open Scalar Spec B64 Finite

/-! ## C118: a tyre on a level road -/

/-- A tyre of one rib of radius 1 m is built in doubles and put 75 cm over a level road: the sampling method reports
contact, so that the road and the pose are made of numbers. -/
example (fresh : Nat → Output B64) : ∃ s s' : Shell B64,
    Shell.make fresh 1 (.fin 1) (.fin 1) (.fin (1 / 2)) (.fin 2) (.fin (1 / 2)) = .ok s ∧
    s.setupFlat .raw Yawed.road RoadDemo.pose "sampling" = .ok s' true ∧
    AllPose NotNaN RoadDemo.pose ∧ AllPlane NotNaN (Yawed.road : Flat B64).plane := by
  obtain ⟨s, hs, -, hribs⟩ := RoadDemo.shell fresh
  have hε : Fine (1 / 2 ^ 49 : ℝ) := ⟨by norm_num, by norm_num⟩
  have hg : Flat.make (fin 1) ⟨fin (⟨0, 0, 0⟩ : V3 ℝ).x, fin (⟨0, 0, 0⟩ : V3 ℝ).y, fin (⟨0, 0, 0⟩ : V3 ℝ).z⟩
      ⟨fin (⟨0, 0, 1⟩ : V3 ℝ).x, fin (⟨0, 0, 1⟩ : V3 ℝ).y, fin (⟨0, 0, 1⟩ : V3 ℝ).z⟩ = .ok Yawed.road := by
    have := Yawed.road_make
    rwa [V3.zeros, V3.ez, B64.zero_eq, B64.one_eq] at this
  have hlen : length3 (⟨0, 0, 1⟩ : V3 ℝ) = 1 := by norm_num [length3]
  have hN : (⟨(⟨0, 0, 1⟩ : V3 ℝ).x / length3 ⟨0, 0, 1⟩, (⟨0, 0, 1⟩ : V3 ℝ).y / length3 ⟨0, 0, 1⟩,
      (⟨0, 0, 1⟩ : V3 ℝ).z / length3 ⟨0, 0, 1⟩⟩ : V3 ℝ) = ⟨0, 0, 1⟩ := by rw [hlen]; norm_num
  have cl : ∀ {e x : ℝ}, 0 ≤ e → Close e (fin x) x := fun he => ⟨_, rfl, by simpa using he⟩
  have cl3 : ∀ {e x y z : ℝ}, 0 ≤ e → Close3 e ⟨fin x, fin y, fin z⟩ ⟨x, y, z⟩ := fun he => ⟨cl he, cl he, cl he⟩
  have hp : ClosePose (1 / 2 ^ 49) RoadDemo.pose RoadDemo.exact :=
    ⟨cl3 (by norm_num), cl3 (by norm_num), cl3 (by norm_num), cl3 (by norm_num)⟩
  obtain ⟨hgf, hf⟩ := Accurate.flat_make hε le_rfl hg (by rw [hlen]; norm_num) (by rw [hlen]; norm_num)
  rw [hN] at hgf
  set r : Rib B64 := Rib.make 0 (.fin 1) (.fin 0) (.fin 1) (.fin 0) with hr
  have hc : (r.envelopSamplingFlat Yawed.road RoadDemo.pose).1 = true := by
    refine (C105_sampling_partial hε RoadDemo.scene (r := r) ?_ hp hgf hf (by norm_num) (by norm_num)).1 ?_
    · refine ⟨cl (by norm_num), ?_, cl (by norm_num)⟩
      rw [hr, Rib.make, B64.zero_eq]
      exact cl3 (x := 0) (y := 0) (z := 0) (by norm_num)
    · rw [RoadDemo.depth]; norm_num
  obtain ⟨s', b, hset⟩ := Shell.setupFlat_total (.make hs)
    (by show s.ribs.length ≤ 200; rw [hribs]; simp) Yawed.road RoadDemo.pose (method := "sampling") (.inr rfl)
  have hb : b = true := by
    unfold Shell.setupFlat at hset
    dsimp only at hset
    have hr1 : ((s.transform RoadDemo.pose).updateBBox).ribs = [r] := hribs
    rw [hr1, Shell.ribLoop] at hset
    split_ifs at hset
    · simp [Shell.withOut] at hset
    · rw [Rib.envelopFlat, if_neg (by decide), if_pos rfl] at hset
      simp only [Shell.ribLoop, Shell.withOut, MRes.ok.injEq, hc] at hset
      exact hset.2.symm
  subst hb
  exact ⟨s, s', hs, hset, C118_setup_flat hset⟩

/-- A rib in contact with a road of two triangles. -/
example : AllPose IsNumber RoadDemo.pose' ∧ ∃ t ∈ (Road.grid 1).map RoadDemo.put, AllTri IsNumber t.tri :=
  have h := C118_mesh_sampling_number RoadDemo.standing.1
  ⟨h.1, h.2.2.2.2.2⟩

/-- The identity with one entry that is not a number. -/
example : ¬ (All3 NotNaN (⟨⟨Scalar.nan, .fin 0, .fin 0⟩, ⟨.fin 0, .fin 1, .fin 0⟩, ⟨.fin 0, .fin 0, .fin 1⟩⟩ : M3 B64).c0) :=
  fun h => h.x rfl

/-! ## C119: a file with the word `nan` -/

namespace NaNDemo

/-- The conversions of the standard library on the words of the file below; `stod("nan")` is NaN. -/
noncomputable def num : NumParse B64 where
  stod
    | ['0'] => some (.fin 0)
    | ['1'] => some (.fin 1)
    | ['n', 'a', 'n'] => some ⟨.nan⟩
    | _ => none
  stoi
    | ['0'] => some 0
    | ['1'] => some 1
    | ['2'] => some 2
    | ['3'] => some 3
    | _ => none

theorem d0 : num.stod "0".toList = some (.fin 0) := rfl
theorem d1 : num.stod "1".toList = some (.fin 1) := rfl
theorem dn : num.stod "nan".toList = some ⟨.nan⟩ := rfl
theorem i0 : num.stoi "0".toList = some ((0 : Nat) : Int) := rfl
theorem i1 : num.stoi "1".toList = some ((1 : Nat) : Int) := rfl
theorem i2 : num.stoi "2".toList = some ((2 : Nat) : Int) := rfl
theorem i3 : num.stoi "3".toList = some ((3 : Nat) : Int) := rfl

open DoubleDemo (wl nres)

theorem text : RdfText num.stod num.stoi (fun f => (zero <=. f) = true)
    ["[NODES]".toList, "1 0 0 0".toList, "2 1 0 0".toList, "3 0 1 0".toList, "4 nan 0 0".toList, "[ELEMENTS]".toList,
      "3 0 1 1".toList, "0 1 2 1".toList]
    [(.fin 0, .fin 0, .fin 0), (.fin 1, .fin 0, .fin 0), (.fin 0, .fin 1, .fin 0), (⟨.nan⟩, .fin 0, .fin 0)]
    [(3, 0, 1, .fin 1), (0, 1, 2, .fin 1)] where
  ex := ⟨[], [.node (.fin 0) (.fin 0) (.fin 0), .node (.fin 1) (.fin 0) (.fin 0), .node (.fin 0) (.fin 1) (.fin 0),
      .node ⟨.nan⟩ (.fin 0) (.fin 0)],
    [.element 3 0 1 (.fin 1), .element 0 1 2 (.fin 1)],
    .cons (.nodes (wl (ws := ["[NODES]".toList]) (by decide) (by decide)) (Or.inl rfl))
    (.cons (.node (wl (ws := ["1".toList, "0".toList, "0".toList, "0".toList]) (by decide) (by decide))
      (nres (by decide)) d0 d0 d0)
    (.cons (.node (wl (ws := ["2".toList, "1".toList, "0".toList, "0".toList]) (by decide) (by decide))
      (nres (by decide)) d1 d0 d0)
    (.cons (.node (wl (ws := ["3".toList, "0".toList, "1".toList, "0".toList]) (by decide) (by decide))
      (nres (by decide)) d0 d1 d0)
    (.cons (.node (wl (ws := ["4".toList, "nan".toList, "0".toList, "0".toList]) (by decide) (by decide))
      (nres (by decide)) dn d0 d0)
    (.cons (.elements (wl (ws := ["[ELEMENTS]".toList]) (by decide) (by decide)) (Or.inl rfl))
    (.cons (.element (wl (ws := ["3".toList, "0".toList, "1".toList, "1".toList]) (by decide) (by decide))
      (nres (by decide)) i3 i0 i1 d1)
    (.cons (.element (wl (ws := ["0".toList, "1".toList, "2".toList, "1".toList]) (by decide) (by decide))
      (nres (by decide)) i0 i1 i2 d1) .nil))))))), by simp, by simp, by simp, rfl, rfl⟩
  range := by
    intro i j k f h
    simp at h
    rcases h with ⟨rfl, rfl, rfl, rfl⟩ | ⟨rfl, rfl, rfl, rfl⟩ <;> simp [B64.zero_eq]
  ne := by simp

/-- The second triangle of the file is the ordinary triangle with the corners (0, 0, 0), (1, 0, 0) and (0, 1, 0), but no
query finds it. -/
example : ∃ (m : Mesh B64) (t0 t1 : TriangleGround B64), m.Loaded num ∧ m.triangles[0]? = some t0 ∧ BadFirstVertex t0 ∧
    m.triangles[1]? = some t1 ∧ HasCorners t1.tri ⟨0, 0, 0⟩ ⟨1, 0, 0⟩ ⟨0, 1, 0⟩ ∧
    ∀ q, m.query q [] = .ok (false, []) := by
  obtain ⟨m, -, h1, hlen, h3⟩ := C19_rdf_load num "a".toList _ Affine.id _ _ text
  have hl : m.Loaded num := .inl ⟨_, _, _, h1⟩
  obtain ⟨t0, p, q, r, e1, e2, e3, e4, -, -, e5, -, -⟩ := h3 0 3 0 1 (.fin 1) rfl
  obtain ⟨t1, p', q', r', f1, f2, f3, f4, -, -, f5, f6, f7⟩ := h3 1 0 1 2 (.fin 1) rfl
  simp only [List.getElem?_cons_zero, List.getElem?_cons_succ, Option.some.injEq] at e2 e3 e4 f2 f3 f4
  subst e2 e3 e4 f2 f3 f4
  have happ : ∀ x y : ℝ, (x = 0 ∨ x = 1) → (y = 0 ∨ y = 1) →
      (Affine.id : Affine B64).apply ⟨.fin x, .fin y, .fin 0⟩ = ⟨.fin x, .fin y, .fin 0⟩ := by
    rintro x y (rfl | rfl) (rfl | rfl) <;>
    norm_num [Affine.apply, Affine.id, M3.mulVec, M3.id, V3.ex, V3.ey, V3.ez, V3.add, V3.zeros, B64.zero_eq,
      B64.one_eq, DoubleDemo.r0, DoubleDemo.r1]
  have hb : BadFirstVertex t0 := by
    intro h
    rw [e5, Affine.apply] at h
    exact (mulVec3 notnan (add3 notnan h).1).2.x rfl
  have hk : HasCorners t1.tri ⟨0, 0, 0⟩ ⟨1, 0, 0⟩ ⟨0, 1, 0⟩ := by
    constructor
    · rw [f5, happ 0 0 (by simp) (by simp)]; exact ⟨DoubleDemo.is0, DoubleDemo.is0, DoubleDemo.is0⟩
    · rw [f6, happ 1 0 (by simp) (by simp)]; exact ⟨DoubleDemo.is1, DoubleDemo.is0, DoubleDemo.is0⟩
    · rw [f7, happ 0 1 (by simp) (by simp)]; exact ⟨DoubleDemo.is0, DoubleDemo.is1, DoubleDemo.is0⟩
  exact ⟨m, t0, t1, hl, e1, hb, f1, hk, fun q => (C119_first_refuted num m hl t0 e1 hb).1 q []⟩

end NaNDemo
end Enve
