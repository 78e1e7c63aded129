import Verif.Props.RoadContactProps
import Verif.Props.TyreProps

/-! # C108: the hypotheses are met, and a mesh that is too fine in doubles -/

namespace Enve

open Scalar Spec B64

namespace RoadDemo

/-- The numbers in the text of the mesh. -/
noncomputable def num : NumParse B64 where
  stod
    | ['0'] => some (.fin 0)
    | ['1'] => some (.fin 1)
    | ['4'] => some (.fin 4)
    | _ => none
  stoi
    | ['0'] => some 0
    | ['1'] => some 1
    | ['2'] => some 2
    | _ => none

theorem d0 : num.stod "0".toList = some (.fin 0) := rfl
theorem d1 : num.stod "1".toList = some (.fin 1) := rfl
theorem d4 : num.stod "4".toList = some (.fin 4) := rfl
theorem i0 : num.stoi "0".toList = some ((0 : Nat) : Int) := rfl
theorem i1 : num.stoi "1".toList = some ((1 : Nat) : Int) := rfl
theorem i2 : num.stoi "2".toList = some ((2 : Nat) : Int) := rfl

theorem text : RdfText num.stod num.stoi (fun f => (zero <=. f) = true)
    ["[NODES]".toList, "1 0 0 0".toList, "2 4 0 0".toList, "3 0 4 0".toList, "[ELEMENTS]".toList, "0 1 2 1".toList]
    [(.fin 0, .fin 0, .fin 0), (.fin 4, .fin 0, .fin 0), (.fin 0, .fin 4, .fin 0)] [(0, 1, 2, .fin 1)] where
  ex := ⟨[], [.node (.fin 0) (.fin 0) (.fin 0), .node (.fin 4) (.fin 0) (.fin 0), .node (.fin 0) (.fin 4) (.fin 0)],
    [.element 0 1 2 (.fin 1)],
    .cons (.nodes (DoubleDemo.wl (ws := ["[NODES]".toList]) (by decide) (by decide)) (Or.inl rfl))
    (.cons (.node (DoubleDemo.wl (ws := ["1".toList, "0".toList, "0".toList, "0".toList]) (by decide) (by decide))
      (DoubleDemo.nres (by decide)) d0 d0 d0)
    (.cons (.node (DoubleDemo.wl (ws := ["2".toList, "4".toList, "0".toList, "0".toList]) (by decide) (by decide))
      (DoubleDemo.nres (by decide)) d4 d0 d0)
    (.cons (.node (DoubleDemo.wl (ws := ["3".toList, "0".toList, "4".toList, "0".toList]) (by decide) (by decide))
      (DoubleDemo.nres (by decide)) d0 d4 d0)
    (.cons (.elements (DoubleDemo.wl (ws := ["[ELEMENTS]".toList]) (by decide) (by decide)) (Or.inl rfl))
    (.cons (.element (DoubleDemo.wl (ws := ["0".toList, "1".toList, "2".toList, "1".toList]) (by decide) (by decide))
      (DoubleDemo.nres (by decide)) i0 i1 i2 d1) .nil))))), by simp, by simp, by simp, rfl, rfl⟩
  range := by
    intro i j k f h
    simp at h
    obtain ⟨rfl, rfl, rfl, rfl⟩ := h
    simp [B64.zero_eq]
  ne := by simp

theorem is4 : IsDouble (.fin 4) 4 := by simpa using DoubleDemo.isDouble 4 (by norm_num)
theorem r4 : B64.round (.fin 4) = .fin 4 := B64.exact 4 0 (by norm_num) (by norm_num) (by norm_num) (by norm_num)
theorem half : B64.round (.fin (1 / 2)) = .fin (1 / 2) := B64.exact 1 (-1) (by norm_num) (by norm_num) (by norm_num) (by norm_num)
theorem rm1 : B64.round (.fin (-1)) = .fin (-1) := B64.exact (-1) 0 (by norm_num) (by norm_num) (by norm_num) (by norm_num)

/-- A shell with one rib of radius 1 and width 1. -/
theorem shell (fresh : Nat → Output B64) :
    ∃ s, Shell.make fresh 1 (.fin 1) (.fin 1) (.fin (1 / 2)) (.fin 2) (.fin (1 / 2)) = .ok s ∧ s.shape.rx = .fin 1 ∧
      s.ribs = [Rib.make 0 (.fin 1) (.fin 0) (.fin 1) (.fin 0)] := by
  have heps : (Scalar.eps : B64) = .fin Scalar.eps := rfl
  have hp := real_eps_pos
  have hl : Shell.resizeLoop (⟨.fin 1, .fin 1, .fin (1 / 2), .fin 2, .fin (1 / 2)⟩ : Shape B64) (.fin 1) 1 0 (.fin (-1)) [] =
      .ok [Rib.make 0 (.fin 1) (.fin 0) (.fin 1) (.fin 0)] () := by
    norm_num [Shell.resizeLoop, Shape.surfaceRadius, Shape.surfaceAngle, Shape.surfaceDerivative,
      Shape.checkWidthBound, DoubleDemo.r0, DoubleDemo.abs_fin, Res.assert, B64.div_fin, DoubleDemo.pow0, DoubleDemo.pow1, B64.one_eq,
      DoubleDemo.r1, B64.zero_eq, heps, not_lt.2 hp.le, DoubleDemo.atan0, DoubleDemo.eq_fin]
  have hr : ∀ s : Shell B64, s.shape = ⟨.fin 1, .fin 1, .fin (1 / 2), .fin 2, .fin (1 / 2)⟩ →
      ∃ s', s.resize fresh 1 = .ok s' () ∧ s'.shape.rx = .fin 1 ∧
        s'.ribs = [Rib.make 0 (.fin 1) (.fin 0) (.fin 1) (.fin 0)] := by
    intro s hs
    have e : Shell.resize fresh s 1 = .ok { s with
        ribs := [Rib.make 0 (.fin 1) (.fin 0) (.fin 1) (.fin 0)], out := s.out.clearReserve fresh
        cands := List.replicate 1 [] } () := by
      unfold Shell.resize
      have e1 : (-. (B64.fin (1 / 2))) -. (B64.fin 1) /. two = .fin (-1) := by
        norm_num [DoubleDemo.two_eq, DoubleDemo.neg_fin, B64.div_fin, half, rm1]
      have e2 : two *. (B64.fin (1 / 2)) /. Scalar.ofNat 1 = .fin 1 := by
        norm_num [DoubleDemo.two_eq, DoubleDemo.nat1, B64.div_fin, DoubleDemo.r1]
      rw [if_neg one_ne_zero]
      dsimp only [Shape.surfaceMaxWidth]
      rw [hs]
      dsimp only
      rw [e2, e1, hl]
    exact ⟨_, e, by rw [hs], rfl⟩
  obtain ⟨s', h1, h2, h3⟩ := hr ⟨Affine.id, ⟨.fin 1, .fin 1, .fin (1 / 2), .fin 2, .fin (1 / 2)⟩, Box.default, [],
    RecVec.init fresh, []⟩ rfl
  refine ⟨s'.updateBBox, ?_, h2, h3⟩
  unfold Shell.make
  dsimp only
  rw [h1]

/-- The pose: upright, the hub at (1, 1, 3/4). -/
noncomputable def exact : Affine ℝ := ⟨⟨⟨1, 0, 0⟩, ⟨0, 1, 0⟩, ⟨0, 0, 1⟩⟩, ⟨1, 1, 3 / 4⟩⟩
noncomputable def pose : Affine B64 :=
  ⟨⟨⟨fin 1, fin 0, fin 0⟩, ⟨fin 0, fin 1, fin 0⟩, ⟨fin 0, fin 0, fin 1⟩⟩, ⟨fin 1, fin 1, fin (3 / 4)⟩⟩

theorem scene : CalmScene 1 0 1 exact ⟨0, 0, 0⟩ ⟨0, 0, 1⟩ := by
  refine ⟨?_, ⟨?_, ?_, ?_⟩, ⟨?_, ?_, ?_⟩, ?_, ?_, ?_, ?_, ?_, ?_, ?_, ?_, ?_⟩
  · constructor <;> simp [exact]
  all_goals norm_num [exact, dot3]
  all_goals rw [abs_of_pos (by norm_num)]; norm_num

theorem depth : sunkDepth 1 0 exact ⟨0, 0, 0⟩ ⟨0, 0, 1⟩ = 1 / 4 := by
  simp only [sunkDepth, hub, footAt, dist3, dot3, exact]
  norm_num
  rw [show (9 : ℝ) = 3 ^ 2 by norm_num, show (16 : ℝ) = 4 ^ 2 by norm_num, Real.sqrt_sq (by norm_num), Real.sqrt_sq (by norm_num)]
  norm_num

end RoadDemo

/-- **The hypotheses are met.**  The text of a mesh with one triangle, legs of 4 m, is loaded in doubles; a tyre of one rib of radius 1 m and width
1 m is built in doubles and put 75 cm over it.  The setup returns, and the depth shown is 25 cm up to half a millimetre. -/
example (fresh : Nat → Output B64) : ∃ (m : Mesh B64) (s s' : Shell B64) (b : Bool) (out : Output B64),
    m.Loaded RoadDemo.num ∧ Shell.make fresh 1 (.fin 1) (.fin 1) (.fin (1 / 2)) (.fin 2) (.fin (1 / 2)) = .ok s ∧
    s.setupMesh .raw m RoadDemo.pose "sampling" = .ok s' b ∧ s'.out.read .raw 0 = .ok out ∧ Close (1 / 2 ^ 11) out.depth (1 / 4) := by
  obtain ⟨m, -, h1, hlen, h3⟩ := C19_rdf_load RoadDemo.num "a".toList _ Affine.id _ _ RoadDemo.text
  have hl : m.Loaded RoadDemo.num := .inl ⟨_, _, _, h1⟩
  obtain ⟨t, p, q, r, e1, e2, e3, e4, -, ef, e5, e6, e7⟩ := h3 0 0 1 2 (.fin 1) rfl
  simp only [List.getElem?_cons_zero, List.getElem?_cons_succ, Option.some.injEq] at e2 e3 e4
  subst e2 e3 e4
  have happ : ∀ x y : ℝ, (x = 0 ∨ x = 4) → (y = 0 ∨ y = 4) →
      (Affine.id : Affine B64).apply ⟨.fin x, .fin y, .fin 0⟩ = ⟨.fin x, .fin y, .fin 0⟩ := by
    rintro x y (rfl | rfl) (rfl | rfl) <;>
    norm_num [Affine.apply, Affine.id, M3.mulVec, M3.id, V3.ex, V3.ey, V3.ez, V3.add, V3.zeros, B64.zero_eq,
      B64.one_eq, DoubleDemo.r0, RoadDemo.r4]
  rw [happ 0 0 (by simp) (by simp)] at e5
  rw [happ 4 0 (by simp) (by simp)] at e6
  rw [happ 0 4 (by simp) (by simp)] at e7
  have hm1 : m.triangles = [t] := by
    cases hm : m.triangles with
    | nil => rw [hm] at e1; simp at e1
    | cons a as =>
      rw [hm] at e1 hlen
      simp only [List.getElem?_cons_zero, Option.some.injEq] at e1
      simp only [List.length_cons, List.length_nil] at hlen
      have : as = [] := List.length_eq_zero_iff.1 (by omega)
      rw [e1, this]
  let T : TriangleGround ℝ := ⟨⟨⟨0, 0, 0⟩, ⟨4, 0, 0⟩, ⟨0, 4, 0⟩⟩, 0, 1, ⟨0, 0, 1⟩, Box.default⟩
  have hd : List.Forall₂ InDoubles m.triangles [T] := by
    rw [hm1]
    refine .cons ⟨?_, ef⟩ .nil
    simp only [asTri, asVec, T]
    rw [← e5, ← e6, ← e7]
  have hv : FiniteMesh m := by
    intro t' ht'
    rw [hm1, List.mem_singleton] at ht'
    rw [ht']
    refine ⟨⟨0, 0, 0⟩, ⟨4, 0, 0⟩, ⟨0, 4, 0⟩, ?_⟩
    constructor
    · rw [e5]; exact ⟨DoubleDemo.is0, DoubleDemo.is0, DoubleDemo.is0⟩
    · rw [e6]; exact ⟨RoadDemo.is4, DoubleDemo.is0, DoubleDemo.is0⟩
    · rw [e7]; exact ⟨DoubleDemo.is0, RoadDemo.is4, DoubleDemo.is0⟩
  obtain ⟨s, hs, hrx, hrib⟩ := RoadDemo.shell fresh
  have hreach : s.Reachable .raw := .make hs
  have cl : ∀ {e x : ℝ}, 0 ≤ e → Close e (fin x) x := fun he => ⟨_, rfl, by simpa using he⟩
  have cl3 : ∀ {e x y z : ℝ}, 0 ≤ e → Close3 e ⟨fin x, fin y, fin z⟩ ⟨x, y, z⟩ := fun he => ⟨cl he, cl he, cl he⟩
  have hp : ClosePose (1 / 2 ^ 40) RoadDemo.pose RoadDemo.exact :=
    ⟨cl3 (by norm_num), cl3 (by norm_num), cl3 (by norm_num), cl3 (by norm_num)⟩
  have hc : IsDouble3 RoadDemo.pose.trans ⟨1, 1, 3 / 4⟩ := by
    refine ⟨DoubleDemo.is1, DoubleDemo.is1, rfl, ⟨3, -2, by norm_num [zpow_neg], by norm_num, by norm_num⟩, ?_⟩
    dsimp only
    rw [abs_of_pos (by norm_num)]
    exact lt_of_lt_of_le (by norm_num : (3 / 4 : ℝ) < 2 ^ (0 : ℤ)) (zpow_le_zpow_right₀ (by norm_num) (by norm_num))
  have hset : ∃ s' b, s.setupMesh .raw m RoadDemo.pose "sampling" = .ok s' b := by
    obtain ⟨loc, hloc, -⟩ := C97_search RoadDemo.num m hl hv s RoadDemo.pose hc (by rw [hrx]; exact DoubleDemo.is1) zero_le_one
    have hacc : ∀ j < s.ribs.length, s.out.accessible .raw (0 + j) = true := fun i hi => by
      rw [Shell.accessible_raw hreach.inv]
      rw [hrib] at hi
      simp only [List.length_cons, List.length_nil] at hi
      exact decide_eq_true (by omega)
    by_cases hne : loc = []
    · subst hne
      obtain ⟨out', b', hl⟩ := Shell.ribLoop_total (comb := fun _ _ => false) (b := false)
        (f := fun _ r => .ok (false, r.noContact RoadDemo.pose)) hacc (fun j r _ => ⟨_, rfl⟩)
      have hset := Shell.setupMesh_none (pol := .raw) (method := "sampling") hloc
      rw [hl] at hset
      exact ⟨_, _, hset⟩
    · have hset := Shell.setupMesh_some (pol := .raw) (method := "sampling") hreach.inv.cands hloc hne
      obtain ⟨out', b', hl⟩ := Shell.ribLoop_total (comb := fun c b => c || b) (b := false)
        (f := fun _ r => r.envelopMesh (Shell.ribCandidates RoadDemo.pose "sampling" loc r) RoadDemo.pose "sampling") hacc
        (fun j r hr => by simp [Rib.envelopMesh])
      rw [hl] at hset
      exact ⟨_, _, hset⟩
  obtain ⟨s', b, hset⟩ := hset
  have hshow : ∃ out, Shows .raw s' 0 (Rib.make 0 (.fin 1) (.fin 0) (.fin 1) (.fin 0)) out := by
    obtain ⟨loc, hloc, -⟩ := C97_search RoadDemo.num m hl hv s RoadDemo.pose hc (by rw [hrx]; exact DoubleDemo.is1) zero_le_one
    obtain ⟨flags, recs, k1, -⟩ := C38_mesh_flag .raw s s' hreach m RoadDemo.pose "sampling" loc b hloc hset
    obtain ⟨r', k2, -, k3⟩ := k1 0 (by rw [Shell.size, hrib]; simp)
    refine ⟨_, ?_, k3⟩
    rw [(Shell.setupMesh_rel (.inl ⟨b, hset⟩)).ribs, hrib]; rfl
  obtain ⟨out, hshow⟩ := hshow
  have hcr : CloseRib (1 / 2 ^ 40) (Rib.make 0 (.fin 1) (.fin 0) (.fin 1) (.fin 0)) 1 0 1 := by
    refine ⟨cl (by norm_num), ⟨?_, ?_, ?_⟩, cl (by norm_num)⟩ <;> simp only [Rib.make, B64.zero_eq] <;> exact cl (by norm_num)
  have hub0 : hub 0 RoadDemo.exact = ⟨1, 1, 3 / 4⟩ := by simp [hub, RoadDemo.exact]
  obtain ⟨g1, -, g2⟩ := C108_setup_partial (ε := 1 / 2 ^ 40) (η := 0) (D := 4) (F₀ := 1) (F₁ := 1) ⟨by norm_num, le_rfl⟩ RoadDemo.scene
    RoadDemo.num hl hv hd
    (fun T' hT' => by
      rw [List.mem_singleton] at hT'
      subst hT'
      refine ⟨⟨⟨?_, ?_, ?_⟩, ⟨?_, ?_, ?_⟩, ?_, ?_, ?_⟩, ⟨?_, ?_, ?_⟩, le_rfl, le_rfl⟩ <;> norm_num [T, plan2, footAt])
    zero_le_one (by norm_num) le_rfl (by norm_num) hreach hp hc (by rw [hrx]; exact DoubleDemo.is1) zero_le_one (by norm_num)
    (fun x x' hx hx' => by
      rw [hub0] at hx hx'
      have a := abs_le.1 hx
      have b := abs_le.1 hx'
      dsimp only at a b
      refine ⟨⟨x, x', 0⟩, ⟨T, List.mem_singleton.2 rfl, 1 - x / 4 - x' / 4, x / 4, x' / 4, by linarith, by linarith, by linarith, by ring, ?_⟩,
        rfl, rfl, ?_, ?_, ?_⟩
      · simp only [T]; ext <;> dsimp only <;> ring
      · exact hx.trans (by norm_num)
      · exact hx'.trans (by norm_num)
      · dsimp only; rw [abs_le]; constructor <;> norm_num)
    hset hshow hcr
  rw [RoadDemo.depth] at g1 g2
  exact ⟨m, s, s', b, out, hl, hs, hset, hshow.2, (g2 (g1 (by norm_num))).1.mono (by norm_num)⟩

/-! ## Too fine a mesh, in doubles -/

namespace RoadDemo

/-- A mesh of real triangles put in doubles. -/
noncomputable def put (T : TriangleGround ℝ) : TriangleGround B64 :=
  TriangleGround.updateBBox (TriangleGround.updateNormal ⟨asTri T.tri, 0, fin T.friction, V3.nan, Box.default⟩)

theorem put_in (T : TriangleGround ℝ) : InDoubles (put T) T := ⟨rfl, rfl⟩

theorem put_all (Ts : List (TriangleGround ℝ)) : List.Forall₂ InDoubles (Ts.map put) Ts := by
  induction Ts with
  | nil => exact .nil
  | cons T Ts ih => exact .cons (put_in T) ih

/-- Edges of the cells. -/
theorem edge (k : ℤ) (h : k = 0 ∨ k = 1 ∨ k = -1) : B64.round (.fin (k / 2 ^ 14)) = fin (k / 2 ^ 14) :=
  B64.exact k (-14) (by norm_num [zpow_neg]; ring) (by rcases h with rfl | rfl | rfl <;> norm_num) (by norm_num) (by norm_num)

theorem area (k : ℤ) (h : k = 0 ∨ k = 1 ∨ k = -1) : B64.round (.fin (k / 2 ^ 28)) = fin (k / 2 ^ 28) :=
  B64.exact k (-28) (by norm_num [zpow_neg]; ring) (by rcases h with rfl | rfl | rfl <;> norm_num) (by norm_num) (by norm_num)

/-- A triangle of doubles with the level edges `(a, 0, 0)` and `(0, d, 0)`, in units of `2 ^ -14`, is not found. -/
theorem unseen {T : Triangle ℝ} {a d : ℤ} (ha : a = 1 ∨ a = -1) (hd : d = 1 ∨ d = -1)
    (h1 : V3.sub T.v1 T.v0 = ⟨a / 2 ^ 14, 0, 0⟩) (h2 : V3.sub T.v2 T.v0 = ⟨0, d / 2 ^ 14, 0⟩) (O : V3 B64) :
    Inter.lineTriangle ⟨O, V3.neg V3.ez⟩ (asTri T) Scalar.eps = none := by
  have s1 : V3.sub (asTri T).v1 (asTri T).v0 = ⟨fin (a / 2 ^ 14), fin 0, fin 0⟩ := by
    simp only [V3.real_sub, V3.mk.injEq] at h1
    simp only [V3.sub, asTri, asVec, sub_fin, h1, edge a (Or.inr ha), Crack.rz]
  have s2 : V3.sub (asTri T).v2 (asTri T).v0 = ⟨fin 0, fin (d / 2 ^ 14), fin 0⟩ := by
    simp only [V3.real_sub, V3.mk.injEq] at h2
    simp only [V3.sub, asTri, asVec, sub_fin, h2, edge d (Or.inr hd), Crack.rz]
  have hcross : V3.cross (⟨fin 0, fin 0, fin (-1)⟩ : V3 B64) ⟨fin 0, fin (d / 2 ^ 14), fin 0⟩ = ⟨fin (d / 2 ^ 14), fin 0, fin 0⟩ := by
    have e := edge (-d) (by omega)
    have e' := edge d (by omega)
    push_cast at e
    simp only [V3.cross, mul_fin, sub_fin, mul_zero, zero_mul, Crack.rz, neg_one_mul, sub_zero, ← neg_div, e, zero_sub, neg_neg, neg_zero, e']
  have hdot : V3.dot (⟨fin (a / 2 ^ 14), fin 0, fin 0⟩ : V3 B64) ⟨fin (d / 2 ^ 14), fin 0, fin 0⟩ = fin ((a * d : ℤ) / 2 ^ 28) := by
    have e := area (a * d) (by rcases ha with rfl | rfl <;> rcases hd with rfl | rfl <;> simp)
    have e3 : (a : ℝ) / 2 ^ 14 * (d / 2 ^ 14) = (a * d : ℤ) / 2 ^ 28 := by push_cast; ring
    simp only [V3.dot, mul_fin, add_fin, mul_zero, Crack.rz, e3, e, add_zero]
  have hsmall : |((a * d : ℤ) : ℝ)| = 1 := by
    rcases ha with rfl | rfl <;> rcases hd with rfl | rfl <;> simp
  rw [Inter.lineTriangle]
  dsimp only
  rw [s1, s2, Crack.down, hcross, hdot, Crack.neg_eps, Crack.eps_fin, lt_fin, lt_fin, if_pos]
  have h3 := abs_le.1 hsmall.le
  rw [Bool.and_eq_true, decide_eq_true_eq, decide_eq_true_eq]
  norm_num at h3 ⊢
  constructor <;> linarith [h3.1, h3.2]

theorem fine_unseen {t : TriangleGround ℝ} (ht : t ∈ Road.grid (2 ^ 14)) (O : V3 B64) :
    Inter.lineTriangle ⟨O, V3.neg V3.ez⟩ (asTri t.tri) Scalar.eps = none := by
  obtain ⟨i, -, j, -, rfl | rfl⟩ := Road.mem_grid.1 ht
  · refine unseen (a := 1) (d := 1) (Or.inl rfl) (Or.inl rfl) ?_ ?_ O <;>
      simp only [Road.lower, Road.tile, TriangleGround.updateBBox, TriangleGround.updateNormal, V3.real_sub] <;> ext <;> push_cast <;> ring
  · refine unseen (a := -1) (d := -1) (Or.inr rfl) (Or.inr rfl) ?_ ?_ O <;>
      simp only [Road.upper, Road.tile, TriangleGround.updateBBox, TriangleGround.updateNormal, V3.real_sub] <;> ext <;> push_cast <;> ring

/-- A wheel of radius 50 cm and width 1 m whose centre is 25 cm over the middle of the unit square. -/
noncomputable def rib : Rib B64 := ⟨⟨fin (1 / 2), ⟨⟨fin 0, fin 0, fin 0⟩, V3.ey⟩⟩, 0, fin 0, fin 1, fin 0⟩
noncomputable def exact' : Affine ℝ := ⟨⟨⟨1, 0, 0⟩, ⟨0, 1, 0⟩, ⟨0, 0, 1⟩⟩, ⟨1 / 2, 1 / 2, 1 / 4⟩⟩
noncomputable def pose' : Affine B64 :=
  ⟨⟨⟨fin 1, fin 0, fin 0⟩, ⟨fin 0, fin 1, fin 0⟩, ⟨fin 0, fin 0, fin 1⟩⟩, ⟨fin (1 / 2), fin (1 / 2), fin (1 / 4)⟩⟩

theorem scene' : CalmScene (1 / 2) 0 1 exact' ⟨0, 0, 0⟩ ⟨0, 0, 1⟩ := by
  refine ⟨?_, ⟨?_, ?_, ?_⟩, ⟨?_, ?_, ?_⟩, ?_, ?_, ?_, ?_, ?_, ?_, ?_, ?_, ?_⟩
  · constructor <;> simp [exact']
  all_goals norm_num [exact', dot3]
  all_goals rw [abs_of_pos (by norm_num)]; norm_num

theorem depth' : sunkDepth (1 / 2) 0 exact' ⟨0, 0, 0⟩ ⟨0, 0, 1⟩ = 1 / 4 := by
  simp only [sunkDepth, hub, footAt, dist3, dot3, exact']
  norm_num
  rw [show (16 : ℝ) = 4 ^ 2 by norm_num, Real.sqrt_sq (by norm_num)]
  norm_num

/-- On the mesh of two triangles the wheel shows a contact. -/
theorem standing : (rib.envelopSamplingMesh ((Road.grid 1).map put) pose').1 = true ∧
    Close (1 / 2 ^ 15) (rib.envelopSamplingMesh ((Road.grid 1).map put) pose').2.depth (1 / 4) := by
  have cl : ∀ {e x : ℝ}, 0 ≤ e → Close e (fin x) x := fun he => ⟨_, rfl, by simpa using he⟩
  have cl3 : ∀ {e x y z : ℝ}, 0 ≤ e → Close3 e ⟨fin x, fin y, fin z⟩ ⟨x, y, z⟩ := fun he => ⟨cl he, cl he, cl he⟩
  have hub0 : hub 0 exact' = ⟨1 / 2, 1 / 2, 1 / 4⟩ := by simp [hub, exact']
  have h1 : ∀ T ∈ Road.grid 1, Upto 1 ⟨T.tri.v1.x - T.tri.v0.x, T.tri.v1.y - T.tri.v0.y, T.tri.v1.z - T.tri.v0.z⟩ ∧
      Upto 1 ⟨T.tri.v2.x - T.tri.v0.x, T.tri.v2.y - T.tri.v0.y, T.tri.v2.z - T.tri.v0.z⟩ ∧
      AlongPlane 0 ⟨0, 0, 0⟩ ⟨0, 0, 1⟩ T.tri := by
    intro T hT
    obtain ⟨⟨a, b⟩, c, d⟩ := Road.grid_sized one_pos T hT
    have z0 := ((Road.on_grid one_pos _).1 ⟨T, hT, Road.vertex0 _ _ _⟩).1
    have z1 := ((Road.on_grid one_pos _).1 ⟨T, hT, Road.vertex1 _ _ _⟩).1
    have z2 := ((Road.on_grid one_pos _).1 ⟨T, hT, Road.vertex2 _ _ _⟩).1
    exact ⟨⟨a, b, by rw [z0, z1]; simp⟩, ⟨c, d, by rw [z0, z2]; simp⟩, by simp [footAt, z0], by simp [footAt, z1], by simp [footAt, z2]⟩
  obtain ⟨g1, -, g2⟩ := C108_road_partial (ε := 1 / 2 ^ 44) (η := 0) (D := 1) (Z := 1) (F₀ := 1) (F₁ := 1) (r := rib) (p := pose')
    ⟨by norm_num, by norm_num⟩ scene'
    ⟨cl (by norm_num), cl3 (x := 0) (y := 0) (z := 0) (by norm_num), cl (by norm_num)⟩
    ⟨cl3 (by norm_num), cl3 (by norm_num), cl3 (by norm_num), cl3 (by norm_num)⟩ (put_all (Road.grid 1))
    (fun T hT => by
      obtain ⟨k1, k2, k3⟩ := h1 T hT
      have hf : T.friction = 1 := by obtain ⟨i, -, j, -, rfl | rfl⟩ := Road.mem_grid.1 hT <;> rfl
      exact ⟨⟨k1, k2, by norm_num, by rw [Road.grid_plan one_pos hT]; norm_num, by rw [Road.grid_plan one_pos hT]; norm_num⟩, k3, hf.ge, hf.le⟩)
    zero_le_one (by norm_num)
    (fun T hT => by
      obtain ⟨hz, ⟨a, b⟩, c, d⟩ := (Road.on_grid one_pos _).1 ⟨T, hT, Road.vertex0 _ _ _⟩
      rw [hz, hub0]
      dsimp only
      refine ⟨?_, ?_, ?_⟩
      · rw [abs_le]; constructor <;> linarith
      · rw [abs_le]; constructor <;> linarith
      · rw [sub_zero, abs_of_pos] <;> norm_num)
    le_rfl (by norm_num)
    (fun x x' hx hx' => by
      rw [hub0] at hx hx'
      have a := abs_le.1 hx
      have b := abs_le.1 hx'
      dsimp only at a b
      exact ⟨⟨x, x', 0⟩, (Road.on_grid one_pos _).2 ⟨rfl, ⟨by dsimp only; linarith, by dsimp only; linarith⟩, by dsimp only; linarith, by dsimp only; linarith⟩, rfl, rfl⟩)
  rw [depth'] at g1 g2
  have ht := g1 (by norm_num)
  exact ⟨ht, (g2 ht).1.mono (by norm_num)⟩

end RoadDemo

/-- **C108, refuted.**  The same level road in doubles as two triangles and as `2 ^ 29` triangles.  A wheel of radius 50 cm at 25 cm over the first
is found to be 25 cm deep, up to a thirtieth of a millimetre; on the second no rib finds the road in any pose. -/
theorem C108_fine_refuted : ∃ (ts ts' : List (TriangleGround B64)) (Ts Ts' : List (TriangleGround ℝ)),
    List.Forall₂ InDoubles ts Ts ∧ List.Forall₂ InDoubles ts' Ts' ∧ SameSurface Ts Ts' ∧
    (∀ T ∈ Ts ++ Ts', AlongPlane 0 ⟨0, 0, 0⟩ ⟨0, 0, 1⟩ T.tri) ∧
    (∃ (r : Rib B64) (p : Affine B64), (r.envelopSamplingMesh ts p).1 = true ∧ Close (1 / 2 ^ 15) (r.envelopSamplingMesh ts p).2.depth (1 / 4)) ∧
    ∀ (r : Rib B64) (p : Affine B64), r.envelopSamplingMesh ts' p = (false, r.noContact p) := by
  refine ⟨(Road.grid 1).map RoadDemo.put, (Road.grid (2 ^ 14)).map RoadDemo.put, Road.grid 1, Road.grid (2 ^ 14), RoadDemo.put_all _,
    RoadDemo.put_all _, ?_, ?_, ⟨RoadDemo.rib, RoadDemo.pose', RoadDemo.standing⟩, ?_⟩
  · intro p; rw [Road.on_grid one_pos, Road.on_grid (by positivity)]
  · have key : ∀ n : ℕ, 0 < n → ∀ T ∈ Road.grid n, AlongPlane 0 ⟨0, 0, 0⟩ ⟨0, 0, 1⟩ T.tri := by
      intro n hn T hT
      have z0 := ((Road.on_grid hn _).1 ⟨T, hT, Road.vertex0 _ _ _⟩).1
      have z1 := ((Road.on_grid hn _).1 ⟨T, hT, Road.vertex1 _ _ _⟩).1
      have z2 := ((Road.on_grid hn _).1 ⟨T, hT, Road.vertex2 _ _ _⟩).1
      exact ⟨by simp [footAt, z0], by simp [footAt, z1], by simp [footAt, z2]⟩
    intro T hT
    rcases List.mem_append.1 hT with h | h
    · exact key 1 one_pos T h
    · exact key _ (by positivity) T h
  · intro r p
    have h : ∀ o, Rib.samplingLineMesh ((Road.grid (2 ^ 14)).map RoadDemo.put) ⟨o, V3.neg V3.ez⟩ = none := by
      intro o
      rw [(C28_highest_hit OrderOn.b64 _ _).1]
      intro t ht
      obtain ⟨T, hT, rfl⟩ := List.mem_map.1 ht
      exact RoadDemo.fine_unseen hT o
    unfold Rib.envelopSamplingMesh Rib.envelopSampling
    rw [Rib.lineXp, h]

end Enve
