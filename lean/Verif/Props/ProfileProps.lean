import Verif.Props.ShapeProps
import Verif.Props.SetupProps
import Verif.Props.ShellProps
import Verif.Props.DoubleProps
import Verif.Model.ShellPose
import Verif.Spec.Turn
import Verif.Spec.Geometry

/-! # C128: a tyre reports the profile it was built with, whatever was done with it since -/

namespace Enve
open Scalar Spec

/-- A tyre that was built with the five parameters and then used in any way. -/
inductive Spec.BuiltFrom (pol : Policy) (rx mx ry my ly : ℝ) : Shell ℝ → Prop
  | make {fresh : Nat → Output ℝ} {n : Nat} {s : Shell ℝ} :
      Shell.make fresh n rx mx ry my ly = .ok s → BuiltFrom pol rx mx ry my ly s
  | use {s s' : Shell ℝ} : BuiltFrom pol rx mx ry my ly s → Shell.Evolves pol s s' → BuiltFrom pol rx mx ry my ly s'
  | resize {fresh : Nat → Output ℝ} {n : Nat} {s s' : Shell ℝ} : BuiltFrom pol rx mx ry my ly s →
      (s.resize fresh n = .ok s' () ∨ ∃ e, s.resize fresh n = .throw s' e) → BuiltFrom pol rx mx ry my ly s'

theorem Shell.resize_keeps {α : Type} [Scalar α] {fresh : Nat → Output α} {n : Nat} {s s' : Shell α}
    (h : s.resize fresh n = .ok s' () ∨ ∃ e, s.resize fresh n = .throw s' e) :
    s'.shape = s.shape ∧ s'.pose = s.pose ∧ s'.bbox = s.bbox := by
  unfold Shell.resize at h
  split at h
  · simp only [reduceCtorEq, MRes.throw.injEq, false_or, exists_and_left] at h
    obtain ⟨rfl, -⟩ := h
    exact ⟨rfl, rfl, rfl⟩
  · dsimp only at h
    split at h
    · simp only [MRes.ok.injEq, and_true, reduceCtorEq, exists_false, or_false] at h
      subst h
      exact ⟨rfl, rfl, rfl⟩
    · simp only [reduceCtorEq, MRes.throw.injEq, false_or, exists_and_left] at h
      obtain ⟨rfl, -⟩ := h
      exact ⟨rfl, rfl, rfl⟩
    · simp at h

theorem Spec.BuiltFrom.shape {pol : Policy} {rx mx ry my ly : ℝ} {s : Shell ℝ} (h : BuiltFrom pol rx mx ry my ly s) :
    s.shape = ⟨rx, mx, ry, my, ly⟩ ∧ s.Reachable pol := by
  induction h with
  | make h =>
    refine ⟨?_, .make h⟩
    unfold Shell.make at h
    dsimp only at h
    split at h
    · next s' u hs =>
      have := (Shell.resize_keeps (Or.inl hs)).1
      simp only [Res.ok.injEq] at h
      subst h
      exact this
    · cases h
    · cases h
  | use _ he ih => exact ⟨(Shell.Evolves.keeps he).2.1.trans ih.1, (Shell.Evolves.keeps he).1 ih.2⟩
  | resize _ he ih => exact ⟨(Shell.resize_keeps he).1.trans ih.1, .resize ih.2 he⟩

/-- **C128.**  Largest radius, width and membership in the width are those of the five parameters; the radius at a lateral
position is the one of the superellipse. -/
theorem C128_profile {pol : Policy} {rx mx ry my ly : ℝ} (hv : ValidProfile rx mx ry my ly) {s : Shell ℝ}
    (h : BuiltFrom pol rx mx ry my ly s) :
    s.maxRadius = rx ∧ s.maxWidth = ly ∧ (∀ y, s.inWidth y = true ↔ |y| ≤ ly) ∧
    (∀ y, |y| ≤ ly → ∃ r, s.radiusAt y = .ok r ∧ r ≤ s.maxRadius ∧ ∀ r', OnProfile rx mx ry my y r' ↔ r' = r) ∧
    (∀ y, ly < |y| → (s.radiusAt y).isThrow = true ∧ ∀ tol, (s.slopeAt y tol).isThrow = true ∧ (s.angleAt y tol).isThrow = true) := by
  obtain ⟨hs, -⟩ := h.shape
  have c1 := C01_profile_radius ⟨rx, mx, ry, my, ly⟩ hv
  refine ⟨by rw [Shell.maxRadius, hs]; rfl, by rw [Shell.maxWidth, hs]; rfl, fun y => ?_, fun y hy => ?_, fun y hy => ?_⟩
  · rw [Shell.inWidth, hs]
    simp [Shape.checkWidthBound]
  · obtain ⟨r, h1, -, h3, h4⟩ := c1.1 y hy
    refine ⟨r, by rw [Shell.radiusAt, hs]; exact h1, ?_, fun r' => (h4 r').symm⟩
    rw [Shell.maxRadius, hs]; exact h3
  · have g := fun tol => C03_width_guard_real ⟨rx, mx, ry, my, ly⟩ y tol
    refine ⟨?_, fun tol => ⟨?_, ?_⟩⟩
    · rw [Shell.radiusAt, hs]; exact (g 0).1.2 hy
    · rw [Shell.slopeAt, hs]; exact (g tol).2.1.2 hy
    · rw [Shell.angleAt, hs]; exact (g tol).2.2.2 hy

/-- **C128, slope (partial: outside the band of the tolerance around the middle).**  The slope reported is the derivative of
the radius of the superellipse and the angle is its arc tangent. -/
theorem C128_slope_partial {pol : Policy} {rx mx ry my ly : ℝ} (hv : ValidProfile rx mx ry my ly) {s : Shell ℝ}
    (h : BuiltFrom pol rx mx ry my ly s) {y tol : ℝ} (h0 : 0 ≤ tol) (h1 : tol < |y|) (h2 : |y| < ly) :
    ∃ d, s.slopeAt y tol = .ok d ∧ s.angleAt y tol = .ok (Real.arctan d) ∧ s.slopeAt (-y) tol = .ok (-d) ∧
      ∀ R : ℝ → ℝ, (∀ z, |z| ≤ ly → OnProfile rx mx ry my z (R z)) → HasDerivAt R d y := by
  obtain ⟨hs, -⟩ := h.shape
  obtain ⟨d, e1, e2, e3, e4⟩ := C02_derivative_is_slope_partial ⟨rx, mx, ry, my, ly⟩ hv y tol h0 h1 h2
  refine ⟨d, by rw [Shell.slopeAt, hs]; exact e1, by rw [Shell.angleAt, hs]; exact e4, by rw [Shell.slopeAt, hs]; exact e3,
    fun R hR => e2 R fun z hz => ?_⟩
  obtain ⟨r, k1, -, -, k4⟩ := (C01_profile_radius ⟨rx, mx, ry, my, ly⟩ hv).1 z hz
  rw [k1, (k4 (R z)).2 (hR z hz)]

/-- Inside that band slope and angle are reported as zero. -/
theorem C128_band {pol : Policy} {rx mx ry my ly : ℝ} {s : Shell ℝ} (h : BuiltFrom pol rx mx ry my ly s) {y tol : ℝ}
    (h1 : |y| ≤ tol) (h2 : |y| ≤ ly) : s.slopeAt y tol = .ok 0 ∧ s.angleAt y tol = .ok 0 := by
  obtain ⟨hs, -⟩ := h.shape
  have : (⟨rx, mx, ry, my, ly⟩ : Shape ℝ).surfaceDerivative y tol = .ok 0 := by
    simp [Shape.surfaceDerivative, Shape.checkWidthBound, not_lt.2 h1, not_lt.2 h2, Res.assert]
  refine ⟨by rw [Shell.slopeAt, hs]; exact this, ?_⟩
  rw [Shell.angleAt, hs, Shape.surfaceAngle, this]
  simp

/-- **C128, bounding box.**  After `updateBBox` the box is the cube with the largest radius around the hub. -/
theorem C128_box {pol : Policy} {rx mx ry my ly : ℝ} (hr : 0 < rx) {s : Shell ℝ} (h : BuiltFrom pol rx mx ry my ly s) :
    s.updateBBox.box.min = minus s.translation ⟨rx, rx, rx⟩ ∧ s.updateBBox.box.max = plus s.translation ⟨rx, rx, rx⟩ := by
  obtain ⟨hs, -⟩ := h.shape
  have k (a : ℝ) : Box.order1 (a - rx) (a + rx) = (a - rx, a + rx) := by
    have : ¬ a + rx < a - rx := by linarith
    simp [Box.order1, this]
  constructor <;>
    simp [Shell.box, Shell.updateBBox, hs, Shape.surfaceMaxRadius, Box.updateMaxMin, V3.real_sub, V3.real_add, k, minus, plus,
      Shell.translation]

theorem Shape.default_radius (y : B64) : (Shape.default : Shape B64).surfaceRadius y = .ok Scalar.nan := by
  have h (a : B64) : ((Scalar.nan : B64) <. a) = false := by rcases a with ⟨a⟩; cases a <;> rfl
  have m (a : B64) : (Scalar.nan : B64) *. a = Scalar.nan := by rcases a with ⟨a⟩; cases a <;> rfl
  simp [Shape.surfaceRadius, Shape.default, Shape.checkWidthBound, h, m]

/-- **C128 and the default constructor**: a profile that was never given its parameters does not throw; whatever the position
it returns the radius NaN.  No tyre can be built with it. -/
theorem C128_default :
    (∀ y : B64, (Shape.default : Shape B64).surfaceRadius y = .ok Scalar.nan) ∧
    ∀ (fresh : Nat → Output B64) (n : Nat),
      (Shell.make fresh n (Scalar.nan : B64) Scalar.nan Scalar.nan Scalar.nan Scalar.nan).isThrow = true := by
  refine ⟨Shape.default_radius, fun fresh n => ?_⟩
  rcases n with - | n
  · simp [Shell.make, Shell.resize, Res.isThrow]
  · have k (y : B64) : ∃ a, (Shape.default : Shape B64).surfaceAngle y Scalar.eps = .ok a := by
      have := (C03_width_guard (Shape.default : Shape B64) y Scalar.eps).2.2.2.2.2
      have h : ((Scalar.nan : B64) <. Scalar.abs y) = false := by rcases Scalar.abs y with ⟨a⟩; cases a <;> rfl
      rw [show (Shape.default : Shape B64).ly = Scalar.nan from rfl, h] at this
      cases e : (Shape.default : Shape B64).surfaceAngle y Scalar.eps <;> simp [e, Res.isOk] at this ⊢
    have hz : ((zero : B64) <. Scalar.nan) = false := by rw [B64.zero_eq]; rfl
    have e : (⟨Scalar.nan, Scalar.nan, Scalar.nan, Scalar.nan, Scalar.nan⟩ : Shape B64) = Shape.default := rfl
    unfold Shell.make Shell.resize
    simp only [e, Nat.add_eq_zero_iff, one_ne_zero, and_false, if_false]
    generalize (two *. _ /. Scalar.ofNat (n + 1) : B64) = w
    generalize ((-. _) -. w /. two : B64) = y0
    rw [Shell.resizeLoop]
    obtain ⟨a, ha⟩ := k (y0 +. w)
    simp [Shape.default_radius, ha, hz, Res.assert, Res.isThrow]

/-- A tyre that was built, moved and given another number of ribs. -/
example (fresh fresh' : Nat → Output ℝ) : ∃ s : Shell ℝ, BuiltFrom .raw 0.3 2 0.2 4 0.1 s ∧ s.size = 7 ∧
    s.translation = ⟨1, 2, 3⟩ ∧ s.maxRadius = 0.3 ∧ s.inWidth (-0.1) = true := by
  have hv : ValidProfile (0.3 : ℝ) 2 0.2 4 0.1 := ⟨by norm_num, by norm_num, by norm_num, by norm_num, by norm_num, by norm_num⟩
  obtain ⟨s, h1, -, hp, h2, -⟩ := C04_construct fresh 5 (by norm_num) 0.3 2 0.2 4 0.1 hv
  have hb : BuiltFrom .raw 0.3 2 0.2 4 0.1 (s.translate ⟨1, 2, 3⟩) := .use (.make h1) (.translate _ .refl)
  have hv' : (s.translate ⟨1, 2, 3⟩).shape.Valid := by rw [hb.shape.1]; exact hv
  obtain ⟨s', k1, k2, -⟩ := C04_resize_ribs fresh' (s.translate ⟨1, 2, 3⟩) hv' 7 (by norm_num)
  have hb' : BuiltFrom .raw 0.3 2 0.2 4 0.1 s' := .resize hb (Or.inl k1)
  obtain ⟨c1, c2, c3, -⟩ := C128_profile hv hb'
  refine ⟨s', hb', k2, ?_, c1, (c3 _).2 (by norm_num [abs_of_neg])⟩
  rw [Shell.translation, (Shell.resize_keeps (Or.inl k1)).2.1, Shell.translate, hp]
  simp [Affine.translate, Affine.id, M3.mulVec, M3.id, V3.ex, V3.ey, V3.ez, V3.real_add, V3.zeros]

end Enve
