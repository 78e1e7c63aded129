import Verif.Spec.Finite
import Verif.Props.DoubleProps
import Verif.Props.SamplingProps
import Verif.Model.Shell

/-! # Data that are not numbers never make a contact -/

namespace Enve
open Scalar Spec

/-- A property that the operands of an operation have if its result has it (the divisor excepted). -/
structure Hered (P : B64 → Prop) : Prop where
  add : ∀ {a b : B64}, P (a +. b) → P a ∧ P b
  sub : ∀ {a b : B64}, P (a -. b) → P a ∧ P b
  mul : ∀ {a b : B64}, P (a *. b) → P a ∧ P b
  div : ∀ {a b : B64}, P (a /. b) → P a
  neg : ∀ {a : B64}, P (-. a) → P a
  sqrt : ∀ {a : B64}, P (Scalar.sqrt a) → P a
  small : ∀ {a : B64}, (Scalar.abs a <. Scalar.eps) = true → P a

namespace Finite

theorem round_number {a : XR} (h : IsNumber (B64.round a)) : ∃ x, a = .fin x := by
  obtain ⟨y, e⟩ := h
  cases a with
  | fin x => exact ⟨x, rfl⟩
  | pinf => exact absurd (congrArg B64.val e) (by show XR.pinf ≠ XR.fin y; simp)
  | ninf => exact absurd (congrArg B64.val e) (by show XR.ninf ≠ XR.fin y; simp)
  | nan => exact absurd (congrArg B64.val e) (by show XR.nan ≠ XR.fin y; simp)

theorem round_notnan {a : XR} (h : NotNaN (B64.round a)) : a ≠ .nan := by
  rintro rfl; exact h rfl

theorem number_of_val {a : B64} {x : ℝ} (h : a.val = .fin x) : IsNumber a := by
  obtain ⟨a⟩ := a; exact ⟨x, congrArg B64.mk h⟩

theorem infSign_fin (x y : ℝ) : XR.infSign x ≠ .fin y := by
  unfold XR.infSign; split_ifs <;> simp

theorem xadd {a b : XR} {z : ℝ} (h : a +. b = .fin z) : (∃ x, a = .fin x) ∧ ∃ y, b = .fin y := by
  cases a <;> cases b <;> first | exact ⟨⟨_, rfl⟩, ⟨_, rfl⟩⟩ | exact absurd h (by show XR.add _ _ ≠ _; simp [XR.add])

theorem xsub {a b : XR} {z : ℝ} (h : a -. b = .fin z) : (∃ x, a = .fin x) ∧ ∃ y, b = .fin y := by
  cases a <;> cases b <;> first
    | exact ⟨⟨_, rfl⟩, ⟨_, rfl⟩⟩
    | exact absurd h (by show XR.add _ (XR.neg _) ≠ _; simp [XR.add, XR.neg])

theorem xmul {a b : XR} {z : ℝ} (h : a *. b = .fin z) : (∃ x, a = .fin x) ∧ ∃ y, b = .fin y := by
  cases a <;> cases b <;> first
    | exact ⟨⟨_, rfl⟩, ⟨_, rfl⟩⟩
    | exact absurd h (by show XR.mul _ _ ≠ _; simp [XR.mul, infSign_fin])

theorem xdiv {a b : XR} {z : ℝ} (h : a /. b = .fin z) : ∃ x, a = .fin x := by
  cases a with
  | fin x => exact ⟨x, rfl⟩
  | nan => exact absurd h (by rw [XR.nan_div]; simp)
  | pinf =>
    cases b with
    | fin y => exact absurd h (by show (if 0 ≤ y then _ else _) ≠ _; split_ifs <;> simp)
    | pinf => exact absurd h (by show XR.nan ≠ _; simp)
    | ninf => exact absurd h (by show XR.nan ≠ _; simp)
    | nan => exact absurd h (by show XR.nan ≠ _; simp)
  | ninf =>
    cases b with
    | fin y => exact absurd h (by show (if 0 ≤ y then _ else _) ≠ _; split_ifs <;> simp)
    | pinf => exact absurd h (by show XR.nan ≠ _; simp)
    | ninf => exact absurd h (by show XR.nan ≠ _; simp)
    | nan => exact absurd h (by show XR.nan ≠ _; simp)

theorem small_number {a : B64} (h : (Scalar.abs a <. Scalar.eps) = true) : IsNumber a := by
  obtain ⟨a⟩ := a
  cases a with
  | fin x => exact ⟨x, rfl⟩
  | pinf => exact absurd h Bool.false_ne_true
  | ninf => exact absurd h Bool.false_ne_true
  | nan => exact absurd h Bool.false_ne_true

theorem notnan_of_number {a : B64} (h : IsNumber a) : NotNaN a := by
  obtain ⟨x, rfl⟩ := h
  show XR.fin x ≠ XR.nan
  simp

theorem number : Hered IsNumber where
  add h := by
    obtain ⟨z, e⟩ := round_number h
    obtain ⟨⟨x, hx⟩, y, hy⟩ := xadd e
    exact ⟨number_of_val hx, number_of_val hy⟩
  sub h := by
    obtain ⟨z, e⟩ := round_number h
    obtain ⟨⟨x, hx⟩, y, hy⟩ := xsub e
    exact ⟨number_of_val hx, number_of_val hy⟩
  mul h := by
    obtain ⟨z, e⟩ := round_number h
    obtain ⟨⟨x, hx⟩, y, hy⟩ := xmul e
    exact ⟨number_of_val hx, number_of_val hy⟩
  div h := by
    obtain ⟨z, e⟩ := round_number h
    obtain ⟨x, hx⟩ := xdiv e
    exact number_of_val hx
  neg {a} h := by
    obtain ⟨a⟩ := a
    obtain ⟨x, e⟩ := h
    cases a with
    | fin x => exact ⟨x, rfl⟩
    | pinf => exact absurd (congrArg B64.val e) (by show XR.ninf ≠ XR.fin x; simp)
    | ninf => exact absurd (congrArg B64.val e) (by show XR.pinf ≠ XR.fin x; simp)
    | nan => exact absurd (congrArg B64.val e) (by show XR.nan ≠ XR.fin x; simp)
  sqrt {a} h := by
    obtain ⟨a⟩ := a
    obtain ⟨z, e⟩ := round_number h
    cases a with
    | fin x => exact ⟨x, rfl⟩
    | pinf => exact absurd e (by show XR.pinf ≠ XR.fin z; simp)
    | ninf => exact absurd e (by show XR.nan ≠ XR.fin z; simp)
    | nan => exact absurd e (by show XR.nan ≠ XR.fin z; simp)
  small := small_number

theorem notnan : Hered NotNaN where
  add {a b} h := by
    have h := round_notnan h
    exact ⟨fun e => h (by rw [e, XR.nan_add]), fun e => h (by rw [e, XR.add_nan])⟩
  sub {a b} h := by
    have h := round_notnan h
    exact ⟨fun e => h (by rw [e, XR.nan_sub]), fun e => h (by rw [e, XR.sub_nan])⟩
  mul {a b} h := by
    have h := round_notnan h
    exact ⟨fun e => h (by rw [e, XR.nan_mul]), fun e => h (by rw [e, XR.mul_nan])⟩
  div {a b} h := by
    have h := round_notnan h
    exact fun e => h (by rw [e, XR.nan_div])
  neg {a} h := fun e => h (by show -. a.val = XR.nan; rw [e]; rfl)
  sqrt {a} h := fun e => h (by
    show (B64.round (Scalar.sqrt a.val)).val = XR.nan; rw [e]; rfl)
  small h := notnan_of_number (small_number h)

section
variable {P : B64 → Prop} (H : Hered P)
include H

theorem add3 {a b : V3 B64} (h : All3 P (V3.add a b)) : All3 P a ∧ All3 P b :=
  ⟨⟨(H.add h.x).1, (H.add h.y).1, (H.add h.z).1⟩, ⟨(H.add h.x).2, (H.add h.y).2, (H.add h.z).2⟩⟩

theorem sub3 {a b : V3 B64} (h : All3 P (V3.sub a b)) : All3 P a ∧ All3 P b :=
  ⟨⟨(H.sub h.x).1, (H.sub h.y).1, (H.sub h.z).1⟩, ⟨(H.sub h.x).2, (H.sub h.y).2, (H.sub h.z).2⟩⟩

theorem smul3 {k : B64} {a : V3 B64} (h : All3 P (V3.smul k a)) : P k ∧ All3 P a :=
  ⟨(H.mul h.x).1, ⟨(H.mul h.x).2, (H.mul h.y).2, (H.mul h.z).2⟩⟩

theorem sdiv3 {k : B64} {a : V3 B64} (h : All3 P (V3.sdiv a k)) : All3 P a :=
  ⟨H.div h.x, H.div h.y, H.div h.z⟩

theorem dot3 {a b : V3 B64} (h : P (V3.dot a b)) : All3 P a ∧ All3 P b := by
  have h12 := H.add h
  have h1 := H.add h12.1
  have hx := H.mul h1.1
  have hy := H.mul h1.2
  have hz := H.mul h12.2
  exact ⟨⟨hx.1, hy.1, hz.1⟩, ⟨hx.2, hy.2, hz.2⟩⟩

theorem cross3 {a b : V3 B64} (h : All3 P (V3.cross a b)) : All3 P a ∧ All3 P b := by
  have hx := H.sub h.x
  have hy := H.sub h.y
  have y1 := H.mul hx.1
  have y2 := H.mul hx.2
  have y3 := H.mul hy.1
  exact ⟨⟨(H.mul hy.2).1, y1.1, y2.1⟩, ⟨y3.2, y2.2, y1.2⟩⟩

theorem norm3 {a : V3 B64} (h : P (V3.norm a)) : All3 P a := (dot3 H (H.sqrt h)).1

theorem mulVec3 {m : M3 B64} {v : V3 B64} (h : All3 P (M3.mulVec m v)) :
    (All3 P m.c0 ∧ All3 P m.c1 ∧ All3 P m.c2) ∧ All3 P v := by
  have hx := dot3 H (a := ⟨m.c0.x, m.c1.x, m.c2.x⟩) (b := v) h.x
  have hy := dot3 H (a := ⟨m.c0.y, m.c1.y, m.c2.y⟩) (b := v) h.y
  have hz := dot3 H (a := ⟨m.c0.z, m.c1.z, m.c2.z⟩) (b := v) h.z
  exact ⟨⟨⟨hx.1.x, hy.1.x, hz.1.x⟩, ⟨hx.1.y, hy.1.y, hz.1.y⟩, ⟨hx.1.z, hy.1.z, hz.1.z⟩⟩, hx.2⟩

theorem apply3 {p : Affine B64} {v : V3 B64} (h : All3 P (V3.add p.trans (M3.mulVec p.linear v))) :
    AllPose P p ∧ All3 P v := by
  obtain ⟨ht, hm⟩ := add3 H h
  obtain ⟨⟨h0, h1, h2⟩, hv⟩ := mulVec3 H hm
  exact ⟨⟨ht, h0, h1, h2⟩, hv⟩

theorem planeDisk3 {p : Plane B64} {d : Disk B64} {seg : Segment B64} (e : Inter.planeDisk p d Scalar.eps = some seg)
    (h : All3 P seg.v0) : AllPlane P p ∧ AllPlane P d.plane ∧ P d.radius := by
  revert e
  unfold Inter.planeDisk
  split
  · rename_i l el
    intro e
    have key : All3 P l.origin ∧ P d.radius := by
      revert e
      unfold Inter.lineDisk
      dsimp only
      split_ifs with h1 h2
      · simp
      · intro e
        obtain rfl := Option.some.inj e
        obtain ⟨ho, -⟩ := sub3 H h
        have hd := (H.mul (H.sub (H.small h2)).2).1
        exact ⟨ho, (H.mul (H.sub hd).2).1⟩
      · intro e
        obtain rfl := Option.some.inj e
        obtain ⟨ho, hk⟩ := sub3 H h
        have hr := (H.add (H.mul (smul3 H hk).1).1).2
        have hd := (H.mul (H.sub (H.sqrt hr)).2).1
        exact ⟨ho, (H.mul (H.sub hd).2).1⟩
    refine ⟨?_, ?_, key.2⟩ <;>
    · revert el
      unfold Inter.planePlane
      dsimp only
      split_ifs with h1
      · simp
      · intro el
        obtain rfl := Option.some.inj el
        have hc := (smul3 H (add3 H key.1).1).1
        have hd := H.sub (H.mul hc).1
        have h0 := dot3 H (H.neg (H.neg hd.1))
        have h1 := dot3 H (H.neg (H.neg (H.mul hd.2).2))
        first | exact ⟨h0.1, h0.2⟩ | exact ⟨h1.1, h1.2⟩
  · simp

theorem rib3 {r : Rib B64} {pose : Affine B64} (h : AllPlane P (r.diskGrd pose).plane) :
    AllPose P pose ∧ All3 P r.center ∧ All3 P r.disk.normal := by
  obtain ⟨hp, hc⟩ := apply3 H h.origin
  exact ⟨hp, hc, (mulVec3 H h.normal).2⟩

end

/-- The length of a difference is a number where something minus it is not negative. -/
theorem norm_number {a : B64} {v : V3 B64} (h : (Scalar.zero <=. (a -. V3.norm v)) = true) : IsNumber (V3.norm v) := by
  rw [B64.zero_eq] at h
  rcases B64.sqrt_cases (V3.sqNorm v) with ⟨y, e, -⟩ | e | e
  · exact ⟨y, e⟩
  · rw [V3.norm, e] at h
    obtain ⟨a⟩ := a
    cases a <;> exact absurd h Bool.false_ne_true
  · rw [V3.norm, e] at h
    obtain ⟨a⟩ := a
    cases a <;> exact absurd h Bool.false_ne_true

theorem le_of_lt {a b : B64} (h : (a <. b) = true) : (a <=. b) = true := by
  obtain ⟨a⟩ := a
  obtain ⟨b⟩ := b
  cases a <;> cases b <;> first
    | rfl
    | exact absurd h Bool.false_ne_true
    | exact decide_eq_true (of_decide_eq_true h).le

end Finite

open Finite

/-- **C118**: a contact of the geometric method on flat ground has no NaN among the data it was computed from: all
entries of the pose, the plane of the ground, centre, axis and radius of the rib. -/
theorem C118_geometric_nan {r : Rib B64} {g : Flat B64} {pose : Affine B64}
    (hc : (r.envelopGeometricFlat g pose).1 = true) :
    AllPose NotNaN pose ∧ AllPlane NotNaN g.plane ∧ All3 NotNaN r.center ∧ All3 NotNaN r.disk.normal ∧
    NotNaN r.radius := by
  revert hc
  unfold Rib.envelopGeometricFlat
  split
  · intro h; exact absurd h Bool.false_ne_true
  · rename_i seg es
    split_ifs with hl
    · intro _
      have hn : NotNaN seg.length := by
        intro e
        have : seg.length = ⟨.nan⟩ := by
          generalize seg.length = z at e
          obtain ⟨z⟩ := z; exact congrArg B64.mk e
        rw [this] at hl
        exact absurd hl Bool.false_ne_true
      have h3 := sub3 notnan (norm3 notnan hn)
      obtain ⟨h1, h2, hr⟩ := planeDisk3 notnan es h3.1
      obtain ⟨hp, hcn⟩ := rib3 notnan h2
      exact ⟨hp, h1, hcn.1, hcn.2, hr⟩
    · intro h; simp at h

/-- **C118**: if moreover the reported depth is not negative, all these data are numbers, and so is the reported
point. -/
theorem C118_geometric_number {r : Rib B64} {g : Flat B64} {pose : Affine B64}
    (hc : (r.envelopGeometricFlat g pose).1 = true)
    (hd : (Scalar.zero <=. (r.envelopGeometricFlat g pose).2.depth) = true) :
    AllPose IsNumber pose ∧ AllPlane IsNumber g.plane ∧ All3 IsNumber r.center ∧ All3 IsNumber r.disk.normal ∧
    IsNumber r.radius ∧ All3 IsNumber (r.envelopGeometricFlat g pose).2.point := by
  revert hc hd
  unfold Rib.envelopGeometricFlat
  split
  · intro h; exact absurd h Bool.false_ne_true
  · rename_i seg es
    split_ifs with hl
    · intro _ hd
      dsimp only at hd
      have hp := (sub3 number (norm3 number (norm_number hd))).1
      have h3 := add3 number (sdiv3 number hp)
      obtain ⟨h1, h2, hr⟩ := planeDisk3 number es h3.1
      obtain ⟨hq, hcn⟩ := rib3 number h2
      exact ⟨hq, h1, hcn.1, hcn.2, hr, hp⟩
    · intro h; simp at h

namespace Finite

theorem sampling3 {r : Rib B64} {sample : Line B64 → Option (V3 B64 × B64)} {pose : Affine B64}
    (hs : ∀ o p f, sample ⟨o, V3.neg V3.ez⟩ = some (p, f) → All3 IsNumber p → All3 IsNumber o)
    (hc : (r.envelopSampling sample pose).1 = true) :
    AllPose IsNumber pose ∧ All3 IsNumber r.center ∧ IsNumber r.radius ∧ IsNumber r.width ∧
    All3 IsNumber (r.envelopSampling sample pose).2.point ∧
    ∃ p f, sample (r.lineXp pose) = some (p, f) ∧ All3 IsNumber p := by
  revert hc
  unfold Rib.envelopSampling
  split
  · rename_i p0 f0 p1 f1 p2 f2 p3 f3 e0 e1 e2 e3
    dsimp only
    split_ifs with hl
    · intro _
      have hp := (sub3 number (norm3 number (norm_number (le_of_lt hl)))).1
      have hsum := add3 number (sdiv3 number hp)
      have h2 := add3 number hsum.1
      have h0 := add3 number h2.1
      have l0 := apply3 number (hs _ _ _ e0 h0.1)
      have l2 := apply3 number (hs _ _ _ e2 h2.2)
      have hx := add3 number l0.2
      have hy := add3 number l2.2
      refine ⟨l0.1, hx.1, (number.mul (smul3 number hx.2).1).2, (number.mul (smul3 number hy.2).1).2, hp, ?_⟩
      exact ⟨p0, f0, e0, h0.1⟩
    · intro h; simp at h
  · intro h; exact absurd h Bool.false_ne_true

end Finite

/-- **C118**: a contact of the sampling method on flat ground was computed from numbers only: all entries of the pose,
the plane of the ground, centre, radius and width of the rib; the reported point is made of numbers as well. -/
theorem C118_sampling_number {r : Rib B64} {g : Flat B64} {pose : Affine B64}
    (hc : (r.envelopSamplingFlat g pose).1 = true) :
    AllPose IsNumber pose ∧ AllPlane IsNumber g.plane ∧ All3 IsNumber r.center ∧ IsNumber r.radius ∧
    IsNumber r.width ∧ All3 IsNumber (r.envelopSamplingFlat g pose).2.point := by
  have key : ∀ o p f, Rib.samplingLineFlat g ⟨o, V3.neg V3.ez⟩ = some (p, f) → All3 IsNumber p →
      All3 IsNumber o ∧ AllPlane IsNumber g.plane := by
    intro o p f e hp
    revert e
    unfold Rib.samplingLineFlat Inter.linePlane
    dsimp only
    split_ifs with hl
    · intro e
      simp only [Option.map_some, Option.some.injEq, Prod.mk.injEq] at e
      obtain ⟨rfl, -⟩ := e
      obtain ⟨ho, ht⟩ := add3 number hp
      have h := dot3 number (number.div (smul3 number ht).1)
      exact ⟨ho, ⟨(sub3 number h.1).1, h.2⟩⟩
    · simp
  obtain ⟨h1, h2, h3, h4, h5, p, f, e, hp⟩ := sampling3 (fun o p f e hp => (key o p f e hp).1) hc
  exact ⟨h1, (key _ _ _ e hp).2, h2, h3, h4, h5⟩

/-- **C118**: a contact of the sampling method on a mesh was computed from numbers only: all entries of the pose,
centre, radius and width of the rib; the reported point and the vertices of a triangle of the ground are numbers as
well. -/
theorem C118_mesh_sampling_number {r : Rib B64} {ts : List (TriangleGround B64)} {pose : Affine B64}
    (hc : (r.envelopSamplingMesh ts pose).1 = true) :
    AllPose IsNumber pose ∧ All3 IsNumber r.center ∧ IsNumber r.radius ∧ IsNumber r.width ∧
    All3 IsNumber (r.envelopSamplingMesh ts pose).2.point ∧ ∃ t ∈ ts, AllTri IsNumber t.tri := by
  have key : ∀ o p f, Rib.samplingLineMesh ts ⟨o, V3.neg V3.ez⟩ = some (p, f) → All3 IsNumber p →
      All3 IsNumber o ∧ ∃ t ∈ ts, AllTri IsNumber t.tri := by
    intro o p f e hp
    have hmem : (p, f) ∈ Rib.samplingHits ts ⟨o, V3.neg V3.ez⟩ := by
      revert e
      unfold Rib.samplingLineMesh
      split
      · simp
      · rename_i h hs eh
        intro e
        rw [eh, ← Option.some.inj e]
        exact Rib.highest_mem h hs
    obtain ⟨t, hts, ht⟩ := List.mem_filterMap.1 hmem
    revert ht
    unfold Inter.lineTriangle
    dsimp only
    split_ifs with h1 h2 h3
    · simp
    · simp
    · simp
    · intro e
      simp only [Option.map_some, Option.some.injEq, Prod.mk.injEq] at e
      obtain ⟨rfl, -⟩ := e
      obtain ⟨ho, hr⟩ := add3 number hp
      obtain ⟨h2, hq⟩ := dot3 number (number.mul (smul3 number hr).1).2
      have h1 := (cross3 number hq).2
      exact ⟨ho, t, hts, (sub3 number h1).2, (sub3 number h1).1, (sub3 number h2).1⟩
  obtain ⟨h1, h2, h3, h4, h5, p, f, e, hp⟩ := sampling3 (fun o p f e hp => (key o p f e hp).1) hc
  exact ⟨h1, h2, h3, h4, h5, (key _ _ _ e hp).2⟩

/-- **C118**: the default ground makes no contact with either method. -/
theorem C118_default_ground (r : Rib B64) (pose : Affine B64) :
    (r.envelopGeometricFlat Flat.default pose).1 = false ∧ (r.envelopSamplingFlat Flat.default pose).1 = false := by
  have hn : ¬ AllPlane NotNaN (Flat.default : Flat B64).plane := fun h => h.origin.x rfl
  constructor
  · rw [← Bool.not_eq_true]
    exact fun h => hn (C118_geometric_nan h).2.1
  · rw [← Bool.not_eq_true]
    intro h
    have h := (C118_sampling_number h).2.1.origin.x
    exact (notnan_of_number h) rfl

namespace Finite
variable {α : Type} [Scalar α]

theorem ribLoop_flag {pol : Policy} {comb : Bool → Bool → Bool} (hcomb : ∀ c b, comb c b = true → c = true ∨ b = true)
    {f : Nat → Rib α → Res (Bool × Output α)} (rs : List (Rib α)) :
    ∀ (i : Nat) (out : RecVec α) (b : Bool) (out' : RecVec α), Shell.ribLoop pol comb f rs i out b = .ok out' true →
      b = true ∨ ∃ j, ∃ r ∈ rs, ∃ o, f j r = .ok (true, o) := by
  induction rs with
  | nil =>
    intro i out b out' h
    simp only [Shell.ribLoop, MRes.ok.injEq] at h
    exact Or.inl h.2
  | cons r rs ih =>
    intro i out b out' h
    rw [Shell.ribLoop] at h
    split_ifs at h
    split at h
    · rename_i c o e
      rcases ih _ _ _ _ h with h | ⟨j, r', hr', o', e'⟩
      · rcases hcomb _ _ h with rfl | rfl
        · exact Or.inr ⟨i, r, by simp, o, e⟩
        · exact Or.inl rfl
      · exact Or.inr ⟨j, r', by simp [hr'], o', e'⟩
    · simp at h
    · simp at h

end Finite

/-- **C118**: whatever the tyre, the method and its earlier history, `setup` on flat ground does not report a contact
if an entry of the pose or of the plane of the ground is NaN. -/
theorem C118_setup_flat {pol : Policy} {s s' : Shell B64} {g : Flat B64} {pose : Affine B64} {method : String}
    (h : s.setupFlat pol g pose method = .ok s' true) : AllPose NotNaN pose ∧ AllPlane NotNaN g.plane := by
  unfold Shell.setupFlat Shell.withOut at h
  dsimp only at h
  split at h
  · rename_i out b e
    simp only [MRes.ok.injEq] at h
    obtain ⟨-, rfl⟩ := h
    rcases ribLoop_flag (fun c b hc => Or.inl hc) _ _ _ _ _ e with h | ⟨j, r, -, o, e⟩
    · simp at h
    · unfold Rib.envelopFlat at e
      split_ifs at e
      · have h := C118_geometric_nan (r := r) (g := g) (pose := pose) (by rw [Res.ok.inj e])
        exact ⟨h.1, h.2.1⟩
      · have h := C118_sampling_number (r := r) (g := g) (pose := pose) (by rw [Res.ok.inj e])
        have m3 : ∀ {v : V3 B64}, All3 IsNumber v → All3 NotNaN v := fun h =>
          ⟨notnan_of_number h.x, notnan_of_number h.y, notnan_of_number h.z⟩
        exact ⟨⟨m3 h.1.trans, m3 h.1.c0, m3 h.1.c1, m3 h.1.c2⟩, ⟨m3 h.2.1.origin, m3 h.2.1.normal⟩⟩
  · simp at h
  · simp at h

/-- **C118**: on a mesh, `setup` with a method other than "geometric" does not report a contact if an entry of the pose
is NaN or infinite. -/
theorem C118_setup_mesh_sampling {pol : Policy} {s s' : Shell B64} {m : Mesh B64} {pose : Affine B64} {method : String}
    (hm : method ≠ "geometric") (h : s.setupMesh pol m pose method = .ok s' true) : AllPose IsNumber pose := by
  have key : ∀ (s : Shell B64) (comb : Bool → Bool → Bool) (f : Nat → Rib B64 → Res (Bool × Output B64)),
      (∀ c b, comb c b = true → c = true ∨ b = true) → (∀ j r o, f j r = .ok (true, o) → AllPose IsNumber pose) →
      Shell.withOut s (Shell.ribLoop pol comb f s.ribs 0 s.out false) = .ok s' true → AllPose IsNumber pose := by
    intro s comb f hcomb hf h
    unfold Shell.withOut at h
    split at h
    · rename_i out b e
      simp only [MRes.ok.injEq] at h
      obtain ⟨-, rfl⟩ := h
      rcases ribLoop_flag hcomb _ _ _ _ _ e with h | ⟨j, r, -, o, e⟩
      · simp at h
      · exact hf j r o e
    · simp at h
    · simp at h
  unfold Shell.setupMesh at h
  dsimp only at h
  split at h
  · simp at h
  · simp at h
  · split_ifs at h with hl
    · exact key _ _ _ (by simp) (by simp) h
    · split at h
      · simp at h
      · simp at h
      · rename_i s1 e1
        refine key s1 _ _ (by simp) ?_ h
        intro j r o e
        cases ec : s1.candidate j with
        | throw m => rw [ec] at e; simp at e
        | ub w => rw [ec] at e; simp at e
        | ok ts =>
          rw [ec] at e
          simp only [Res.bind_ok, Rib.envelopMesh, if_neg hm] at e
          split_ifs at e
          exact (C118_mesh_sampling_number (r := r) (ts := ts) (pose := pose) (by rw [Res.ok.inj e])).1

namespace Finite

theorem normalized3 {P : B64 → Prop} (H : Hered P) {a : V3 B64} (h : All3 P (V3.normalized a)) : All3 P a := by
  unfold V3.normalized at h
  split_ifs at h
  · exact sdiv3 H h
  · exact h

theorem le_notnan {a b : B64} (h : (a <=. b) = true) : NotNaN a := by
  obtain ⟨a⟩ := a
  obtain ⟨b⟩ := b
  cases a with
  | nan => cases b <;> exact absurd h Bool.false_ne_true
  | _ => simp [NotNaN]

theorem lt_notnan {a b : B64} (h : (a <. b) = true) : NotNaN a ∧ NotNaN b := by
  obtain ⟨a⟩ := a
  obtain ⟨b⟩ := b
  constructor
  · cases a with
    | nan => cases b <;> exact absurd h Bool.false_ne_true
    | _ => simp [NotNaN]
  · cases b with
    | nan => cases a <;> exact absurd h Bool.false_ne_true
    | _ => simp [NotNaN]

/-- On every triangle, a plane with a NaN in its normal makes the intersection throw. -/
theorem planeTriangle_throws {p : Plane B64} (hp : ¬ All3 NotNaN p.normal) (t : Triangle B64) :
    Inter.planeTriangle p t Scalar.eps = .throw "exception not handled." := by
  obtain ⟨l, el, ho, hd⟩ : ∃ l, Inter.planePlane p t.layingPlane Scalar.eps = some l ∧ ¬ All3 NotNaN l.direction ∧
      ¬ (NotNaN l.origin.x ∨ NotNaN l.origin.y ∨ NotNaN l.origin.z) := by
    unfold Inter.planePlane
    dsimp only
    rw [if_neg]
    · refine ⟨_, rfl, fun h => hp (normalized3 notnan (cross3 notnan h).1), ?_⟩
      have hc : ∀ {a b c k : B64}, NotNaN ((-. p.d -. a) *. k *. b +. c) → False := fun h =>
        hp (dot3 notnan (notnan.neg (notnan.neg (notnan.sub (notnan.mul (notnan.mul (notnan.add h).1).1).1).1))).2
      rintro (h | h | h) <;> exact hc h
    · intro h
      have h1 := (notnan.mul (notnan.sub (notnan_of_number (small_number h))).1).1
      exact hp (normalized3 notnan (cross3 notnan (norm3 notnan h1)).1)
  have key : ∀ s : Segment B64, ∃ q, Inter.lineSegment l s Scalar.eps = some q ∧ ¬ NotNaN q.x := by
    intro s
    unfold Inter.lineSegment
    dsimp only
    have ht : ∀ {w : V3 B64} {k : B64}, ¬ NotNaN (V3.dot (V3.cross (V3.sub l.origin s.v0) l.direction) w /. k) :=
      fun h => hd (Or.inl (sub3 notnan (cross3 notnan (dot3 notnan (notnan.div h)).1).1).1.x)
    rw [if_neg, if_neg]
    · exact ⟨_, rfl, fun h => hd (Or.inl (notnan.add h).1)⟩
    · rw [Bool.or_eq_true]
      rintro (h | h)
      · exact ht (lt_notnan h).1
      · exact ht (lt_notnan h).2
    · intro h
      have h1 := (notnan.sub (notnan_of_number (small_number h))).1
      exact ho (cross3 notnan (norm3 notnan h1)).1
  have hne : ∀ {a b : V3 B64}, ¬ NotNaN a.x → V3.isApprox a b Scalar.eps = false := by
    intro a b ha
    rw [← Bool.not_eq_true]
    intro h
    exact ha (sub3 notnan (dot3 notnan (le_notnan h)).1).1.x
  obtain ⟨q0, e0, h0⟩ := key t.edge0
  obtain ⟨q1, e1, h1⟩ := key t.edge1
  obtain ⟨q2, e2, -⟩ := key t.edge2
  rw [Inter.planeTriangle, el]
  dsimp only
  rw [Inter.lineTriangleSeg, e0, e1, e2]
  dsimp only
  rw [hne h0, hne h1, hne h0]
  rfl

end Finite

/-- **C118**: it is false that a pose that is not made of numbers is never noticed: the geometric method throws on a
mesh, whatever the rib and whatever the triangles it is given, if an entry of the rotation is NaN. -/
theorem C118_mesh_geometric_refuted (r : Rib B64) (t : TriangleGround B64) (ts : List (TriangleGround B64))
    (pose : Affine B64) (h : ¬ (All3 NotNaN pose.linear.c0 ∧ All3 NotNaN pose.linear.c1 ∧ All3 NotNaN pose.linear.c2)) :
    r.envelopGeometricMesh (t :: ts) pose = .throw "exception not handled." := by
  have hp : ¬ All3 NotNaN (r.diskGrd pose).layingPlane.normal := fun hn => h (mulVec3 notnan hn).1
  rw [Rib.envelopGeometricMesh, Rib.geomLoop, Inter.triangleDisk, planeTriangle_throws hp]
  rfl

end Enve
