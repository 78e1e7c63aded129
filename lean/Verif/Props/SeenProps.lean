import Verif.Props.BridgeProps
import Verif.Props.RoadCutProps
import Verif.Props.RepeatedProps
import Verif.Props.RelistWallProps
import Verif.Lemmas.LineCut

/-! # A rib that meets the ground is in contact: C137 -/

namespace Enve
open Scalar Spec

namespace Seen

theorem side_y (pose : Affine ℝ) (r : Rib ℝ) (X : V3 ℝ) :
    side pose r X = (M3.mulVec (M3.transpose pose.linear) (V3.sub X (r.centerGrd pose))).y := by
  rw [side, ← r.centerGrd_eq pose]
  generalize r.centerGrd pose = c
  simp only [dot3, minus]
  v3; ring

theorem side_point {pose : Affine ℝ} (hp : IsRigid pose) (r : Rib ℝ) (x z : ℝ) : side pose r (ribPoint pose r x z) = 0 := by
  rw [side_y, RoadCut.back hp]

theorem onPlane {pose : Affine ℝ} (hp : IsRigid pose) {r : Rib ℝ} {X : V3 ℝ} (h : side pose r X = 0) :
    ∃ x z, X = ribPoint pose r x z := by
  have hRot : IsRotation pose.linear := hp
  rw [side_y] at h
  obtain ⟨w, ew⟩ : ∃ w, w = M3.mulVec (M3.transpose pose.linear) (V3.sub X (r.centerGrd pose)) := ⟨_, rfl⟩
  have e := hRot.mulVec_transpose (V3.sub X (r.centerGrd pose))
  rw [← ew] at h e
  refine ⟨w.x, w.z, ?_⟩
  rw [RoadCut.ribPoint_eq, ← h, e]
  generalize r.centerGrd pose = c
  v3; simp

theorem onDisk {pose : Affine ℝ} (hp : IsRigid pose) {r : Rib ℝ} {x z : ℝ} :
    OnRibDisk pose r (ribPoint pose r x z) ↔ x ^ 2 + z ^ 2 ≤ r.radius ^ 2 := by
  constructor
  · rintro ⟨x', z', h, e⟩
    obtain ⟨rfl, rfl⟩ := RoadCut.inj hp (e : ribPoint pose r x z = ribPoint pose r x' z')
    exact h
  · exact fun h => ⟨x, z, h, rfl⟩

/-- Two points of a chord far enough apart keep the line away from being a tangent. -/
theorem disc_of {xa za dx dz R s t : ℝ} (hs : (xa + s * dx) ^ 2 + (za + s * dz) ^ 2 ≤ R ^ 2)
    (ht : (xa + t * dx) ^ 2 + (za + t * dz) ^ 2 ≤ R ^ 2) (hs0 : 0 ≤ s) (hs1 : s ≤ 1) (ht0 : 0 ≤ t) (ht1 : t ≤ 1) :
    ((t - s) ^ 2 * (dx ^ 2 + dz ^ 2)) ^ 2 ≤ 4 * (R ^ 2 * (dx ^ 2 + dz ^ 2) - (xa * dz - za * dx) ^ 2) := by
  obtain ⟨L, eL⟩ : ∃ L, L = dx ^ 2 + dz ^ 2 := ⟨_, rfl⟩
  obtain ⟨k, ek⟩ : ∃ k, k = xa * dx + za * dz := ⟨_, rfl⟩
  have hL : 0 ≤ L := by rw [eL]; positivity
  have q : ∀ u, L * ((xa + u * dx) ^ 2 + (za + u * dz) ^ 2) = (L * u + k) ^ 2 + (xa * dz - za * dx) ^ 2 := by
    intro u; rw [eL, ek]; ring
  have h1 := mul_le_mul_of_nonneg_left hs hL
  have h2 := mul_le_mul_of_nonneg_left ht hL
  rw [q] at h1 h2
  rw [← eL]
  have h3 : (t - s) ^ 2 ≤ 1 := by nlinarith
  have h4 : ((t - s) ^ 2 * L) ^ 2 ≤ (t - s) ^ 2 * L ^ 2 := by
    have := mul_le_mul_of_nonneg_right h3 (show 0 ≤ (t - s) ^ 2 * L ^ 2 by positivity)
    nlinarith
  nlinarith [sq_nonneg ((L * s + k) + (L * t + k))]

theorem long_of {e k L : ℝ} (h0 : 0 ≤ e) (h1 : e ≤ 1) (hk0 : 0 ≤ k) (hk : k ≤ 1) (hL : 0 ≤ L) (h : 4 * e ≤ (k * L) ^ 2) : e ^ 2 ≤ L := by
  have a1 : k * L ≤ L := by nlinarith
  have a2 := pow_le_pow_left₀ (mul_nonneg hk0 hL) a1 2
  by_contra hc
  push Not at hc
  have a3 := pow_lt_pow_left₀ hc hL two_ne_zero
  have a4 : e ^ 4 ≤ e ^ 1 := pow_le_pow_of_le_one h0 h1 (by norm_num)
  have a5 : (e ^ 2) ^ 2 = e ^ 4 := by ring
  linarith

theorem wide_of {e R q : ℝ} (h0 : 0 ≤ e) (h1 : e ≤ 1 / 2) (hR : 0 ≤ R) (hq : q ≤ 4 * R ^ 2) (hq0 : 0 ≤ q) (h : 4 * e ≤ q ^ 2) : e ≤ R := by
  have a1 := pow_le_pow_left₀ hq0 hq 2
  by_contra hc
  push Not at hc
  have a2 := pow_lt_pow_left₀ hc hR (n := 4) (by norm_num)
  have a3 : e ^ 2 ≤ 1 / 4 := by nlinarith
  have a4 : e ^ 4 ≤ e / 4 * (1 / 2) := by
    have : e ^ 4 = e ^ 2 * e * e := by ring
    rw [this]
    have b1 : e ^ 2 * e ≤ 1 / 4 * e := mul_le_mul_of_nonneg_right a3 h0
    have b2 := mul_le_mul_of_nonneg_right b1 h0
    have b3 : 1 / 4 * e * e ≤ 1 / 4 * e * (1 / 2) := mul_le_mul_of_nonneg_left h1 (by linarith)
    linarith
  have a5 : (4 * R ^ 2) ^ 2 = 16 * R ^ 4 := by ring
  linarith

end Seen

/-! ## The section of a face by the disk of a rib -/

/-- **C137**: the section that the code computes for a face that the plane of a rib cuts away from the tolerances is the part of the face in
the disk of the rib: whenever the two have points `X` and `Y` in common that are far enough apart (`4 * eps ≤ d ^ 4` for their distance `d`,
that is, `d` is at least 1/64), the code finds a segment, and it consists of all common points. -/
theorem C137_section {r : Rib ℝ} (hr : IsRib r) {pose : Affine ℝ} (hp : IsRigid pose) {T : Triangle ℝ} (hc : CleanCut pose r T) {X Y : V3 ℝ}
    (hX : InTriangle T.v0 T.v1 T.v2 X) (hX' : OnRibDisk pose r X) (hY : InTriangle T.v0 T.v1 T.v2 Y) (hY' : OnRibDisk pose r Y)
    (hd : 4 * Scalar.eps ≤ dist3 X Y ^ 4) :
    ∃ seg, Inter.triangleDisk T (r.diskGrd pose) Scalar.eps = .ok (some seg) ∧
      ∀ Z, InTriangle T.v0 T.v1 T.v2 Z ∧ OnRibDisk pose r Z ↔ ∃ s, 0 ≤ s ∧ s ≤ 1 ∧ Z = along seg.v0 s (minus seg.v1 seg.v0) := by
  have heps := real_eps_pos
  have hR := hr.radius_pos
  have hax : (r.diskGrd pose).plane.normal = pose.linear.c1 := Rib.normalGrd_eq hr pose
  have ho : (r.diskGrd pose).plane.origin = ribCentre pose r := r.centerGrd_eq pose
  obtain ⟨P, Q, e, nP, gP, nQ, gQ, hb⟩ := Inter.planeTriangle_cut (T := T) (d := r.diskGrd pose) (by rw [hax]; exact hp.unit1)
    real_eps_pos hc.area (by rw [hax]; exact hc.slope) (side pose r) (fun v => by rw [hax, ho]; rfl) (by
      rcases hc.sep with hs | hs | hs
      · exact ⟨_, _, _, .inl ⟨rfl, rfl, rfl⟩, hs.ab, hs.ac, hs.slopeAB, hs.slopeAC, hs.clearB, hs.clearC⟩
      · exact ⟨_, _, _, .inr (.inl ⟨rfl, rfl, rfl⟩), hs.ab, hs.ac, hs.slopeAB, hs.slopeAC, hs.clearB, hs.clearC⟩
      · exact ⟨_, _, _, .inr (.inr ⟨rfl, rfl, rfl⟩), hs.ab, hs.ac, hs.slopeAB, hs.slopeAC, hs.clearB, hs.clearC⟩)
  obtain ⟨xa, za, rfl⟩ := Seen.onPlane hp gP
  obtain ⟨xb, zb, rfl⟩ := Seen.onPlane hp gQ
  have hdisk : ∀ Z, OnRibDisk pose r Z → side pose r Z = 0 := by
    rintro _ ⟨x, z, -, rfl⟩
    exact Seen.side_point hp r x z
  obtain ⟨s, s0, s1, eX⟩ := hb X (nearTriangle_zero.2 hX) (hdisk X hX')
  obtain ⟨t, t0, t1, eY⟩ := hb Y (nearTriangle_zero.2 hY) (hdisk Y hY')
  rw [RoadCut.along_point] at eX eY
  rw [eX, Seen.onDisk hp] at hX'
  rw [eY, Seen.onDisk hp] at hY'
  have hdisc := Seen.disc_of hX' hY' s0 s1 t0 t1
  have hdd : dist3 X Y ^ 2 = (t - s) ^ 2 * ((xb - xa) ^ 2 + (zb - za) ^ 2) := by
    rw [eX, eY, RoadCut.dist_ribPoint hp, Real.sq_sqrt (by positivity)]; ring
  have h4 : dist3 X Y ^ 4 = ((t - s) ^ 2 * ((xb - xa) ^ 2 + (zb - za) ^ 2)) ^ 2 := by rw [← hdd]; ring
  rw [h4] at hd
  have hD : Scalar.eps ≤ r.radius ^ 2 * ((xb - xa) ^ 2 + (zb - za) ^ 2) - (xa * zb - xb * za) ^ 2 := by
    have : (xa * (zb - za) - za * (xb - xa)) = xa * zb - xb * za := by ring
    rw [this] at hdisc
    linarith
  have heps1 : (Scalar.eps : ℝ) ≤ 1 := real_eps_lt_one.le
  have hts : (t - s) ^ 2 ≤ 1 := by nlinarith
  have hL : Scalar.eps ≤ √((xb - xa) ^ 2 + (zb - za) ^ 2) :=
    Real.le_sqrt_of_sq_le (Seen.long_of heps.le heps1 (sq_nonneg _) hts (by positivity) hd)
  have hrad : Scalar.eps ≤ r.radius := by
    refine Seen.wide_of heps.le (by have := real_eps_le_half; linarith) hR.le ?_ (show 0 ≤ (t - s) ^ 2 * ((xb - xa) ^ 2 + (zb - za) ^ 2) by
      positivity) hd
    have : (t - s) ^ 2 * ((xb - xa) ^ 2 + (zb - za) ^ 2) = (xa + s * (xb - xa) - (xa + t * (xb - xa))) ^ 2 +
      (za + s * (zb - za) - (za + t * (zb - za))) ^ 2 := by ring
    rw [this]
    generalize xa + s * (xb - xa) = a at *
    generalize xa + t * (xb - xa) = b at *
    generalize za + s * (zb - za) = c at *
    generalize za + t * (zb - za) = d at *
    clear * - hX' hY'
    nlinarith [sq_nonneg (a + b), sq_nonneg (c + d)]
  rcases RoadCut.segmentDisk_eq hr hp hrad hL (.inl hD) with ⟨-, hno⟩ | ⟨u0, u1, h0, h01, h1, e2, hin⟩
  · exfalso
    have := hno s s0 s1
    beta_reduce at this
    linarith
  · refine ⟨⟨ribPoint pose r (xa + u0 * (xb - xa)) (za + u0 * (zb - za)), ribPoint pose r (xa + u1 * (xb - xa)) (za + u1 * (zb - za))⟩, ?_,
      fun Z => ?_⟩
    · unfold Inter.triangleDisk; rw [e]; simp only [Res.bind_ok, e2, Res.pure_eq]
    dsimp only
    constructor
    · rintro ⟨z1, z2⟩
      obtain ⟨w, w0, w1, rfl⟩ := hb Z (nearTriangle_zero.2 z1) (hdisk Z z2)
      rw [RoadCut.along_point] at z2 ⊢
      rw [Seen.onDisk hp] at z2
      obtain ⟨k0, k1⟩ := (hin w w0 w1).1 z2
      rcases h01.eq_or_lt with he | hlt
      · obtain rfl : w = u0 := by linarith
        refine ⟨0, le_rfl, zero_le_one, ?_⟩
        rw [RoadCut.along_point]; congr 1 <;> ring
      · have hne : u1 - u0 ≠ 0 := by linarith
        refine ⟨(w - u0) / (u1 - u0), div_nonneg (by linarith) (by linarith), by rw [div_le_one (by linarith)]; linarith, ?_⟩
        rw [RoadCut.along_point]
        have hw : w = u0 + (w - u0) / (u1 - u0) * (u1 - u0) := by field_simp; ring
        generalize (w - u0) / (u1 - u0) = v at *
        rw [hw]; congr 1 <;> ring
    · rintro ⟨v, v0, v1, rfl⟩
      have ev : along (ribPoint pose r (xa + u0 * (xb - xa)) (za + u0 * (zb - za))) v (minus (ribPoint pose r (xa + u1 * (xb - xa))
          (za + u1 * (zb - za))) (ribPoint pose r (xa + u0 * (xb - xa)) (za + u0 * (zb - za)))) =
          ribPoint pose r (xa + (u0 + v * (u1 - u0)) * (xb - xa)) (za + (u0 + v * (u1 - u0)) * (zb - za)) := by
        rw [RoadCut.along_point]; congr 1 <;> ring
      rw [ev]
      have k0 : u0 ≤ u0 + v * (u1 - u0) := by linarith [mul_nonneg v0 (sub_nonneg.2 h01)]
      have k1 : u0 + v * (u1 - u0) ≤ u1 := by linarith [mul_nonneg (sub_nonneg.2 v1) (sub_nonneg.2 h01)]
      generalize u0 + v * (u1 - u0) = w at *
      refine ⟨?_, (Seen.onDisk hp).2 ((hin w (h0.trans k0) (k1.trans h1)).2 ⟨k0, k1⟩)⟩
      rw [← RoadCut.along_point]
      exact (nearTriangle_zero.1 nP).convex (nearTriangle_zero.1 nQ) (h0.trans k0) (k1.trans h1)

/-! ## Contact -/

namespace Seen

theorem along_dist (a b : V3 ℝ) {s t : ℝ} (hs0 : 0 ≤ s) (hs1 : s ≤ 1) (ht0 : 0 ≤ t) (ht1 : t ≤ 1) :
    dist3 (along a s (minus b a)) (along a t (minus b a)) ≤ dist3 a b := by
  unfold dist3
  refine Real.sqrt_le_sqrt ?_
  have h : (s - t) ^ 2 ≤ 1 := by nlinarith
  have : ∀ x y : ℝ, (x + s * (y - x) - (x + t * (y - x))) ^ 2 ≤ (x - y) ^ 2 := by
    intro x y
    have := mul_le_mul_of_nonneg_right h (sq_nonneg (x - y))
    calc _ = (s - t) ^ 2 * (x - y) ^ 2 := by ring
      _ ≤ 1 * (x - y) ^ 2 := this
      _ = _ := one_mul _
  simp only [along, minus]
  have h1 := this a.x b.x
  have h2 := this a.y b.y
  have h3 := this a.z b.z
  linarith

theorem contrib_some (r : Rib ℝ) (pose : Affine ℝ) (t : TriangleGround ℝ) {seg : Segment ℝ} (h : Scalar.eps ≤ dist3 seg.v0 seg.v1) :
    ∃ c, r.contrib pose t seg = some c ∧ c.area = dist3 seg.v0 seg.v1 * r.width := by
  have hl : seg.length = dist3 seg.v0 seg.v1 := by
    rw [Segment.length, V3.norm_eq]; simp only [dist3, length3]; v3
  unfold Rib.contrib
  dsimp only
  rw [if_neg]
  · exact ⟨_, rfl, by rw [hl]; rfl⟩
  · simp only [Bool.and_eq_true, real_lt, decide_eq_true_eq, not_and, not_lt, hl]
    exact fun _ => h

theorem passes {r : Rib ℝ} (hr : IsRib r) {pose : Affine ℝ} (hp : IsRigid pose) {t : TriangleGround ℝ} (hc : ClearOfRib pose r t.tri)
    (hlen : ∀ seg, Inter.triangleDisk t.tri (r.diskGrd pose) Scalar.eps = .ok (some seg) → Scalar.eps ≤ dist3 seg.v0 seg.v1) :
    RoadCut.Passes r pose t := by
  have hu : Unit3 (r.diskGrd pose).plane.normal := Rib.normalGrd_unit hr hp
  obtain ⟨o, ho⟩ := Inter.triangleDisk_ok t.tri (r.diskGrd pose) hu Scalar.eps real_eps_pos (by
    intro u hu' v hv huv
    simp only [Rib.side_eq hr] at huv ⊢
    exact hc u hu' v hv huv)
  cases o with
  | none => exact .inl ho
  | some seg =>
    obtain ⟨c, hc, -⟩ := contrib_some r pose t (hlen seg ho)
    exact .inr ⟨seg, c, ho, hc, hlen seg ho⟩

theorem added_nonneg {r : Rib ℝ} (hw : 0 ≤ r.width) {pose : Affine ℝ} {t : TriangleGround ℝ} (h : RoadCut.Passes r pose t) :
    0 ≤ (RoadCut.added r pose t).1 := by
  rcases h with e | ⟨seg, c, e, hc, hl⟩
  · rw [RoadCut.added, e]
  · obtain ⟨c', hc', ha⟩ := contrib_some r pose t hl
    rw [hc] at hc'
    cases hc'
    rw [RoadCut.added, e]
    dsimp only
    rw [hc]
    dsimp only
    rw [ha]
    exact mul_nonneg (by unfold dist3; positivity) hw

end Seen

/-- **C137**, geometric method, one rib.  A mesh none of whose faces nearly touches the plane of the rib or is cut by its disk in a segment
shorter than `eps`.  The evaluation returns, and
* it reports contact when some face, cut away from the tolerances, has two points in common with the disk of the rib that are at least 1/64
  apart and whose distance times the width of the rib is above `eps` — whatever the direction of the face, also for walls, ceilings and
  undersides, and whatever else the mesh contains;
* it reports contact only when some face has a point in common with the disk of the rib. -/
theorem C137_rib {r : Rib ℝ} (hr : IsRib r) (hw : 0 ≤ r.width) {pose : Affine ℝ} (hp : IsRigid pose) (ts : List (TriangleGround ℝ))
    (hclear : ∀ t ∈ ts, ClearOfRib pose r t.tri)
    (hlen : ∀ t ∈ ts, ∀ seg, Inter.triangleDisk t.tri (r.diskGrd pose) Scalar.eps = .ok (some seg) → Scalar.eps ≤ dist3 seg.v0 seg.v1) :
    ∃ flag o, r.envelopGeometricMesh ts pose = .ok (flag, o) ∧
      (∀ t ∈ ts, CleanCut pose r t.tri → ∀ X Y, InTriangle t.tri.v0 t.tri.v1 t.tri.v2 X → OnRibDisk pose r X →
        InTriangle t.tri.v0 t.tri.v1 t.tri.v2 Y → OnRibDisk pose r Y → 4 * Scalar.eps ≤ dist3 X Y ^ 4 → Scalar.eps < dist3 X Y * r.width →
        flag = true) ∧
      (flag = true → ∃ t ∈ ts, MeetsRib pose r t.tri) := by
  have hpass : ∀ t ∈ ts, RoadCut.Passes r pose t := fun t ht => Seen.passes hr hp (hclear t ht) (hlen t ht)
  obtain ⟨acc, h1, -, h3, -, -⟩ := RoadCut.loop_sum ts hpass Rib.Acc.init
  refine ⟨(r.geomFinish pose acc).1, (r.geomFinish pose acc).2, ?_, ?_, ?_⟩
  · rw [Rib.envelopGeometricMesh, h1, Res.bind_ok, Res.pure_eq]
  · intro t ht hcut X Y hX hX' hY hY' hd hwd
    obtain ⟨seg, e, hseg⟩ := C137_section hr hp hcut hX hX' hY hY' hd
    obtain ⟨s, s0, s1, eX⟩ := (hseg X).1 ⟨hX, hX'⟩
    obtain ⟨u, u0, u1, eY⟩ := (hseg Y).1 ⟨hY, hY'⟩
    have hdist : dist3 X Y ≤ dist3 seg.v0 seg.v1 := by rw [eX, eY]; exact Seen.along_dist _ _ s0 s1 u0 u1
    obtain ⟨c, hc, ha⟩ := Seen.contrib_some r pose t (hlen t ht seg e)
    have hadd : (RoadCut.added r pose t).1 = dist3 seg.v0 seg.v1 * r.width := by
      rw [RoadCut.added, e]; dsimp only; rw [hc]; exact ha
    have hge : (RoadCut.added r pose t).1 ≤ (ts.map fun t => (RoadCut.added r pose t).1).sum :=
      List.single_le_sum (by
        intro x hx
        obtain ⟨t', ht', rfl⟩ := List.mem_map.1 hx
        exact Seen.added_nonneg hw (hpass t' ht')) _ (List.mem_map.2 ⟨t, ht, rfl⟩)
    have harea : Scalar.eps < acc.area := by
      rw [h3]
      have h0 : (Rib.Acc.init : Rib.Acc ℝ).area = 0 := by simp [Rib.Acc.init]
      have := mul_le_mul_of_nonneg_right hdist hw
      rw [h0]; linarith
    have hhit : acc.hit = true := by
      by_contra hc
      have := RoadCut.loop_idle ts hpass h1 (by simpa using hc)
      have h0 : (Rib.Acc.init : Rib.Acc ℝ).area = 0 := by simp [Rib.Acc.init]
      rw [this, h0] at harea
      linarith [real_eps_pos]
    unfold Rib.geomFinish
    rw [if_pos]
    simp [hhit, harea]
  · intro hflag
    by_contra hno
    push Not at hno
    have hnone : ∀ t ∈ ts, (Inter.triangleDisk t.tri (r.diskGrd pose) Scalar.eps = .ok none) := fun t ht =>
      Untouched.none hr hp (hno t ht) (hclear t ht) (hlen t ht)
    have : r.geomLoop pose ts Rib.Acc.init = .ok Rib.Acc.init := by
      clear h1 h3 hpass hlen hclear hno
      induction ts with
      | nil => rfl
      | cons t ts ih =>
        rw [Rib.geomLoop, hnone t (by simp), Res.bind_ok]
        exact ih fun t' ht' => hnone t' (List.mem_cons_of_mem _ ht')
    rw [this] at h1
    cases h1
    rw [Rib.geomFinish, if_neg (by simp [Rib.Acc.init])] at hflag
    cases hflag

/-- **C137**, geometric method, whole tyres: setup reports contact when a face cut away from the tolerances has two points in common with the
disk of one of the ribs (as in `C137_rib`), and only when some face has a point in common with the disk of a rib. -/
theorem C137_tyre (pol : Policy) {s s' : Shell ℝ} (hs : s.Reachable pol) (hx : 0 ≤ s.shape.rx) {m : Mesh ℝ} (hm : BuiltMesh m)
    {pose : Affine ℝ} (hp : IsRigid pose) (hbox : ∀ r ∈ s.ribs, r.radius ^ 2 + r.center.y ^ 2 ≤ s.shape.rx ^ 2)
    (hw : ∀ r ∈ s.ribs, 0 ≤ r.width)
    (hclear : ∀ t ∈ m.triangles, ∀ r ∈ s.ribs, ClearOfRib pose r t.tri)
    (hlen : ∀ t ∈ m.triangles, ∀ r ∈ s.ribs, ∀ seg, Inter.triangleDisk t.tri (r.diskGrd pose) Scalar.eps = .ok (some seg) →
      Scalar.eps ≤ dist3 seg.v0 seg.v1)
    {b : Bool} (h : s.setupMesh pol m pose "geometric" = .ok s' b) :
    (∀ r ∈ s.ribs, ∀ t ∈ m.triangles, CleanCut pose r t.tri → ∀ X Y, InTriangle t.tri.v0 t.tri.v1 t.tri.v2 X → OnRibDisk pose r X →
      InTriangle t.tri.v0 t.tri.v1 t.tri.v2 Y → OnRibDisk pose r Y → 4 * Scalar.eps ≤ dist3 X Y ^ 4 → Scalar.eps < dist3 X Y * r.width →
      b = true) ∧
    (b = true → ∃ r ∈ s.ribs, ∃ t ∈ m.triangles, MeetsRib pose r t.tri) := by
  obtain ⟨-, c1⟩ := C61_search_geometric_partial pol s s' hs hx m hm pose hp hbox hclear hlen b h
  have e1 := (Shell.setupMesh_rel (.inl ⟨b, h⟩)).ribs
  rw [e1] at c1
  constructor
  · intro r hr t ht hcut X Y hX hX' hY hY' hd hwd
    obtain ⟨flag, o, k1, k2, -⟩ := C137_rib (hs.isRib r hr) (hw r hr) hp m.triangles (fun t ht => hclear t ht r hr) fun t ht => hlen t ht r hr
    rw [k2 t ht hcut X Y hX hX' hY hY' hd hwd] at k1
    exact c1.2 ⟨r, hr, o, k1⟩
  · intro hb
    obtain ⟨r, hr, o, ho⟩ := c1.1 hb
    obtain ⟨flag, o', k1, -, k3⟩ := C137_rib (hs.isRib r hr) (hw r hr) hp m.triangles (fun t ht => hclear t ht r hr) fun t ht => hlen t ht r hr
    rw [ho] at k1
    obtain ⟨rfl, -⟩ := Prod.mk.inj (Res.ok.inj k1)
    obtain ⟨t, ht, hm⟩ := k3 rfl
    exact ⟨r, hr, t, ht, hm⟩

/-! ## The sampling method -/

/-- Seen from above, twice the area of the face is at least the tolerance. -/
noncomputable def Spec.seen (t : TriangleGround ℝ) : Bool := decide (Scalar.eps ≤ plan2 t.tri)

/-- The two meshes have the same faces, apart from vertical ones. -/
def Spec.SameSeen (ts ts' : List (TriangleGround ℝ)) : Prop := SameFaces (ts.filter seen) (ts'.filter seen)

namespace Seen

theorem hits_seen (ts : List (TriangleGround ℝ)) (o : V3 ℝ) :
    Rib.samplingHits (ts.filter seen) ⟨o, V3.neg V3.ez⟩ = Rib.samplingHits ts ⟨o, V3.neg V3.ez⟩ := by
  induction ts with
  | nil => rfl
  | cons t ts ih =>
    unfold Rib.samplingHits at *
    by_cases h : seen t = true
    · rw [List.filter_cons_of_pos h, List.filterMap_cons, List.filterMap_cons, ih]
    · rw [List.filter_cons_of_neg h, List.filterMap_cons, ih]
      have : Inter.lineTriangle ⟨o, V3.neg V3.ez⟩ t.tri Scalar.eps = none := by
        apply (C50_line_triangle_tolerance _ _ _ real_eps_pos).1
        rw [Road.box_down]
        simpa [seen] using h
      rw [this]
      rfl

/-- The method does not see vertical faces. -/
theorem envelop_seen (r : Rib ℝ) (pose : Affine ℝ) (ts : List (TriangleGround ℝ)) :
    r.envelopSamplingMesh (ts.filter seen) pose = r.envelopSamplingMesh ts pose := by
  have hall : ∀ o, Rib.samplingLineMesh (ts.filter seen) ⟨o, V3.neg V3.ez⟩ = Rib.samplingLineMesh ts ⟨o, V3.neg V3.ez⟩ := by
    intro o
    unfold Rib.samplingLineMesh
    rw [hits_seen]
  unfold Rib.envelopSamplingMesh Rib.envelopSampling
  simp only [Rib.lineXp, Rib.lineXm, Rib.lineYp, Rib.lineYm, hall]

theorem found {m m' : Mesh ℝ} (hm : BuiltMesh m) (hm' : BuiltMesh m') (h : SameSeen m.triangles m'.triangles) {q : Box ℝ}
    {loc loc' : List (TriangleGround ℝ)} (hl : loc.Perm (m.triangles.filter fun t => t.bbox.intersects q))
    (hl' : loc'.Perm (m'.triangles.filter fun t => t.bbox.intersects q)) : SameSeen loc loc' := by
  have key : ∀ {m m' : Mesh ℝ} (_ : BuiltMesh m) (_ : BuiltMesh m') (_ : SameSeen m.triangles m'.triangles)
      {loc loc' : List (TriangleGround ℝ)} (_ : loc.Perm (m.triangles.filter fun t => t.bbox.intersects q))
      (_ : loc'.Perm (m'.triangles.filter fun t => t.bbox.intersects q)),
      ∀ f, f ∈ (loc.filter seen).map faceOf → f ∈ (loc'.filter seen).map faceOf := by
    intro m m' hm hm' h loc loc' hl hl' f hf
    obtain ⟨t, ht, rfl⟩ := List.mem_map.1 hf
    obtain ⟨ht, hv⟩ := List.mem_filter.1 ht
    obtain ⟨h1, h2⟩ := List.mem_filter.1 (hl.mem_iff.1 ht)
    obtain ⟨t', ht', e⟩ := Repeated.goes h t (List.mem_filter.2 ⟨h1, hv⟩)
    obtain ⟨ht', hv'⟩ := List.mem_filter.1 ht'
    refine List.mem_map.2 ⟨t', List.mem_filter.2 ⟨hl'.mem_iff.2 (List.mem_filter.2 ⟨ht', ?_⟩), hv'⟩, e⟩
    rw [Repeated.near (hm.constructed t h1) (hm'.constructed t' ht') e]
    exact h2
  exact fun f => ⟨key hm hm' h hl hl' f, key hm' hm (Repeated.symm h) hl' hl f⟩

end Seen

/-- **C137, the sampling method does not see walls**: two meshes with the same faces apart from vertical ones (faces that, seen from above,
have less than half the tolerance in area) give the same contacts, whatever tyre is set on them and however the vertical faces cut it. -/
theorem C137_sampling_blind (pol : Policy) {s s1 s2 : Shell ℝ} (hs : s.Reachable pol) {m m' : Mesh ℝ} (hm : BuiltMesh m)
    (hm' : BuiltMesh m') (hface : SameSeen m.triangles m'.triangles) {pose : Affine ℝ} {b1 b2 : Bool}
    (h1 : s.setupMesh pol m pose "sampling" = .ok s1 b1) (h2 : s.setupMesh pol m' pose "sampling" = .ok s2 b2) :
    b1 = b2 ∧ ∀ i < s.size, ∃ o1 o2, s1.out.read pol i = .ok o1 ∧ s2.out.read pol i = .ok o2 ∧
      o1.point = o2.point ∧ o1.normal = o2.normal ∧ o1.depth = o2.depth ∧ o1.area = o2.area ∧ o1.volume = o2.volume := by
  obtain ⟨loc, hl1, hp1⟩ := hm.query _ (Shell.updateBBox_WF (s.transform pose))
  obtain ⟨loc', hl2, hp2⟩ := hm'.query _ (Shell.updateBBox_WF (s.transform pose))
  have hloc := Seen.found hm hm' hface hp1 hp2
  obtain ⟨f1, r1, a1, c1⟩ := C38_mesh_flag pol s s1 hs m pose "sampling" loc b1 hl1 h1
  obtain ⟨f2, r2, a2, c2⟩ := C38_mesh_flag pol s s2 hs m' pose "sampling" loc' b2 hl2 h2
  have e1 := (Shell.setupMesh_rel (.inl ⟨b1, h1⟩)).ribs
  have e2 := (Shell.setupMesh_rel (.inl ⟨b2, h2⟩)).ribs
  have heval : ∀ (l : List (TriangleGround ℝ)) (r : Rib ℝ), (if l = [] then Res.ok (false, r.noContact pose) else
      r.envelopMesh (Shell.ribCandidates pose "sampling" l r) pose "sampling") = .ok (r.envelopSamplingMesh l pose) := by
    intro l r
    split
    · rename_i hl
      subst hl
      rfl
    · have hc : Shell.ribCandidates pose "sampling" l r = l := by
        rw [Shell.ribCandidates, List.filter_eq_self]
        intro t _
        simp [Shell.isCandidate, Shell.refines]
      rw [hc, Rib.envelopMesh, if_neg (by decide), if_pos rfl]
  have hsame : ∀ i < s.size, f1 i = f2 i ∧ (r1 i).point = (r2 i).point ∧ (r1 i).normal = (r2 i).normal ∧
      (r1 i).depth = (r2 i).depth ∧ (r1 i).area = (r2 i).area ∧ (r1 i).volume = (r2 i).volume := by
    intro i hi
    obtain ⟨r, g1, g2, -⟩ := a1 i hi
    obtain ⟨r', g1', g2', -⟩ := a2 i hi
    rw [e1] at g1
    rw [e2, g1] at g1'
    cases g1'
    dsimp only at g2 g2'
    rw [heval] at g2 g2'
    obtain ⟨k1, k2, k3, k4, k5, k6, -⟩ := C136_sampling r pose hloc
    rw [Seen.envelop_seen, Seen.envelop_seen, Res.ok.inj g2, Res.ok.inj g2'] at k1 k2 k3 k4 k5 k6
    exact ⟨k1, k2, k3, k4, k5, k6⟩
  constructor
  · rw [Bool.eq_iff_iff, c1, c2]
    constructor
    · rintro ⟨i, hi, h⟩; exact ⟨i, hi, by rw [← (hsame i hi).1]; exact h⟩
    · rintro ⟨i, hi, h⟩; exact ⟨i, hi, by rw [(hsame i hi).1]; exact h⟩
  · intro i hi
    obtain ⟨-, -, -, k1⟩ := a1 i hi
    obtain ⟨-, -, -, k2⟩ := a2 i hi
    exact ⟨_, _, k1, k2, (hsame i hi).2⟩

/-! ## A wheel against a wall -/

theorem Demo.wall_built : BuiltMesh (Mesh.ofTriangles [Demo.wall]) := by
  refine .inr ⟨_, by simp, ?_, ?_, rfl⟩
  · simp only [List.mem_cons, List.not_mem_nil, or_false, forall_eq]
    exact ⟨_, _, _, _, _, Demo.wall_make.1⟩
  · intro i t ht
    match i, ht with
    | 0, ht => simp at ht; subst ht; rfl
    | n + 1, ht => simp at ht

theorem Demo.wall_upright {a : Rib ℝ} (hac : a.center = ⟨0, 0, 0⟩) (p : V3 ℝ) : side (Demo.upright 0) a p = p.y := by
  simp only [side, dot3, minus, ribCentre, hac, Demo.upright]
  v3
  ring

theorem Demo.wall_cut {a : Rib ℝ} (hac : a.center = ⟨0, 0, 0⟩) : CleanCut (Demo.upright 0) a Demo.wall.tri := by
  have hdist : ∀ A B : V3 ℝ, dist3 A B ^ 2 ≤ 100 → (Scalar.eps : ℝ) * dist3 A B ≤ 2 := by
    intro A B hd
    have h10 : dist3 A B ≤ 10 := by
      refine le_of_sq_le_sq ?_ (by norm_num)
      linarith
    have : (Scalar.eps : ℝ) ≤ 1 / 10 := by rw [real_eps]; norm_num
    nlinarith [dist3_nonneg A B, real_eps_pos]
  refine ⟨?_, ?_, .inl ⟨?_, ?_, ?_, ?_, ?_, ?_⟩⟩
  · rw [Demo.wall_tri]
    intro h
    simp only [minus] at h
    rw [V3.real_cross, V3.mk.injEq] at h
    norm_num at h
  · rw [Demo.wall_triNormal]
    have := real_eps_le_half
    simp only [sinSq, dot3, Demo.upright]
    norm_num
    linarith
  all_goals simp only [Demo.wall_upright hac, Demo.wall_tri]
  · norm_num
  · norm_num
  · refine (hdist _ _ ?_).trans (by norm_num)
    rw [dist3_sq]; norm_num
  · refine (hdist _ _ ?_).trans (by norm_num)
    rw [dist3_sq]; norm_num
  · norm_num
  · norm_num

theorem Demo.wall_common {a : Rib ℝ} (hac : a.center = ⟨0, 0, 0⟩) (haR : a.radius = 1) {z : ℝ} (hz : |z| ≤ 1 / 2) :
    InTriangle Demo.wall.tri.v0 Demo.wall.tri.v1 Demo.wall.tri.v2 ⟨2 / 5, 0, z⟩ ∧ OnRibDisk (Demo.upright 0) a ⟨2 / 5, 0, z⟩ := by
  obtain ⟨h1, h2⟩ := abs_le.1 hz
  constructor
  · refine ⟨11 / 25, 7 / 25 - z / 4, 7 / 25 + z / 4, by norm_num, by linarith, by linarith, by ring, ?_⟩
    rw [Demo.wall_tri]
    ext <;> dsimp only <;> ring
  · refine ⟨2 / 5, z, by rw [haR]; nlinarith, ?_⟩
    rw [hac]
    simp only [Demo.upright, Affine.apply]
    v3
    norm_num

/-- **C137 is false for the sampling method.**  A tyre of radius 1 and width 2 stands against a wall, which passes through it 2/5 in front of
its axis: the rib and the wall have points in common a radius apart.  By sampling there is no contact; by the geometric method there
is (the example shows the hypotheses of `C137_tyre`, too). -/
theorem C137_wall_refuted (fresh : Nat → Output ℝ) :
    ∃ (s s1 s2 : Shell ℝ) (wall : TriangleGround ℝ) (pose : Affine ℝ) (r : Rib ℝ) (X Y : V3 ℝ), s.Reachable .raw ∧ IsRigid pose ∧
      TriangleGround.make 0 1 ⟨2 / 5, 14 / 5, 0⟩ ⟨2 / 5, -(11 / 5), -2⟩ ⟨2 / 5, -(11 / 5), 2⟩ = .ok wall ∧
      s.ribs = [r] ∧ r.radius = 1 ∧ r.width = 2 ∧
      InTriangle wall.tri.v0 wall.tri.v1 wall.tri.v2 X ∧ OnRibDisk pose r X ∧
      InTriangle wall.tri.v0 wall.tri.v1 wall.tri.v2 Y ∧ OnRibDisk pose r Y ∧ dist3 X Y = 1 ∧
      s.setupMesh .raw (Mesh.ofTriangles [wall]) pose "sampling" = .ok s1 false ∧
      s.setupMesh .raw (Mesh.ofTriangles [wall]) pose "geometric" = .ok s2 true := by
  obtain ⟨s, a, h1, hshape, hab, ha, hac, haR, haw⟩ := Demo.oneRib fresh
  have hreach : s.Reachable .raw := .make h1
  have hrx : s.shape.rx = 1 := by rw [hshape]
  have hrigid := Demo.upright_rigid 0
  obtain ⟨s1, e1⟩ := Shell.sampled_flag hreach hab Demo.wall_built (Demo.upright 0)
  obtain ⟨i1, d1⟩ := Demo.wall_common hac haR (z := 1 / 2) (by norm_num [abs_le])
  obtain ⟨i2, d2⟩ := Demo.wall_common hac haR (z := -(1 / 2)) (by norm_num [abs_le])
  have hdist : dist3 (⟨2 / 5, 0, 1 / 2⟩ : V3 ℝ) ⟨2 / 5, 0, -(1 / 2)⟩ = 1 := by
    rw [dist3, Real.sqrt_eq_one]; norm_num
  have he := real_eps_le_half
  have hs1 : (a.envelopSamplingMesh ((Mesh.ofTriangles [Demo.wall]).triangles.filter fun t =>
      t.bbox.intersects (s.transform (Demo.upright 0)).updateBBox.bbox) (Demo.upright 0)).1 = false := by
    rw [← Seen.envelop_seen]
    have hnil : ((Mesh.ofTriangles [Demo.wall]).triangles.filter fun t =>
      t.bbox.intersects (s.transform (Demo.upright 0)).updateBBox.bbox).filter seen = [] := by
      rw [List.filter_eq_nil_iff]
      intro t ht
      obtain ⟨ht, -⟩ := List.mem_filter.1 ht
      have : t ∈ [Demo.wall] := ht
      rw [List.mem_singleton] at this
      subst this
      have := real_eps_pos
      simp only [seen, decide_eq_true_eq, not_le, plan2, Demo.wall_tri]
      norm_num
      exact this
    rw [hnil]
    rfl
  rw [hs1] at e1
  have hclear : ∀ t ∈ (Mesh.ofTriangles [Demo.wall]).triangles, ∀ r ∈ s.ribs, ClearOfRib (Demo.upright 0) r t.tri := by
    intro t ht r hr
    have : t ∈ [Demo.wall] := ht
    rw [List.mem_singleton] at this
    rw [hab, List.mem_singleton] at hr
    subst this hr
    intro u hu v hv
    simp only [Demo.wall_tri, List.mem_cons, List.not_mem_nil, or_false] at hu hv
    simp only [Demo.wall_upright hac]
    rcases hu with rfl | rfl | rfl <;> rcases hv with rfl | rfl | rfl <;> norm_num
  have hcut := Demo.wall_cut hac
  have hlen : ∀ t ∈ (Mesh.ofTriangles [Demo.wall]).triangles, ∀ r ∈ s.ribs, ∀ seg,
      Inter.triangleDisk t.tri (r.diskGrd (Demo.upright 0)) Scalar.eps = .ok (some seg) → Scalar.eps ≤ dist3 seg.v0 seg.v1 := by
    intro t ht r hr seg hseg
    have : t ∈ [Demo.wall] := ht
    rw [List.mem_singleton] at this
    rw [hab, List.mem_singleton] at hr
    subst this hr
    obtain ⟨seg', h1, h2⟩ := C137_section ha hrigid hcut i1 d1 i2 d2 (by rw [hdist]; rw [real_eps]; norm_num)
    rw [hseg] at h1
    cases h1
    obtain ⟨u, u0, u1, eu⟩ := (h2 _).1 ⟨i1, d1⟩
    obtain ⟨v, v0, v1, ev⟩ := (h2 _).1 ⟨i2, d2⟩
    have := Seen.along_dist seg.v0 seg.v1 u0 u1 v0 v1
    rw [← eu, ← ev, hdist] at this
    linarith
  obtain ⟨s2, b2, e2⟩ : ∃ s2 b2, s.setupMesh .raw (Mesh.ofTriangles [Demo.wall]) (Demo.upright 0) "geometric" = .ok s2 b2 :=
    C37_setup_partial s hreach (by simp [Shell.size, hab]) _ Demo.wall_built _ hrigid fun t ht _ => hclear t ht
  have hb := (C137_tyre .raw hreach (by rw [hrx]; norm_num) Demo.wall_built hrigid (by
      intro r hr
      rw [hab, List.mem_singleton] at hr
      subst hr
      rw [haR, hac, hrx]; norm_num) (by
      intro r hr
      rw [hab, List.mem_singleton] at hr
      subst hr
      rw [haw]; norm_num) hclear hlen e2).1 a (by rw [hab]; simp) Demo.wall (by show _ ∈ [Demo.wall]; simp) hcut _ _ i1 d1 i2 d2
      (by rw [hdist, real_eps]; norm_num) (by rw [hdist, haw]; linarith)
  rw [hb] at e2
  exact ⟨s, s1, s2, _, _, a, _, _, hreach, hrigid, Demo.wall_make.1, hab, haR, haw, i1, d1, i2, d2, hdist, e1, e2⟩

end Enve
