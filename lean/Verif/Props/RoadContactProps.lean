import Verif.Props.RoadDoubleProps
import Verif.Props.DoubleSearchProps

/-! # C108: a wheel on a mesh of a plane road, in doubles -/

namespace Enve

open Scalar Spec B64

namespace RoadContact

/-- The vertical distance from the plane is affine. -/
theorem off_affine {o n : V3 ℝ} (hz : n.z ≠ 0) {T : Triangle ℝ} {x y z : ℝ} (h1 : x + y + z = 1) {q : V3 ℝ}
    (hq : q = ⟨x * T.v0.x + y * T.v1.x + z * T.v2.x, x * T.v0.y + y * T.v1.y + z * T.v2.y,
      x * T.v0.z + y * T.v1.z + z * T.v2.z⟩) :
    q.z - (footAt o n q).z = x * (T.v0.z - (footAt o n T.v0).z) + y * (T.v1.z - (footAt o n T.v1).z) +
      z * (T.v2.z - (footAt o n T.v2).z) := by
  have hx : x = 1 - y - z := by linarith
  subst hq hx
  simp only [footAt]
  field_simp
  ring

theorem off_near {η : ℝ} {o n : V3 ℝ} (hz : n.z ≠ 0) {T : Triangle ℝ} (hT : AlongPlane η o n T) {q : V3 ℝ}
    (hq : NearTriangle (1 / 2 ^ 24) T q) : |q.z - (footAt o n q).z| ≤ 2 * η := by
  obtain ⟨x, y, z, h0, h1, h2, hs, he⟩ := hq
  rw [off_affine hz hs he]
  have hη : 0 ≤ η := (abs_nonneg _).trans hT.v0
  have key : ∀ a b : ℝ, -(1 / 2 ^ 24) ≤ a → |b| ≤ η → |a * b| ≤ (a + 1 / 2 ^ 23) * η := by
    intro a b ha hb
    rw [abs_mul]
    refine mul_le_mul ?_ hb (abs_nonneg _) (by linarith)
    rw [abs_le]; constructor <;> linarith
  have k0 := key _ _ h0 hT.v0
  have k1 := key _ _ h1 hT.v1
  have k2 := key _ _ h2 hT.v2
  refine (abs_add_le _ _).trans ((add_le_add ((abs_add_le _ _).trans (add_le_add k0 k1)) k2).trans ?_)
  rw [← add_mul, ← add_mul, show x + 1 / 2 ^ 23 + (y + 1 / 2 ^ 23) + (z + 1 / 2 ^ 23) = 1 + 3 / 2 ^ 23 by linarith]
  exact mul_le_mul_of_nonneg_right (by norm_num) hη

/-- Sampling a mesh whose vertices are close to a plane. -/
theorem sample {η D Z C : ℝ} {o n : V3 ℝ} (hz : n.z ≠ 0) {ts : List (TriangleGround B64)} {Ts : List (TriangleGround ℝ)}
    (hd : List.Forall₂ InDoubles ts Ts) (hT : ∀ T ∈ Ts, Sound D T.tri ∧ AlongPlane η o n T.tri) {O : V3 ℝ}
    (hO : ∀ T ∈ Ts, |O.x - T.tri.v0.x| ≤ 2 ^ 22 ∧ |O.y - T.tri.v0.y| ≤ 2 ^ 22 ∧ |O.z - T.tri.v0.z| ≤ Z) (hDZ : D ≤ Z)
    (hZ : Z ≤ 2 ^ 20) (hC : Upto C O) (hC1 : 1 ≤ C) (hC2 : C ≤ 2 ^ 22) {p : V3 ℝ} (hp : OnMesh Ts p) (hx : p.x = O.x) (hy : p.y = O.y) :
    ∃ q, ∃ T ∈ Ts, Rib.samplingLineMesh ts ⟨asVec O, V3.neg V3.ez⟩ = some (q, fin T.friction) ∧
      Close3 (2 * η + Z / 2 ^ 26 + C / 2 ^ 52) q (footAt o n O) := by
  obtain ⟨T, hTm, hpT⟩ := hp
  obtain ⟨m, hm, hTn⟩ := List.getElem_of_mem hTm
  have hm' : m < ts.length := by rw [hd.length_eq]; exact hm
  have hrel := List.forall₂_iff_get.1 hd |>.2 m hm' hm
  simp only [List.get_eq_getElem] at hrel
  rw [hTn] at hrel
  obtain ⟨p0, h0, -⟩ := Crack.hit (hT T hTm).1 hpT hx hy (hO T hTm).2.2 hDZ (hZ.trans (by norm_num)) hC hC1 hC2
  rw [← hrel.1] at h0
  cases hq : Rib.samplingLineMesh ts ⟨asVec O, V3.neg V3.ez⟩ with
  | none => rw [((C28_highest_hit OrderOn.b64 ts _).1.1 hq) _ (List.getElem_mem hm')] at h0; cases h0
  | some qf =>
    obtain ⟨q, f⟩ := qf
    obtain ⟨⟨t', ht', hq', hf⟩, -⟩ := (C28_highest_hit OrderOn.b64 ts _).2 q f hq
    obtain ⟨k, hk, htk⟩ := List.getElem_of_mem ht'
    have hk' : k < Ts.length := by rw [← hd.length_eq]; exact hk
    have hr := List.forall₂_iff_get.1 hd |>.2 k hk hk'
    simp only [List.get_eq_getElem] at hr
    rw [htk] at hr
    have hmem := List.getElem_mem hk'
    rw [hr.1] at hq'
    obtain ⟨k1, k2, k3⟩ := hO _ hmem
    obtain ⟨q0, hnear, ex, ey, cq⟩ := Crack.found (hT _ hmem).1 k1 k2 k3 hDZ hZ hC hC1 hC2 hq'
    have hoff := off_near hz (hT _ hmem).2 hnear
    have hη : 0 ≤ η := (abs_nonneg _).trans (hT _ hmem).2.v0
    refine ⟨q, Ts[k], hmem, by rw [← hf, hr.2], ⟨?_, ?_, ?_⟩⟩
    · have := cq.x; rw [ex] at this; exact this.mono (by linarith)
    · have := cq.y; rw [ey] at this; exact this.mono (by linarith)
    · obtain ⟨z, hz', hze⟩ := cq.z
      refine ⟨z, hz', ?_⟩
      have hfoot : (footAt o n q0).z = (footAt o n O).z := by
        simp only [footAt, ex, ey]; field_simp; ring
      rw [hfoot] at hoff
      have := abs_sub_le z q0.z (footAt o n O).z
      linarith

/-- The height of the plane changes little from a place to another close to it. -/
theorem foot_move {o n O q : V3 ℝ} (hn : n.x ^ 2 + n.y ^ 2 + n.z ^ 2 = 1) (hup : 1 / 2 ≤ n.z) {e : ℝ} (hx : |O.x - q.x| ≤ e)
    (hy : |O.y - q.y| ≤ e) : |(footAt o n O).x - (footAt o n q).x| ≤ 4 * e ∧ |(footAt o n O).y - (footAt o n q).y| ≤ 4 * e ∧
    |(footAt o n O).z - (footAt o n q).z| ≤ 4 * e := by
  have he : 0 ≤ e := (abs_nonneg _).trans hx
  have hn1 := Upto.unit hn
  refine ⟨by simp only [footAt]; linarith, by simp only [footAt]; linarith, ?_⟩
  have hz : 0 < n.z := by linarith
  have h1 : (footAt o n O).z - (footAt o n q).z = (n.x * -(O.x - q.x) + n.y * -(O.y - q.y)) / n.z := by
    simp only [footAt]; field_simp; ring
  rw [h1, abs_div, abs_of_pos hz, div_le_iff₀ hz]
  have h2 : |n.x * -(O.x - q.x)| ≤ e := by
    rw [abs_mul, abs_neg]; exact (mul_le_mul hn1.x hx (abs_nonneg _) (by norm_num)).trans (by linarith)
  have h3 : |n.y * -(O.y - q.y)| ≤ e := by
    rw [abs_mul, abs_neg]; exact (mul_le_mul hn1.y hy (abs_nonneg _) (by norm_num)).trans (by linarith)
  have := abs_add_le (n.x * -(O.x - q.x)) (n.y * -(O.y - q.y))
  have : 4 * e * (1 / 2) ≤ 4 * e * n.z := mul_le_mul_of_nonneg_left hup (by linarith)
  linarith

/-- The sampling lines stay close to the centre of the rib. -/
theorem offset {R y w : ℝ} {P : Affine ℝ} {o n : V3 ℝ} (hs : CalmScene R y w P o n) {q : V3 ℝ}
    (hq : q ∈ [(⟨R / 10, y, 0⟩ : V3 ℝ), ⟨-(R / 10), y, 0⟩, ⟨0, y + 3 / 10 * w, 0⟩, ⟨0, y - 3 / 10 * w, 0⟩]) :
    let Q := V3.add P.trans (M3.mulVec P.linear q)
    |Q.x - (hub y P).x| ≤ 3 / 10 ∧ |Q.y - (hub y P).y| ≤ 3 / 10 ∧ |Q.z - (hub y P).z| ≤ 3 / 10 := by
  intro Q
  have u0 := Upto.unit hs.rigid.unit0
  have u1 := Upto.unit hs.rigid.unit1
  have hR := hs.R_hi
  have hR0 := hs.R_lo
  have hw := hs.w_hi
  have hw0 := hs.w_lo
  have key : ∀ a b : ℝ, |a| ≤ 1 → |b| ≤ 3 / 10 → |a * b| ≤ 3 / 10 := by
    intro a b ha hb
    rw [abs_mul]
    exact (mul_le_mul ha hb (abs_nonneg _) (by norm_num)).trans (by norm_num)
  have hr : |R / 10| ≤ 3 / 10 := by rw [abs_of_nonneg] <;> linarith
  have hr' : |-(R / 10)| ≤ 3 / 10 := by rw [abs_neg]; exact hr
  have hw' : |3 / 10 * w| ≤ 3 / 10 := by rw [abs_of_nonneg] <;> linarith
  have hw'' : |-(3 / 10 * w)| ≤ 3 / 10 := by rw [abs_neg]; exact hw'
  simp only [List.mem_cons, List.not_mem_nil, or_false] at hq
  simp only [Q, hub, V3.real_add, M3.mulVec, Scalar.real_add, Scalar.real_mul]
  rcases hq with rfl | rfl | rfl | rfl <;> dsimp only
  · refine ⟨?_, ?_, ?_⟩
    · convert key _ _ u0.x hr using 2; ring
    · convert key _ _ u0.y hr using 2; ring
    · convert key _ _ u0.z hr using 2; ring
  · refine ⟨?_, ?_, ?_⟩
    · convert key _ _ u0.x hr' using 2; ring
    · convert key _ _ u0.y hr' using 2; ring
    · convert key _ _ u0.z hr' using 2; ring
  · refine ⟨?_, ?_, ?_⟩
    · convert key _ _ u1.x hw' using 2; ring
    · convert key _ _ u1.y hw' using 2; ring
    · convert key _ _ u1.z hw' using 2; ring
  · refine ⟨?_, ?_, ?_⟩
    · convert key _ _ u1.x hw'' using 2; ring
    · convert key _ _ u1.y hw'' using 2; ring
    · convert key _ _ u1.z hw'' using 2; ring

end RoadContact

/-- All that the sampling method computes on a mesh of a plane road. -/
theorem RoadContact.all {ε : ℝ} (hε : Fine ε) {R y w F₀ F₁ η D Z : ℝ} {P : Affine ℝ} {o n : V3 ℝ} (hs : CalmScene R y w P o n)
    {r : Rib B64} {p : Affine B64} (hr : CloseRib ε r R y w) (hp : ClosePose ε p P) {ts : List (TriangleGround B64)}
    {Ts : List (TriangleGround ℝ)} (hd : List.Forall₂ InDoubles ts Ts)
    (hT : ∀ T ∈ Ts, Sound D T.tri ∧ AlongPlane η o n T.tri ∧ F₀ ≤ T.friction ∧ T.friction ≤ F₁) (hF : 0 ≤ F₀) (hF' : F₁ ≤ 8)
    (hO : ∀ T ∈ Ts, |(hub y P).x - T.tri.v0.x| ≤ 2 ^ 21 ∧ |(hub y P).y - T.tri.v0.y| ≤ 2 ^ 21 ∧ |(hub y P).z - T.tri.v0.z| + 1 / 2 ≤ Z)
    (hDZ : D ≤ Z) (hacc : 2 * η + Z / 2 ^ 26 ≤ 2 ^ 18 * ε) (hcov : Covers (1 / 2) (hub y P) Ts) :
    ∃ d : ℝ, |d - sunkDepth R y P o n| ≤ 2 ^ 28 * (1 + R / w) * ε ∧
      (r.envelopSamplingMesh ts p).1 = decide (0 < d) ∧
      (0 < d → (r.envelopSamplingMesh ts p).2.depth = fin d ∧
        Close3 (2 ^ 27 * (1 / R + 1 / w) * ε) (r.envelopSamplingMesh ts p).2.normal n ∧
        Close3 (2 ^ 19 * ε) (r.envelopSamplingMesh ts p).2.point (footAt o n (hub y P)) ∧
        (∃ F, F₀ ≤ F ∧ F ≤ F₁ ∧ Close (16 * ε) (r.envelopSamplingMesh ts p).2.friction F) ∧
        (r.envelopSamplingMesh ts p).2.area = Rib.depthArea r.radius r.width (fin d) ∧
        (r.envelopSamplingMesh ts p).2.volume = Rib.depthVolume r.radius r.width (fin d)) := by
  obtain ⟨hlines, -, -⟩ := Accurate.lines hε hs hr hp
  have hup := hs.up
  have hz : n.z ≠ 0 := by linarith
  have hεp : 0 < ε := lt_of_lt_of_le (by norm_num) hε.lo
  refine Accurate.core hε hs hr hp hF hF' (fun l q hm => ?_)
  obtain ⟨a0, a1, a2⟩ := hlines (l, q) hm
  dsimp only at a0 a1 a2
  have hoff := RoadContact.offset hs (q := q) (by
    simp only [List.mem_cons, Prod.mk.injEq, List.not_mem_nil, or_false] at hm ⊢
    tauto)
  dsimp only at hoff
  generalize V3.add P.trans (M3.mulVec P.linear q) = Q at a1 a2 hoff
  obtain ⟨⟨O1, e1, k1⟩, ⟨O2, e2, k2⟩, ⟨O3, e3, k3⟩⟩ := a1
  have hl : l = ⟨asVec ⟨O1, O2, O3⟩, V3.neg V3.ez⟩ := by
    cases l with
    | mk lo ld =>
      dsimp only at a0 e1 e2 e3
      rw [a0, asVec]
      congr 1
      ext1 <;> assumption
  have hsmall : 5700 * ε ≤ 1 / 2 ^ 20 := by
    have := hε.hi
    norm_num at this ⊢; linarith
  have close : ∀ a b c e : ℝ, |a - b| ≤ 5700 * ε → |b - c| ≤ 3 / 10 → |a - e| ≤ 1 / 2 + |c - e| := by
    intro a b c e h1 h2
    have := abs_sub_le a b e
    have := abs_sub_le b c e
    norm_num at hsmall
    linarith
  have half : ∀ a b c : ℝ, |a - b| ≤ 5700 * ε → |b - c| ≤ 3 / 10 → |a - c| ≤ 1 / 2 := by
    intro a b c h1 h2
    have := close a b c c h1 h2
    simpa using this
  obtain ⟨pt, hpt, px, py⟩ := hcov O1 O2 (half _ _ _ k1 hoff.1) (half _ _ _ k2 hoff.2.1)
  obtain ⟨T, hTm, -⟩ := id hpt
  have hZ : Z ≤ 2 ^ 20 := by
    have h1 : 0 ≤ η := (abs_nonneg _).trans (hT T hTm).2.1.v0
    have h2 := hε.hi
    norm_num at hacc h2 ⊢
    linarith
  have size : ∀ a b : ℝ, |a - b| ≤ 5700 * ε → |b| ≤ 1030 → |a| ≤ 2 ^ 11 := by
    intro a b h1 h2
    have := abs_sub_abs_le_abs_sub a b
    norm_num at hsmall ⊢
    linarith
  obtain ⟨x, T', hT', hrun, hcl⟩ := RoadContact.sample (η := η) (D := D) (Z := Z) (C := 2 ^ 11) (o := o) hz hd
    (fun T h => ⟨(hT T h).1, (hT T h).2.1⟩) (O := ⟨O1, O2, O3⟩)
    (fun T h => by
      obtain ⟨b1, b2, b3⟩ := hO T h
      refine ⟨(close _ _ _ _ k1 hoff.1).trans ?_, (close _ _ _ _ k2 hoff.2.1).trans ?_, (close _ _ _ _ k3 hoff.2.2).trans ?_⟩ <;>
        first | linarith | (norm_num at b1 b2 ⊢; linarith))
    hDZ hZ ⟨size _ _ k1 a2.x, size _ _ k2 a2.y, size _ _ k3 a2.z⟩ (by norm_num) (by norm_num) hpt px py
  refine ⟨x, T'.friction, by rw [hl, hrun], (hT T' hT').2.2.1, (hT T' hT').2.2.2, ?_⟩
  obtain ⟨m1, m2, m3⟩ := RoadContact.foot_move (o := o) (O := ⟨O1, O2, O3⟩) (q := Q) hs.unit hs.up k1 k2
  have hlo := hε.lo
  have fin' : ∀ {b : B64} {u v : ℝ}, Close (2 * η + Z / 2 ^ 26 + 2 ^ 11 / 2 ^ 52) b u → |u - v| ≤ 4 * (5700 * ε) →
      Close (395000 * ε) b v := by
    rintro b u v ⟨t, ht, hte⟩ huv
    refine ⟨t, ht, ?_⟩
    have := abs_sub_le t u v
    norm_num at hacc hlo hte ⊢
    linarith
  exact ⟨fin' hcl.x m1, fin' hcl.y m2, fin' hcl.z m3⟩

/-- **C108 (partial), a wheel on a mesh of a plane road.**  The vertices of the triangles are doubles that lie within `η` of a plane, and the triangles
under the rib cover a square of 1 m around its centre; no triangle is a needle or smaller than twice the tolerance.  Then the record
computed in doubles is the contact with the plane: the depth, the normal and the point are as accurate as on a flat ground, with a
unit of accuracy `ε` not smaller than `η / 2 ^ 16`, and the friction is between the smallest and the largest of the triangles.  With triangles of up to
4 m and `η` of 0.05 µm, `ε = 2 ^ -40` will do. -/
theorem C108_road_partial {ε : ℝ} (hε : Fine ε) {R y w F₀ F₁ η D Z : ℝ} {P : Affine ℝ} {o n : V3 ℝ} (hs : CalmScene R y w P o n)
    {r : Rib B64} {p : Affine B64} (hr : CloseRib ε r R y w) (hp : ClosePose ε p P) {ts : List (TriangleGround B64)}
    {Ts : List (TriangleGround ℝ)} (hd : List.Forall₂ InDoubles ts Ts)
    (hT : ∀ T ∈ Ts, Sound D T.tri ∧ AlongPlane η o n T.tri ∧ F₀ ≤ T.friction ∧ T.friction ≤ F₁) (hF : 0 ≤ F₀) (hF' : F₁ ≤ 8)
    (hO : ∀ T ∈ Ts, |(hub y P).x - T.tri.v0.x| ≤ 2 ^ 21 ∧ |(hub y P).y - T.tri.v0.y| ≤ 2 ^ 21 ∧ |(hub y P).z - T.tri.v0.z| + 1 / 2 ≤ Z)
    (hDZ : D ≤ Z) (hacc : 2 * η + Z / 2 ^ 26 ≤ 2 ^ 18 * ε) (hcov : Covers (1 / 2) (hub y P) Ts) :
    let e := 2 ^ 28 * (1 + R / w) * ε
    let depth := sunkDepth R y P o n
    let res := r.envelopSamplingMesh ts p
    (e < depth → res.1 = true) ∧ (depth < -e → res.1 = false) ∧
    (res.1 = true → Close e res.2.depth depth ∧ Close3 (2 ^ 27 * (1 / R + 1 / w) * ε) res.2.normal n ∧
      Close3 (2 ^ 19 * ε) res.2.point (footAt o n (hub y P)) ∧ ∃ F, F₀ ≤ F ∧ F ≤ F₁ ∧ Close (16 * ε) res.2.friction F) := by
  intro e depth res
  obtain ⟨d, h1, h2, h3⟩ := RoadContact.all hε hs hr hp hd hT hF hF' hO hDZ hacc hcov
  have h1' := abs_le.1 h1
  refine ⟨fun h => ?_, fun h => ?_, fun h => ?_⟩
  · rw [show res.1 = decide (0 < d) from h2, decide_eq_true_eq]
    have := h1'.1
    simp only [e, depth] at h
    linarith
  · rw [show res.1 = decide (0 < d) from h2, decide_eq_false_iff_not]
    have := h1'.2
    simp only [e, depth] at h
    linarith
  · rw [show res.1 = decide (0 < d) from h2, decide_eq_true_eq] at h
    obtain ⟨k1, k2, k3, k4, -, -⟩ := h3 h
    exact ⟨⟨d, k1, h1⟩, k2, k3, k4⟩

namespace RoadContact

/-- After a setup on a mesh with the sampling method the records are the evaluations of the ribs on the triangles found. -/
theorem shows {α : Type} [Scalar α] {pol : Policy} {s s' : Shell α} (hreach : s.Reachable pol) {m : Mesh α} {pose : Affine α}
    {b : Bool} (hs : s.setupMesh pol m pose "sampling" = .ok s' b) {loc : List (TriangleGround α)}
    (hloc : m.intersection (s.transform pose).updateBBox.bbox = .ok loc) (hne : loc ≠ []) {i : Nat} {r : Rib α} {o : Output α}
    (h : Shows pol s' i r o) : ∃ flag, r.envelopSamplingMesh loc pose = (flag, o) := by
  have hribs : s'.ribs = s.ribs := (Shell.setupMesh_rel (.inl ⟨b, hs⟩)).ribs
  obtain ⟨flags, recs, h1, -⟩ := C38_mesh_flag pol s s' hreach m pose "sampling" loc b hloc hs
  obtain ⟨h2, h3⟩ := h
  rw [hribs] at h2
  have hi : i < s.size := (List.getElem?_eq_some_iff.1 h2).1
  obtain ⟨r', e1, e2, e3⟩ := h1 i hi
  rw [hribs, h2] at e1
  cases e1
  rw [h3] at e3
  cases e3
  simp only [if_neg hne] at e2
  have hc : Shell.ribCandidates pose "sampling" loc r = loc := by
    rw [Shell.ribCandidates, List.filter_eq_self]
    intro t _
    simp [Shell.isCandidate, Shell.refines]
  rw [hc, Rib.envelopMesh, if_neg (by decide), if_pos rfl] at e2
  exact ⟨_, Res.ok.inj e2⟩

theorem asVec_inj {a b : V3 ℝ} (h : asVec a = asVec b) : a = b := by
  simp only [asVec, V3.mk.injEq, B64.fin] at h
  obtain ⟨h1, h2, h3⟩ := h
  ext
  · simpa using h1
  · simpa using h2
  · simpa using h3

theorem asTri_inj {a b : Triangle ℝ} (h : asTri a = asTri b) : a = b := by
  simp only [asTri, Triangle.mk.injEq] at h
  obtain ⟨h1, h2, h3⟩ := h
  cases a; cases b
  simp only [Triangle.mk.injEq]
  exact ⟨asVec_inj h1, asVec_inj h2, asVec_inj h3⟩

theorem corners {t : TriangleGround B64} {T : TriangleGround ℝ} (h : InDoubles t T) {v0 v1 v2 : V3 ℝ} (hc : HasCorners t.tri v0 v1 v2) :
    HasCorners t.tri T.tri.v0 T.tri.v1 T.tri.v2 := by
  have key : ∀ {x : V3 B64} {v V : V3 ℝ}, IsDouble3 x v → x = asVec V → v = V := by
    intro x v V h1 h2
    apply asVec_inj
    rw [← h2, asVec]
    ext1
    · exact h1.x.eq.symm
    · exact h1.y.eq.symm
    · exact h1.z.eq.symm
  have e := h.1
  have e0 : v0 = T.tri.v0 := key hc.v0 (by rw [e]; rfl)
  have e1 : v1 = T.tri.v1 := key hc.v1 (by rw [e]; rfl)
  have e2 : v2 = T.tri.v2 := key hc.v2 (by rw [e]; rfl)
  rw [← e0, ← e1, ← e2]
  exact hc

theorem choose {ms : List (TriangleGround B64)} {Q : TriangleGround B64 → TriangleGround ℝ → Prop}
    (h : ∀ t ∈ ms, ∃ T, Q t T) : ∃ Ts, List.Forall₂ Q ms Ts := by
  induction ms with
  | nil => exact ⟨[], .nil⟩
  | cons t ts ih =>
    obtain ⟨T, hT⟩ := h t (by simp)
    obtain ⟨Ts, hTs⟩ := ih fun t ht => h t (by simp [ht])
    exact ⟨T :: Ts, .cons hT hTs⟩

theorem between_abs {a b c x D : ℝ} (h : Min.min a (Min.min b c) ≤ x ∧ x ≤ Max.max a (Max.max b c)) (hb : |b - a| ≤ D) (hc : |c - a| ≤ D) :
    |x - a| ≤ D := by
  have hD : 0 ≤ D := (abs_nonneg _).trans hb
  rw [abs_le] at hb hc ⊢
  have h1 : a - D ≤ Min.min a (Min.min b c) := le_min (by linarith) (le_min (by linarith) (by linarith))
  have h2 : Max.max a (Max.max b c) ≤ a + D := max_le (by linarith) (max_le (by linarith) (by linarith))
  constructor <;> linarith

end RoadContact

/-- **C108 for the tyre** (partial, as above).  A mesh loaded in doubles whose triangles, of at most 4 m, follow a plane up to `η`; a tyre of radius at most 2 m
over a part of the mesh that lies within the reach of its box.  After a setup in doubles with the sampling method the record of every
rib shows the depth under the plane, its normal and the point on it, up to the error bounds. -/
theorem C108_setup_partial {ε : ℝ} (hε : Fine ε) {R y w F₀ F₁ η D : ℝ} {P : Affine ℝ} {o n : V3 ℝ} (hs : CalmScene R y w P o n)
    (np : NumParse B64) {m : Mesh B64} (hm : m.Loaded np) (hv : FiniteMesh m) {Ms : List (TriangleGround ℝ)}
    (hd : List.Forall₂ InDoubles m.triangles Ms)
    (hT : ∀ T ∈ Ms, Sound D T.tri ∧ AlongPlane η o n T.tri ∧ F₀ ≤ T.friction ∧ T.friction ≤ F₁) (hF : 0 ≤ F₀) (hF' : F₁ ≤ 8)
    (hD : D ≤ 4) (hacc : 2 * η + 1 / 2 ^ 23 ≤ 2 ^ 18 * ε) {pol : Policy} {s s' : Shell B64} (hreach : s.Reachable pol) {p : Affine B64}
    (hp : ClosePose ε p P) {c : V3 ℝ} {Rx : ℝ} (hc : IsDouble3 p.trans c) (hRx : IsDouble s.shape.rx Rx) (h0 : 0 ≤ Rx) (h2 : Rx ≤ 2)
    (hcov : ∀ x x', |x - (hub y P).x| ≤ 1 / 2 → |x' - (hub y P).y| ≤ 1 / 2 → ∃ q, OnMesh Ms q ∧ q.x = x ∧ q.y = x' ∧ InCube c Rx q)
    {b : Bool} (hset : s.setupMesh pol m p "sampling" = .ok s' b) {i : Nat} {r : Rib B64} {out : Output B64}
    (h : Shows pol s' i r out) (hr : CloseRib ε r R y w) :
    let e := 2 ^ 28 * (1 + R / w) * ε
    let depth := sunkDepth R y P o n
    (e < depth → (zero <. out.depth) = true) ∧
    (depth < -e → out.depth = zero ∧ out.friction = zero ∧ out.area = zero ∧ out.volume = zero) ∧
    ((zero <. out.depth) = true → Close e out.depth depth ∧ Close3 (2 ^ 27 * (1 / R + 1 / w) * ε) out.normal n ∧
      Close3 (2 ^ 19 * ε) out.point (footAt o n (hub y P)) ∧ ∃ F, F₀ ≤ F ∧ F ≤ F₁ ∧ Close (16 * ε) out.friction F) := by
  intro e depth
  obtain ⟨loc, hl1, hl2, hl3⟩ := C97_search np m hm hv s p hc hRx h0
  -- the real triangles of the mesh
  have real : ∀ t ∈ m.triangles, ∃ T ∈ Ms, InDoubles t T := by
    intro t ht
    obtain ⟨k, hk, htk⟩ := List.getElem_of_mem ht
    have hk' : k < Ms.length := by rw [← hd.length_eq]; exact hk
    have hr := List.forall₂_iff_get.1 hd |>.2 k hk hk'
    simp only [List.get_eq_getElem] at hr
    rw [htk] at hr
    exact ⟨_, List.getElem_mem hk', hr⟩
  have unreal : ∀ T ∈ Ms, ∃ t ∈ m.triangles, InDoubles t T := by
    intro T ht
    obtain ⟨k, hk, htk⟩ := List.getElem_of_mem ht
    have hk' : k < m.triangles.length := by rw [hd.length_eq]; exact hk
    have hr := List.forall₂_iff_get.1 hd |>.2 k hk' hk
    simp only [List.get_eq_getElem] at hr
    rw [htk] at hr
    exact ⟨_, List.getElem_mem hk', hr⟩
  obtain ⟨Ts, hTs⟩ := RoadContact.choose (ms := loc) (Q := fun t T => t ∈ loc ∧ T ∈ Ms ∧ InDoubles t T) (fun t ht => by
    obtain ⟨T, h1, h2⟩ := real t (hl3 t ht).1
    exact ⟨T, ht, h1, h2⟩)
  have hTd : List.Forall₂ InDoubles loc Ts := hTs.imp fun _ _ h => h.2.2
  have hTm : ∀ T ∈ Ts, ∃ t ∈ loc, T ∈ Ms ∧ InDoubles t T := by
    intro T ht
    obtain ⟨k, hk, htk⟩ := List.getElem_of_mem ht
    have hk' : k < loc.length := by rw [hTs.length_eq]; exact hk
    have hr := List.forall₂_iff_get.1 hTs |>.2 k hk' hk
    simp only [List.get_eq_getElem] at hr
    rw [htk] at hr
    exact ⟨_, hr.1, hr.2⟩
  -- what is near the tyre has been found
  have hcov' : Covers (1 / 2) (hub y P) Ts := by
    intro x x' h1 h2
    obtain ⟨q, ⟨T, hTM, hq⟩, qx, qy, hin⟩ := hcov x x' h1 h2
    obtain ⟨t, ht, htT⟩ := unreal T hTM
    obtain ⟨v0, v1, v2, hk⟩ := hv t ht
    have hk := RoadContact.corners htT hk
    have hmem := hl2 t ht _ _ _ q hk hq hin
    obtain ⟨j, hj, htj⟩ := List.getElem_of_mem hmem
    have hj' : j < Ts.length := by rw [← hTs.length_eq]; exact hj
    have hr := List.forall₂_iff_get.1 hTs |>.2 j hj hj'
    simp only [List.get_eq_getElem] at hr
    rw [htj] at hr
    have heq : Ts[j].tri = T.tri := RoadContact.asTri_inj (by rw [← hr.2.2.1, ← htT.1])
    exact ⟨q, ⟨Ts[j], List.getElem_mem hj', by rw [heq]; exact hq⟩, qx, qy⟩
  have hne : loc ≠ [] := by
    obtain ⟨q, ⟨T, hT, -⟩, -⟩ := hcov' (hub y P).x (hub y P).y (by simp) (by simp)
    obtain ⟨t, ht, -⟩ := hTm T hT
    exact List.ne_nil_of_mem ht
  -- everything found is near
  have hεh := hε.hi
  have near : ∀ T ∈ Ts, |(hub y P).x - T.tri.v0.x| ≤ 15 / 2 ∧ |(hub y P).y - T.tri.v0.y| ≤ 15 / 2 ∧ |(hub y P).z - T.tri.v0.z| ≤ 15 / 2 := by
    intro T hTT
    obtain ⟨t, ht, hTM, htT⟩ := hTm T hTT
    obtain ⟨hmt, hbox⟩ := hl3 t ht
    obtain ⟨v0, v1, v2, hk⟩ := hv t hmt
    obtain ⟨q, ⟨⟨a1, a2⟩, ⟨a3, a4⟩, a5, a6⟩, b1, b2, b3⟩ := hbox _ _ _ (RoadContact.corners htT hk)
    have hS := (hT T hTM).1
    have hcx : ∀ {x : B64} {u v : ℝ}, IsDouble x u → Close (2 ^ 10 * ε) x v → |u - v| ≤ 1 / 4 := by
      rintro x u v h1 ⟨x', h2, h3⟩
      have h4 : x' = u := by
        have h5 := h1.eq.symm.trans h2
        simpa [B64.fin] using h5.symm
      rw [h4] at h3
      norm_num at h3 hεh ⊢; linarith
    have c1 := hcx hc.x hp.trans.x
    have c2 := hcx hc.y hp.trans.y
    have c3 := hcx hc.z hp.trans.z
    have hpl := hs.place
    have hw : widened c Rx ≤ 2 + 1 / 4 := by
      have k1 := abs_sub_abs_le_abs_sub c.x P.trans.x
      have k2 := abs_sub_abs_le_abs_sub c.y P.trans.y
      have k3 := abs_sub_abs_le_abs_sub c.z P.trans.z
      have k4 := hpl.x
      have k5 := hpl.y
      have k6 := hpl.z
      have hM : Max.max |c.x| (Max.max |c.y| |c.z|) ≤ 2 ^ 11 :=
        max_le (by norm_num at k4 ⊢; linarith) (max_le (by norm_num at k5 ⊢; linarith) (by norm_num at k6 ⊢; linarith))
      have hp' : (2 : ℝ) ^ (-1075 : ℤ) ≤ 1 / 8 := by
        rw [show (1 : ℝ) / 8 = 2 ^ (-3 : ℤ) by norm_num [zpow_neg]]
        exact zpow_le_zpow_right₀ (by norm_num) (by norm_num)
      have hq : (2 : ℝ) ^ (-53 : ℤ) = 1 / 2 ^ 53 := by norm_num [zpow_neg]
      rw [widened, hq]
      have : (Max.max |c.x| (Max.max |c.y| |c.z|) + Rx) * (1 / 2 ^ 53) ≤ (2 ^ 11 + 2) * (1 / 2 ^ 53) :=
        mul_le_mul_of_nonneg_right (by linarith) (by norm_num)
      have h3 : ((2 : ℝ) ^ 11 + 2) * (1 / 2 ^ 53) ≤ 1 / 8 := by norm_num
      linarith
    have u1 := Upto.unit hs.rigid.unit1
    have hyv := hs.y_le
    have hy1 : ∀ a : ℝ, |a| ≤ 1 → |a * y| ≤ 1 := by
      intro a ha
      rw [abs_mul]
      exact (mul_le_mul ha hyv (abs_nonneg _) (by norm_num)).trans (by norm_num)
    have fin' : ∀ {pt a v k q u1 u2 : ℝ}, |a * y| ≤ 1 → |k - pt| ≤ 1 / 4 → |q - k| ≤ widened c Rx →
        Min.min v (Min.min u1 u2) ≤ q ∧ q ≤ Max.max v (Max.max u1 u2) → |u1 - v| ≤ D → |u2 - v| ≤ D → |pt + a * y - v| ≤ 15 / 2 := by
      intro pt a v k q u1 u2 g1 g2 g3 g4 g5 g6
      have g7 := RoadContact.between_abs g4 g5 g6
      rw [abs_le] at g1 g2 g3 g7 ⊢
      constructor <;> linarith
    exact ⟨fin' (hy1 _ u1.x) c1 b1 ⟨a1, a2⟩ hS.edge1.x hS.edge2.x, fin' (hy1 _ u1.y) c2 b2 ⟨a3, a4⟩ hS.edge1.y hS.edge2.y,
      fin' (hy1 _ u1.z) c3 b3 ⟨a5, a6⟩ hS.edge1.z hS.edge2.z⟩
  obtain ⟨flag, he⟩ := RoadContact.shows hreach hset hl1 hne h
  have hTT : ∀ T ∈ Ts, Sound D T.tri ∧ AlongPlane η o n T.tri ∧ F₀ ≤ T.friction ∧ T.friction ≤ F₁ := by
    intro T h
    obtain ⟨-, -, h, -⟩ := hTm T h
    exact hT T h
  have hO : ∀ T ∈ Ts, |(hub y P).x - T.tri.v0.x| ≤ 2 ^ 21 ∧ |(hub y P).y - T.tri.v0.y| ≤ 2 ^ 21 ∧ |(hub y P).z - T.tri.v0.z| + 1 / 2 ≤ 8 := by
    intro T h
    obtain ⟨k1, k2, k3⟩ := near T h
    exact ⟨k1.trans (by norm_num), k2.trans (by norm_num), by linarith⟩
  have hD8 : D ≤ 8 := by linarith
  have hacc' : 2 * η + 8 / 2 ^ 26 ≤ 2 ^ 18 * ε := le_trans (by norm_num) hacc
  obtain ⟨k1, k2, k3⟩ := C108_road_partial hε hs hr hp hTd hTT hF hF' hO hD8 hacc' hcov'
  obtain ⟨d, q1, q2, q3⟩ := RoadContact.all hε hs hr hp hTd hTT hF hF' hO hD8 hacc' hcov'
  rw [he] at k1 k2 k3 q2 q3
  dsimp only at k1 k2 k3 q2 q3
  have hno : flag = false → out = r.noContact p := by
    intro hfl
    subst hfl
    exact Rib.envelopMesh_false (method := "sampling") (ts := loc)
      (by rw [Rib.envelopMesh, if_neg (by decide), if_pos rfl, he])
  have hflag : (zero <. out.depth) = true ↔ flag = true := by
    cases flag with
    | true =>
      have hd : 0 < d := by simpa using q2.symm
      rw [(q3 hd).1, B64.zero_eq, lt_fin]
      simpa using hd
    | false =>
      rw [hno rfl, Rib.noContact, B64.zero_eq, lt_fin]
      simp
  refine ⟨fun h => hflag.2 (k1 h), fun h => ?_, fun h => k3 (hflag.1 h)⟩
  rw [hno (k2 h)]
  exact ⟨rfl, rfl, rfl, rfl⟩

end Enve
