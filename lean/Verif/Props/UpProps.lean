import Verif.Props.InsideProps
import Verif.Props.FrameProps
import Verif.Props.SamplingProps
import Verif.Props.RetileProps
import Verif.Props.OffAxisProps

/-! # C146: the reported normal points away from the ground, towards the wheel -/

namespace Enve
open Scalar Spec

namespace Up

/-- Normalising does not change the sense along a direction. -/
theorem normalized_sense {a u : V3 ℝ} (h : 0 < dot3 a u) : 0 < dot3 (V3.normalized a) u := by
  have hne : a ≠ ⟨0, 0, 0⟩ := by rintro rfl; simp [dot3] at h
  have hn : 0 < V3.norm a := by
    rcases (V3.norm_nonneg a).lt_or_eq with h0 | h0
    · exact h0
    · exfalso
      rw [V3.norm_eq, length3] at h0
      have hx := sq_nonneg a.x; have hy := sq_nonneg a.y; have hz := sq_nonneg a.z
      have h1 := (Real.sqrt_eq_zero (by positivity)).1 h0.symm
      have ex : a.x = 0 := pow_eq_zero_iff (two_ne_zero) |>.1 (by linarith)
      have ey : a.y = 0 := pow_eq_zero_iff (two_ne_zero) |>.1 (by linarith)
      have ez : a.z = 0 := pow_eq_zero_iff (two_ne_zero) |>.1 (by linarith)
      exact hne (by ext <;> assumption)
  rw [V3.normalized_of_ne hne]
  have e : dot3 ⟨a.x / V3.norm a, a.y / V3.norm a, a.z / V3.norm a⟩ u = dot3 a u / V3.norm a := by
    simp only [dot3]; ring
  rw [e]; exact div_pos h hn

/-! ## The sampling method -/

/-- The points of the four sampling lines: the third coordinate of the vector the normal is made of does not depend on the ground. -/
theorem cross_z {r : Rib ℝ} {pose : Affine ℝ} (hp : IsRigid pose) {p0 p1 p2 p3 : V3 ℝ} (h0 : OnLine (r.lineXp pose) p0)
    (h1 : OnLine (r.lineXm pose) p1) (h2 : OnLine (r.lineYp pose) p2) (h3 : OnLine (r.lineYm pose) p3) :
    (V3.cross (V3.sub p0 p1) (V3.sub p2 p3)).z = 3 / 25 * (r.radius * r.width) * pose.linear.c2.z := by
  obtain ⟨t0, rfl⟩ := h0
  obtain ⟨t1, rfl⟩ := h1
  obtain ⟨t2, rfl⟩ := h2
  obtain ⟨t3, rfl⟩ := h3
  have hc := congrArg V3.z hp.cross01
  simp only [V3.cross, real_sub, real_mul] at hc
  rw [← hc]
  simp only [Rib.lineXp, Rib.lineXm, Rib.lineYp, Rib.lineYm, along]
  v3
  rw [real_lit, real_lit]
  push_cast
  ring

/-- A contact of the sampling method on whatever ground. -/
theorem sampling {r : Rib ℝ} {sample : Line ℝ → Option (V3 ℝ × ℝ)} (hs : ∀ l p f, sample l = some (p, f) → OnLine l p) {pose : Affine ℝ}
    (hp : IsRigid pose) {o : Output ℝ} (h : r.envelopSampling sample pose = (true, o)) :
    ∃ k : ℝ, 0 < k ∧ o.normal.z = k * (r.radius * r.width) * pose.linear.c2.z := by
  have hu := Rib.sampling_unit h
  unfold Rib.envelopSampling at h
  split at h
  · rename_i p0 f0 p1 f1 p2 f2 p3 f3 e0 e1 e2 e3
    dsimp only at h
    split at h
    · have h := (Prod.mk.inj h).2
      have hz := cross_z hp (hs _ _ _ e0) (hs _ _ _ e1) (hs _ _ _ e2) (hs _ _ _ e3)
      rw [← h] at hu ⊢
      dsimp only at hu ⊢
      generalize V3.cross (V3.sub p0 p1) (V3.sub p2 p3) = c at *
      have hne : c ≠ ⟨0, 0, 0⟩ := by
        intro hc
        rw [V3.normalized_zero hc, hc] at hu
        simp [length3] at hu
      have hn : 0 < V3.norm c := by
        rcases (V3.norm_nonneg c).lt_or_eq with h0 | h0
        · exact h0
        · exfalso
          rw [V3.normalized_of_ne hne, ← h0] at hu
          simp [length3] at hu
      rw [V3.normalized_of_ne hne]
      refine ⟨3 / 25 / V3.norm c, by positivity, ?_⟩
      dsimp only
      rw [hz]; ring
    · cases h
  · cases h

/-- The samples of a flat ground are on the line. -/
theorem flat_onLine (g : Flat ℝ) (l : Line ℝ) (p : V3 ℝ) (f : ℝ) (h : Rib.samplingLineFlat g l = some (p, f)) : OnLine l p := by
  rw [Rib.samplingLineFlat, Option.map_eq_some_iff] at h
  obtain ⟨q, hq, he⟩ := h
  obtain ⟨rfl, -⟩ := Prod.mk.inj he
  exact ((C49_line_plane l g.plane Scalar.eps real_eps_pos.le).2 _ hq).1

/-! ## The geometric method -/

/-- The normal of one section below the centre. -/
theorem contrib {r : Rib ℝ} (hr : IsRib r) {pose : Affine ℝ} (hp : IsRigid pose) {t : TriangleGround ℝ} {seg : Segment ℝ} {c : Rib.Contrib ℝ}
    (h0 : dot3 (minus seg.v0 (r.centerGrd pose)) pose.linear.c2 < 0) (h1 : dot3 (minus seg.v1 (r.centerGrd pose)) pose.linear.c2 < 0)
    (h : r.contrib pose t seg = some c) : 0 < dot3 c.normal pose.linear.c2 := by
  unfold Rib.contrib at h
  dsimp only at h
  rw [Option.ite_none_left_eq_some] at h
  have h := Option.some.inj h.2
  subst h
  dsimp only
  rw [Rib.normalGrd_eq hr]
  have hz : ∀ v : V3 ℝ, (M3.mulVec (M3.transpose pose.linear) (V3.sub v (r.centerGrd pose))).z =
      dot3 (minus v (r.centerGrd pose)) pose.linear.c2 := by
    intro v
    generalize r.centerGrd pose = g
    simp only [dot3, minus, M3.transpose]
    v3
    ring
  simp only [real_atan2, hz]
  have a0 := Complex.arg_neg_iff.2 (show (⟨(M3.mulVec (M3.transpose pose.linear) (V3.sub seg.v0 (r.centerGrd pose))).x,
    dot3 (minus seg.v0 (r.centerGrd pose)) pose.linear.c2⟩ : ℂ).im < 0 from h0)
  have a1 := Complex.arg_neg_iff.2 (show (⟨(M3.mulVec (M3.transpose pose.linear) (V3.sub seg.v1 (r.centerGrd pose))).x,
    dot3 (minus seg.v1 (r.centerGrd pose)) pose.linear.c2⟩ : ℂ).im < 0 from h1)
  have b0 := Complex.neg_pi_lt_arg (⟨(M3.mulVec (M3.transpose pose.linear) (V3.sub seg.v0 (r.centerGrd pose))).x,
    dot3 (minus seg.v0 (r.centerGrd pose)) pose.linear.c2⟩ : ℂ)
  have b1 := Complex.neg_pi_lt_arg (⟨(M3.mulVec (M3.transpose pose.linear) (V3.sub seg.v1 (r.centerGrd pose))).x,
    dot3 (minus seg.v1 (r.centerGrd pose)) pose.linear.c2⟩ : ℂ)
  generalize Complex.arg ⟨_, dot3 (minus seg.v0 (r.centerGrd pose)) pose.linear.c2⟩ = A at *
  generalize Complex.arg ⟨_, dot3 (minus seg.v1 (r.centerGrd pose)) pose.linear.c2⟩ = B at *
  have hT : -Real.pi < ((if (B <. A) = true then B else A) +. (if (B <. A) = true then A else B)) /. two ∧
      ((if (B <. A) = true then B else A) +. (if (B <. A) = true then A else B)) /. two < 0 := by
    simp only [real_add, real_div, real_two]
    constructor <;> split <;> linarith
  generalize ((if (B <. A) = true then B else A) +. (if (B <. A) = true then A else B)) /. two = T at *
  have hs := Real.sin_neg_of_neg_of_neg_pi_lt hT.2 hT.1
  refine normalized_sense ?_
  have e2 := hp.unit2
  have e12 := hp.orth12
  have e02 := hp.orth02
  have hnt : dot3 (M3.mulVec pose.linear ⟨-. Scalar.cos T, zero, -. Scalar.sin T⟩) pose.linear.c2 = -Real.sin T := by
    simp only [dot3]
    v3
    linear_combination (-Real.sin T) * e2 + (-Real.cos T) * e02
  have : dot3 (V3.add (M3.mulVec pose.linear ⟨-. Scalar.cos T, zero, -. Scalar.sin T⟩)
      (V3.smul (V3.dot (V3.sub t.normal (M3.mulVec pose.linear ⟨-. Scalar.cos T, zero, -. Scalar.sin T⟩)) pose.linear.c1) pose.linear.c1))
      pose.linear.c2 = -Real.sin T := by
    rw [← hnt]
    generalize M3.mulVec pose.linear ⟨-. Scalar.cos T, zero, -. Scalar.sin T⟩ = n
    generalize V3.dot (V3.sub t.normal n) pose.linear.c1 = d
    simp only [dot3]
    v3
    linear_combination d * e12
  rw [this]; linarith

/-- The sums of the geometric method, where every section is below the centre. -/
theorem loop {r : Rib ℝ} (hr : IsRib r) {pose : Affine ℝ} (hp : IsRigid pose) (ts : List (TriangleGround ℝ))
    (hlow : ∀ t ∈ ts, ∀ seg, Inter.triangleDisk t.tri (r.diskGrd pose) Scalar.eps = .ok (some seg) →
      dot3 (minus seg.v0 (r.centerGrd pose)) pose.linear.c2 < 0 ∧ dot3 (minus seg.v1 (r.centerGrd pose)) pose.linear.c2 < 0)
    {acc acc' : Rib.Acc ℝ} (hl : r.geomLoop pose ts acc = .ok acc') (h0 : 0 ≤ acc.volume) (h1 : 0 ≤ dot3 acc.normal pose.linear.c2)
    (h2 : 0 < acc.volume → 0 < dot3 acc.normal pose.linear.c2) :
    0 ≤ acc'.volume ∧ (0 < acc'.volume → 0 < dot3 acc'.normal pose.linear.c2) := by
  induction ts generalizing acc with
  | nil => rw [Rib.geomLoop] at hl; cases hl; exact ⟨h0, h2⟩
  | cons t ts ih =>
    have hlow' := fun t' ht' => hlow t' (List.mem_cons_of_mem _ ht')
    rw [Rib.geomLoop, Res.bind_eq_ok] at hl
    obtain ⟨o, ho, hl⟩ := hl
    cases o with
    | none => exact ih hlow' hl h0 h1 h2
    | some seg =>
      dsimp only at hl
      cases hc : r.contrib pose t seg with
      | none => rw [hc] at hl; cases hl; exact ⟨h0, h2⟩
      | some c =>
        rw [hc] at hl
        obtain ⟨l0, l1⟩ := hlow t (by simp) seg ho
        have hn := contrib hr hp l0 l1 hc
        have hv := (Rib.contrib_spec hr.radius_pos.le hr.width_nonneg hc).2.1
        have e : dot3 (acc.add c).normal pose.linear.c2 = dot3 acc.normal pose.linear.c2 + c.volume * dot3 c.normal pose.linear.c2 := by
          simp only [Rib.Acc.add, dot3, V3.add, V3.smul, real_add, real_mul]; ring
        have ev : (acc.add c).volume = acc.volume + c.volume := by simp [Rib.Acc.add]
        refine ih hlow' hl (by rw [ev]; linarith) (by rw [e]; have := mul_nonneg hv hn.le; linarith) fun hpos => ?_
        rw [ev] at hpos
        rw [e]
        rcases hv.lt_or_eq with h | h
        · have := mul_pos h hn; linarith
        · rw [← h] at hpos ⊢; have := h2 (by linarith); linarith

end Up

/-! ## C146 -/

/-- The point is lower than the centre of the rib, in the direction of the up axis of the wheel. -/
def Spec.BelowAxis (pose : Affine ℝ) (r : Rib ℝ) (p : V3 ℝ) : Prop := dot3 (minus p (pose.apply ⟨0, r.y, 0⟩)) pose.linear.c2 < 0

/-- **C146, sampling method (partial).**  On every ground, the normal of the record of a rib is on the same side of the horizontal as the up
axis of the wheel: it points up if the wheel is the right way up, and down if the pose has the wheel upside down. -/
theorem C146_sampling_partial {r : Rib ℝ} (hr : IsRib r) (hw : 0 < r.width) {pose : Affine ℝ} (hp : IsRigid pose) {o : Output ℝ}
    (h : EvaluatedBy "sampling" r pose o) :
    (0 < pose.linear.c2.z → 0 < o.normal.z) ∧ (pose.linear.c2.z < 0 → o.normal.z < 0) := by
  have hR : 0 < r.radius := hr.radius_pos
  have hno : (r.noContact pose).normal = pose.linear.c2 := by
    simp only [Rib.noContact]; ext <;> v3 <;> ring
  have key : (∃ k : ℝ, 0 < k ∧ o.normal.z = k * (r.radius * r.width) * pose.linear.c2.z) →
      (0 < pose.linear.c2.z → 0 < o.normal.z) ∧ (pose.linear.c2.z < 0 → o.normal.z < 0) := by
    rintro ⟨k, hk, e⟩
    rw [e]
    have : 0 < k * (r.radius * r.width) := by positivity
    exact ⟨fun h => mul_pos this h, fun h => mul_neg_of_pos_of_neg this h⟩
  rcases h with rfl | ⟨f, og, n, g, b, hg, h⟩ | ⟨ts, b, h⟩
  · rw [hno]; exact ⟨id, id⟩
  · cases b with
    | false => rw [Rib.envelopFlat_false h, hno]; exact ⟨id, id⟩
    | true =>
      rw [Rib.envelopFlat, if_neg (by decide), if_pos rfl] at h
      exact key (Up.sampling (Up.flat_onLine g) hp (Res.ok.inj h))
  · cases b with
    | false => rw [Rib.envelopMesh_false h, hno]; exact ⟨id, id⟩
    | true =>
      rw [Rib.envelopMesh, if_neg (by decide), if_pos rfl] at h
      exact key (Up.sampling (fun l p f => Rib.samplingLineMesh_onLine) hp (Res.ok.inj h))

/-- **C146, geometric method on a flat ground.**  The normal of a contact points up, at every pose. -/
theorem C146_geometric_flat {r : Rib ℝ} (hr : IsRib r) {pose : Affine ℝ} (hp : IsRigid pose) {f : ℝ} {og n : V3 ℝ} {g : Flat ℝ}
    (hg : Flat.make f og n = .ok g) {o : Output ℝ} (h : r.envelopFlat g pose "geometric" = .ok (true, o)) : 0 < o.normal.z := by
  have h : r.envelopGeometricFlat g pose = (true, o) := by simpa [Rib.envelopFlat] using h
  have hc := (C32_contact hr hp hg (by rw [h])).2.2.2.1
  rw [h] at hc
  rw [hc]
  exact (C26_flat_normal _ _ _ g hg).2.1

/-- **C146, geometric method on a mesh (partial).**  If the ground is lower than the axis of the wheel, the normal of a contact with volume
points to the side of the wheel: its part along the up axis of the wheel is positive. -/
theorem C146_geometric_mesh_partial {r : Rib ℝ} (hr : IsRib r) {pose : Affine ℝ} (hp : IsRigid pose) {ts : List (TriangleGround ℝ)}
    (hlow : ∀ t ∈ ts, ∀ p, NearTriangle Scalar.eps t.tri p → BelowAxis pose r p) {o : Output ℝ}
    (h : r.envelopMesh ts pose "geometric" = .ok (true, o)) (hv : o.volume ≠ 0) : 0 < dot3 o.normal pose.linear.c2 := by
  have h : r.envelopGeometricMesh ts pose = .ok (true, o) := by simpa [Rib.envelopMesh] using h
  rw [Rib.envelopGeometricMesh, Res.bind_eq_ok] at h
  obtain ⟨acc, hl, h⟩ := h
  have h : r.geomFinish pose acc = (true, o) := Res.ok.inj h
  have hcen : r.centerGrd pose = pose.apply ⟨0, r.y, 0⟩ := by
    simp only [Rib.centerGrd, Affine.apply, show r.center = ⟨0, r.y, 0⟩ from hr.center]; v3; congr 1 <;> ring
  have hd : Unit3 (r.diskGrd pose).plane.normal := by
    show Unit3 (r.normalGrd pose)
    rw [Rib.normalGrd_eq hr]; exact hp.unit1
  obtain ⟨h1, h2⟩ := Up.loop hr hp ts (fun t ht seg hs => by
    obtain ⟨-, -, ⟨n0, n1⟩, -⟩ := C53_triangle_disk t.tri (r.diskGrd pose) hd hr.radius_pos.le Scalar.eps real_eps_pos seg hs
    rw [hcen]
    exact ⟨hlow t ht _ n0, hlow t ht _ n1⟩) hl (by simp [Rib.Acc.init]) (by simp [Rib.Acc.init, V3.zeros, dot3])
    (fun h => absurd h (by simp [Rib.Acc.init]))
  unfold Rib.geomFinish at h
  split at h
  · cases h
    have hpos : 0 < acc.volume := lt_of_le_of_ne h1 (Ne.symm hv)
    refine Up.normalized_sense ?_
    have e : dot3 (V3.sdiv acc.normal acc.volume) pose.linear.c2 = dot3 acc.normal pose.linear.c2 / acc.volume := by
      simp only [dot3, V3.sdiv, real_div]; ring
    rw [e]
    exact div_pos (h2 hpos) hpos
  · cases h

/-- The normal of the tyre, if those of the ribs are on one side. -/
theorem Up.average {pol : Policy} {s : Shell ℝ} {o : Nat → Output ℝ} (h : Reports pol s o) (hn : 1 ≤ s.size) (hv : ∀ i < s.size, 0 ≤ (o i).volume)
    {u : V3 ℝ} (hu : ∀ i < s.size, 0 < dot3 (o i).normal u) :
    ∃ n, s.contactNormal pol = .ok n ∧ length3 n = 1 ∧ 0 < dot3 n u := by
  obtain ⟨n, h1, h2, -⟩ := C45_shell_normal h
  dsimp only at h2
  set w := ribWeight s.size fun i => (o i).volume with hw
  set N : V3 ℝ := ⟨∑ i ∈ Finset.range s.size, w i * (o i).normal.x,
      ∑ i ∈ Finset.range s.size, w i * (o i).normal.y, ∑ i ∈ Finset.range s.size, w i * (o i).normal.z⟩ with hN
  have hd : dot3 N u = ∑ i ∈ Finset.range s.size, w i * dot3 (o i).normal u := by
    simp only [hN, dot3, Finset.sum_mul, ← Finset.sum_add_distrib]
    refine Finset.sum_congr rfl fun i _ => ?_
    ring
  have hpos : 0 < dot3 N u := by
    rw [hd]
    have hsum := ribWeight_sum hn fun i => (o i).volume
    have hw0 : ∀ i ∈ Finset.range s.size, 0 ≤ w i := fun i hi => ribWeight_nonneg hv (Finset.mem_range.1 hi)
    obtain ⟨j, hj, hj0⟩ : ∃ j ∈ Finset.range s.size, 0 < w j := by
      by_contra hno
      push Not at hno
      have : ∑ i ∈ Finset.range s.size, w i ≤ 0 := Finset.sum_nonpos hno
      linarith
    exact Finset.sum_pos' (fun i hi => mul_nonneg (hw0 i hi) (hu i (Finset.mem_range.1 hi)).le)
      ⟨j, hj, mul_pos hj0 (hu j (Finset.mem_range.1 hj))⟩
  have hne : N ≠ ⟨0, 0, 0⟩ := by intro h0; rw [h0] at hpos; simp [dot3] at hpos
  obtain ⟨h3, h4⟩ := h2 hne
  refine ⟨n, h1, h3, ?_⟩
  have hlen : 0 < length3 N := by
    rcases (show 0 ≤ length3 N from Real.sqrt_nonneg _).lt_or_eq with h0 | h0
    · exact h0
    · exfalso
      rw [h4, ← h0] at h3
      simp [length3] at h3
  have e : dot3 n u = dot3 N u / length3 N := by rw [h4]; simp only [dot3]; ring
  rw [e]; exact div_pos hpos hlen

/-- **C146, the tyre (partial).**  A wheel the right way up: after a `setup` with the sampling method on any ground, or with either method on
a flat ground, the normal of every rib and the contact normal of the tyre point up. -/
theorem C146_tyre_partial {pol : Policy} {s s' : Shell ℝ} (hs : s.Reachable pol) (hw : ∀ r ∈ s.ribs, 0 < r.width) {pose : Affine ℝ}
    (hp : IsRigid pose) (hup : 0 < pose.linear.c2.z) {method : String} {b : Bool} (h : SetUp pol s pose method s' b) (hn : 1 ≤ s'.size)
    (hm : method = "sampling" ∨ ∃ f og n g, Flat.make f og n = .ok g ∧ s.setupFlat pol g pose method = .ok s' b) :
    (∀ o, Reports pol s' o → ∀ i < s'.size, 0 < (o i).normal.z) ∧ ∃ n, s'.contactNormal pol = .ok n ∧ length3 n = 1 ∧ 0 < n.z := by
  obtain ⟨o, ho, hev⟩ := h.evaluated hs
  have hmem : ∀ (i : Nat) r, s'.ribs[i]? = some r → r ∈ s.ribs := by
    intro i r hr
    rw [h.rel.ribs] at hr
    exact List.mem_of_getElem? hr
  have hz : ∀ i < s'.size, 0 < (o i).normal.z := by
    intro i hi
    obtain ⟨r, h1, h2, h3⟩ := hev i hi
    rcases hm with rfl | ⟨f, og, n, g, hg, hfl⟩
    · exact (C146_sampling_partial h2 (hw r (hmem i r h1)) hp h3).1 hup
    · have hrel : Shell.SetupRel s s' pose := Shell.setupFlat_rel (.inl ⟨_, hfl⟩)
      obtain ⟨flags, recs, k1, -⟩ := C38_flat_flag_partial pol s s' g pose method b hfl
      have hsize : s'.size = s.size := by rw [Shell.size, hrel.ribs]; rfl
      obtain ⟨r', a, c, e⟩ := k1 i (by omega)
      have := (Shell.reports_iff.1 ho i hi).symm.trans e
      rw [Res.ok.inj this]
      have hr' : IsRib r' := by
        rw [hrel.ribs] at a
        exact hs.isRib r' (List.mem_of_getElem? a)
      have hw' : 0 < r'.width := by
        rw [hrel.ribs] at a
        exact hw r' (List.mem_of_getElem? a)
      have hno : (r'.noContact pose).normal = pose.linear.c2 := by
        simp only [Rib.noContact]; ext <;> v3 <;> ring
      generalize flags i = fl at c
      cases fl with
      | false => rw [Rib.envelopFlat_false c, hno]; exact hup
      | true =>
        by_cases hme : method = "geometric"
        · subst hme; exact C146_geometric_flat hr' hp hg c
        · have hms : method = "sampling" := by
            by_contra hms
            simp [Rib.envelopFlat, hme, hms] at c
          subst hms
          exact (C146_sampling_partial hr' hw' hp (.flat f og n g true hg c)).1 hup
  refine ⟨fun o' ho' i hi => ?_, ?_⟩
  · have := (Shell.reports_iff.1 ho' i hi).symm.trans (Shell.reports_iff.1 ho i hi)
    rw [Res.ok.inj this]; exact hz i hi
  · have hvol : ∀ i < s'.size, 0 ≤ (o i).volume := fun i hi => by
      obtain ⟨r, h1, h2, h3⟩ := hev i hi
      exact (h3.weights h2 hp).1
    obtain ⟨n, h1, h2, h3⟩ := Up.average ho hn hvol (u := ⟨0, 0, 1⟩) fun i hi => by simpa [dot3] using hz i hi
    exact ⟨n, h1, h2, by simpa [dot3] using h3⟩

/-- **C146, the tyre on a mesh with the geometric method (partial).**  If the mesh is lower than the axis of the wheel and no triangle is in
line with the centre of a rib, the normal of every rib and the contact normal of the tyre point to the side of the wheel. -/
theorem C146_mesh_tyre_partial {pol : Policy} {s s' : Shell ℝ} (hs : s.Reachable pol) {m : Mesh ℝ} (hm : BuiltMesh m) {pose : Affine ℝ}
    (hp : IsRigid pose)
    (hlow : ∀ t ∈ m.triangles, ∀ p, NearTriangle Scalar.eps t.tri p → dot3 (minus p pose.trans) pose.linear.c2 < 0)
    (hoff : ∀ t ∈ m.triangles, ∀ r ∈ s.ribs, ¬ OnPlane t.tri.layingPlane (pose.apply ⟨0, r.y, 0⟩)) {b : Bool}
    (h : s.setupMesh pol m pose "geometric" = .ok s' b) (hn : 1 ≤ s'.size) :
    (∀ o, Reports pol s' o → ∀ i < s'.size, 0 < dot3 (o i).normal pose.linear.c2) ∧
    ∃ n, s'.contactNormal pol = .ok n ∧ length3 n = 1 ∧ 0 < dot3 n pose.linear.c2 := by
  have hsu : SetUp pol s pose "geometric" s' b := .inl ⟨m, h⟩
  obtain ⟨o, ho, hev⟩ := hsu.evaluated hs
  obtain ⟨loc, hloc, hperm⟩ := hm.query _ (Shell.updateBBox_WF (s.transform pose))
  obtain ⟨flags, recs, k1, -⟩ := C38_mesh_flag pol s s' hs m pose "geometric" loc b hloc h
  have hsize : s'.size = s.size := by rw [Shell.size, hsu.rel.ribs]; rfl
  have hz : ∀ i < s'.size, 0 < dot3 (o i).normal pose.linear.c2 := by
    intro i hi
    obtain ⟨r, a, c, e⟩ := k1 i (by omega)
    rw [Res.ok.inj ((Shell.reports_iff.1 ho i hi).symm.trans e)]
    have hmem : r ∈ s.ribs := by rw [hsu.rel.ribs] at a; exact List.mem_of_getElem? a
    have hr : IsRib r := hs.isRib r hmem
    have hup : 0 < dot3 (r.noContact pose).normal pose.linear.c2 := by
      have : (r.noContact pose).normal = pose.linear.c2 := by simp only [Rib.noContact]; ext <;> v3 <;> ring
      rw [this]
      have := hp.unit2
      simp only [dot3]; nlinarith
    split at c
    · rw [← (Prod.mk.inj (Res.ok.inj c)).2]; exact hup
    · generalize flags i = fl at c
      cases fl with
      | false => rw [Rib.envelopMesh_false c]; exact hup
      | true =>
        have hsub : ∀ t ∈ Shell.ribCandidates pose "geometric" loc r, t ∈ m.triangles := fun t ht =>
          (List.mem_filter.1 (hperm.mem_iff.1 (List.mem_filter.1 ht).1)).1
        refine C146_geometric_mesh_partial hr hp (fun t ht p hpt => ?_) c ?_
        · have h1 := hlow t (hsub t ht) p hpt
          have h2 := hp.orth12
          have e : dot3 (minus p (pose.apply ⟨0, r.y, 0⟩)) pose.linear.c2 = dot3 (minus p pose.trans) pose.linear.c2 := by
            simp only [dot3, minus, Affine.apply]
            v3
            linear_combination -r.y * h2
          rw [BelowAxis, e]; exact h1
        · have c' : r.envelopGeometricMesh (Shell.ribCandidates pose "geometric" loc r) pose = .ok (true, recs i) := by
            simpa [Rib.envelopMesh] using c
          exact (C36_volume_pos_partial hr hp (fun t ht => hoff t (hsub t ht) r hmem) c').1.ne'
  refine ⟨fun o' ho' i hi => ?_, ?_⟩
  · have := (Shell.reports_iff.1 ho' i hi).symm.trans (Shell.reports_iff.1 ho i hi)
    rw [Res.ok.inj this]; exact hz i hi
  · refine Up.average ho hn (fun i hi => ?_) hz
    obtain ⟨r, h1, h2, h3⟩ := hev i hi
    exact (h3.weights h2 hp).1

/-- A wheel turned half round its axis, at height `1/2`. -/
noncomputable def Demo.halfTurn : Affine ℝ := ⟨⟨⟨-1, 0, 0⟩, ⟨0, 1, 0⟩, ⟨0, 0, -1⟩⟩, ⟨0, 0, 1 / 2⟩⟩

theorem Demo.halfTurn_rigid : IsRigid Demo.halfTurn := by
  constructor <;> simp [Demo.halfTurn]

/-- **C146 is false** for the sampling method and poses that contain the rotation of the wheel: a wheel on a flat road, turned half round its
axis, reports a normal that points straight down into the road. -/
theorem C146_sampling_refuted : ∃ (r : Rib ℝ) (g : Flat ℝ) (pose : Affine ℝ) (o : Output ℝ), IsRib r ∧ IsRigid pose ∧
    pose = spun (Demo.upright (1 / 2)) Real.pi ∧ Flat.make 1 ⟨0, 0, 0⟩ ⟨0, 0, 1⟩ = .ok g ∧
    r.envelopSamplingFlat g (Demo.upright (1 / 2)) = (true, { o with normal := ⟨0, 0, 1⟩ }) ∧
    r.envelopSamplingFlat g pose = (true, o) ∧ o.normal = ⟨0, 0, -1⟩ := by
  have hs : Demo.halfTurn = spun (Demo.upright (1 / 2)) Real.pi := by
    simp [spun, Affine.rotate, M3.ofAngleAxis, M3.mul, M3.mulVec, Demo.upright, Demo.halfTurn]
  have hn : Demo.road.plane.normal = ⟨0, 0, 1⟩ := rfl
  have hc : Demo.rib.center = ⟨0, 0, 0⟩ := by simp [Demo.rib, Rib.center, Rib.make, Disk.center]
  have hrad : Demo.rib.radius = 1 := rfl
  have hwid : Demo.rib.width = 1 := rfl
  have hup := Rib.samplingFlat_upright Demo.rib_isRib one_pos (Demo.upright_rigid (1 / 2)) rfl hn
  have hcen : (Demo.upright (1 / 2)).apply ⟨0, Demo.rib.y, 0⟩ = ⟨0, 0, 1 / 2⟩ := by
    simp [Demo.upright, Affine.apply, M3.mulVec, V3.add, Demo.rib, Rib.make]
  dsimp only at hup
  have hzero : Demo.road.plane.origin.z = 0 := rfl
  have hfr : Demo.road.friction = 1 := rfl
  rw [hcen, hrad, hwid, hzero, hfr] at hup
  have hd : (1 : ℝ) - |1 / 2 - 0| = 1 / 2 := by rw [sub_zero, abs_of_pos (by norm_num)]; norm_num
  dsimp only at hup
  rw [hd, if_pos (by norm_num)] at hup
  have e0 : Rib.samplingLineFlat Demo.road (Demo.rib.lineXp Demo.halfTurn) = some (⟨-(1 / 10), 0, 0⟩, 1) := by
    rw [Rib.lineXp, Rib.samplingLineFlat_horizontal hn, hc, hrad, hfr, hzero, Demo.halfTurn]
    v3; simp
  have e1 : Rib.samplingLineFlat Demo.road (Demo.rib.lineXm Demo.halfTurn) = some (⟨1 / 10, 0, 0⟩, 1) := by
    rw [Rib.lineXm, Rib.samplingLineFlat_horizontal hn, hc, hrad, hfr, hzero, Demo.halfTurn]
    v3; simp
  have e2 : Rib.samplingLineFlat Demo.road (Demo.rib.lineYp Demo.halfTurn) = some (⟨0, 3 / 10, 0⟩, 1) := by
    rw [Rib.lineYp, Rib.samplingLineFlat_horizontal hn, hc, hwid, hfr, hzero, Demo.halfTurn]
    v3; simp
  have e3 : Rib.samplingLineFlat Demo.road (Demo.rib.lineYm Demo.halfTurn) = some (⟨0, -(3 / 10), 0⟩, 1) := by
    rw [Rib.lineYm, Rib.samplingLineFlat_horizontal hn, hc, hwid, hfr, hzero, Demo.halfTurn]
    v3; simp
  have hcr : V3.normalized (V3.cross (V3.sub (⟨-(1 / 10), 0, 0⟩ : V3 ℝ) ⟨1 / 10, 0, 0⟩) (V3.sub ⟨0, 3 / 10, 0⟩ ⟨0, -(3 / 10), 0⟩)) = ⟨0, 0, -1⟩ := by
    have : V3.cross (V3.sub (⟨-(1 / 10), 0, 0⟩ : V3 ℝ) ⟨1 / 10, 0, 0⟩) (V3.sub ⟨0, 3 / 10, 0⟩ ⟨0, -(3 / 10), 0⟩) =
        ⟨3 / 25 * 0, 3 / 25 * 0, 3 / 25 * -1⟩ := by v3; norm_num
    rw [this]
    exact (V3.normalized_smul (a := ⟨0, 0, -1⟩) (by norm_num)).trans (V3.normalized_unit (by norm_num))
  have hpt : V3.sdiv (V3.add (V3.add (V3.add (⟨-(1 / 10), 0, 0⟩ : V3 ℝ) ⟨1 / 10, 0, 0⟩) ⟨0, 3 / 10, 0⟩) ⟨0, -(3 / 10), 0⟩) (lit 4 1) = ⟨0, 0, 0⟩ := by
    v3; norm_num
  have hdown : Demo.rib.envelopSamplingFlat Demo.road Demo.halfTurn = (true, ⟨⟨0, 0, 0⟩, ⟨0, 0, -1⟩, 1, 1 / 2,
      Rib.depthArea 1 1 (1 / 2), Rib.depthVolume 1 1 (1 / 2)⟩) := by
    unfold Rib.envelopSamplingFlat Rib.envelopSampling
    rw [e0, e1, e2, e3]
    dsimp only
    rw [hcr, hpt, hrad, hwid]
    have hey : V3.normalized Demo.halfTurn.linear.c1 = ⟨0, 1, 0⟩ := V3.normalized_unit (by simp [Demo.halfTurn])
    have hex : V3.normalized (V3.cross (⟨0, 0, -1⟩ : V3 ℝ) ⟨0, 1, 0⟩) = ⟨1, 0, 0⟩ := by
      rw [show V3.cross (⟨0, 0, -1⟩ : V3 ℝ) ⟨0, 1, 0⟩ = ⟨1, 0, 0⟩ by v3; norm_num]
      exact V3.normalized_unit (by norm_num)
    have hez : V3.normalized (V3.cross (⟨0, 1, 0⟩ : V3 ℝ) ⟨1, 0, 0⟩) = ⟨0, 0, -1⟩ := by
      rw [show V3.cross (⟨0, 1, 0⟩ : V3 ℝ) ⟨1, 0, 0⟩ = ⟨0, 0, -1⟩ by v3; norm_num]
      exact V3.normalized_unit (by norm_num)
    rw [hey, hex, hez]
    have hcg : Demo.rib.centerGrd Demo.halfTurn = ⟨0, 0, 1 / 2⟩ := by rw [Rib.centerGrd, hc, Demo.halfTurn]; v3; simp
    have hno : V3.norm (V3.sub (⟨0, 0, 0⟩ : V3 ℝ) ⟨0, 0, 1 / 2⟩) = 1 / 2 := by
      rw [V3.norm_eq, length3]; v3
      rw [show ((0 : ℝ) - 0) ^ 2 + (0 - 0) ^ 2 + (0 - 1 / 2) ^ 2 = (1 / 2) ^ 2 by norm_num, Real.sqrt_sq (by norm_num)]
    have hdep : (1 : ℝ) *. Scalar.abs (V3.dot (⟨0, 0, -1⟩ : V3 ℝ) ⟨0, 0, -1⟩) -. V3.norm (V3.sub (⟨0, 0, 0⟩ : V3 ℝ) ⟨0, 0, 1 / 2⟩) = 1 / 2 := by
      rw [hno]; v3; norm_num
    rw [hcg, hdep, if_pos (by simp)]
    simp
    norm_num
  refine ⟨Demo.rib, Demo.road, Demo.halfTurn, _, Demo.rib_isRib, Demo.halfTurn_rigid, hs, Demo.road_make, hup.trans ?_, hdown, rfl⟩
  simp

/-! ### Examples -/

/-- A tyre on a road meets the hypotheses of `C146_tyre_partial`. -/
example (fresh : Nat → Output ℝ) : ∃ (s s' : Shell ℝ) (n : V3 ℝ), Shell.make fresh 1 1 2 2 2 1 = .ok s ∧
    SetUp .raw s (Demo.upright (1 / 2)) "geometric" s' true ∧ s'.contactNormal .raw = .ok n ∧ 0 < n.z := by
  have heps := real_eps_le_half
  obtain ⟨s, a, h1, -, hab, ha, hac, haR, haw⟩ := Demo.oneRib fresh
  obtain ⟨s₁, s', h1', h2, -, h3, h4⟩ := Demo.oneRib_road fresh (h := 1 / 2) (by norm_num) (by norm_num; linarith)
  have : s₁ = s := Res.ok.inj (h1'.symm.trans h1)
  subst this
  rcases h3 with ⟨m, hm⟩ | hfl
  · obtain ⟨n, e1, e2, e3⟩ := Up.average (u := ⟨0, 0, 1⟩) h4 (by omega) (fun i hi => by
      obtain ⟨o, ho, hev⟩ := Spec.SetUp.evaluated (.make h1) (.inl ⟨m, hm⟩)
      obtain ⟨r, k1, k2, k3⟩ := hev i hi
      have := (k3.weights k2 (Demo.upright_rigid _)).1
      rwa [Res.ok.inj ((Shell.reports_iff.1 ho i hi).symm.trans (Shell.reports_iff.1 h4 i hi))] at this) (fun i _ => by simp [dot3])
    exact ⟨_, s', n, h1, .inl ⟨m, hm⟩, e1, by simpa [dot3] using e3⟩
  · obtain ⟨-, n, e1, -, e3⟩ := C146_tyre_partial (.make h1) (fun r hr => by
      rw [hab, List.mem_singleton] at hr; rw [hr, haw]; norm_num) (Demo.upright_rigid _) (by simp [Demo.upright]) (.inr hfl) (by omega) (.inr hfl)
    exact ⟨_, s', n, h1, .inr hfl, e1, e3⟩

/-- The hypotheses of `C146_geometric_mesh_partial` are met by a rib on a road of two triangles. -/
example : ∃ o, (Demo.ribOf 1).envelopMesh [Demo.tiles Demo.half Demo.twoEnds 0, Demo.tiles Demo.half Demo.twoEnds 1] (Demo.upright 0) "geometric" =
    .ok (true, o) ∧ o.volume ≠ 0 ∧ 0 < o.normal.z := by
  obtain ⟨o, x, e, v, -, -⟩ := Demo.half_out Demo.two_road
  have he : (Demo.ribOf 1).envelopMesh [Demo.tiles Demo.half Demo.twoEnds 0, Demo.tiles Demo.half Demo.twoEnds 1] (Demo.upright 0) "geometric" =
      .ok (true, o) := by simpa [Rib.envelopMesh] using e
  refine ⟨o, he, by linarith, ?_⟩
  have hflat : ∀ l u p, NearTriangle Scalar.eps (Demo.tile l u (Demo.half l) (Demo.half u)).tri p → p.z = -(1 / 2) := by
    rintro l u p ⟨x, y, z, -, -, -, hs, rfl⟩
    rw [Demo.tile_tri]
    simp only [Demo.half]
    linear_combination -(1 / 2) * hs
  have := C146_geometric_mesh_partial (Demo.ribOf_isRib zero_le_one) (Demo.upright_rigid 0) (fun t ht p hpt => ?_) he (by linarith)
  · simpa [dot3, Demo.upright] using this
  · have hz : p.z = -(1 / 2) := by
      simp only [List.mem_cons, List.not_mem_nil, or_false] at ht
      rcases ht with rfl | rfl <;> exact hflat _ _ p hpt
    simp only [BelowAxis, dot3, minus, Affine.apply, Demo.upright]
    v3
    rw [hz]; norm_num

end Enve
