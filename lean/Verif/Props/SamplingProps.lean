import Verif.Props.FlatProps

/-! # The sampling method: C28, C29, C35, C60 -/

namespace Enve
open Scalar Spec

/-- A vertical line meets a horizontal plane below (or above) its origin. -/
theorem Rib.samplingLineFlat_horizontal {g : Flat ℝ} (hn : g.plane.normal = ⟨0, 0, 1⟩) (o : V3 ℝ) :
    Rib.samplingLineFlat g ⟨o, V3.neg V3.ez⟩ = some (⟨o.x, o.y, g.plane.origin.z⟩, g.friction) := by
  have := real_eps_lt_one
  simp [Rib.samplingLineFlat, Inter.linePlane, hn, V3.dot, V3.sub, V3.add, V3.smul, V3.neg, V3.ez, this]
  ring

theorem Flat.make_horizontal {f : ℝ} {o n : V3 ℝ} {g : Flat ℝ} (hg : Flat.make f o n = .ok g)
    (hx : n.x = 0) (hy : n.y = 0) :
    g.plane.normal = ⟨0, 0, 1⟩ ∧ g.plane.origin = o ∧ g.friction = f := by
  obtain ⟨h1, h2, ⟨k, hk, h3⟩, h4⟩ := C26_flat_normal f o n g hg
  refine ⟨?_, h4, ?_⟩
  · have hu := Flat.make_unit hg
    unfold Unit3 at hu
    have h3 : g.plane.normal = ⟨k * n.x, k * n.y, k * n.z⟩ := h3
    have h2 : 0 < g.plane.normal.z := h2
    rw [h3, hx, hy] at hu h2 ⊢
    simp only [mul_zero] at hu h2 ⊢
    have : k * n.z = 1 := by nlinarith
    rw [this]
  · unfold Flat.make at hg
    rw [Res.bind_eq_ok] at hg
    obtain ⟨_, -, hg⟩ := hg
    rw [Res.bind_eq_ok] at hg
    obtain ⟨_, -, hg⟩ := hg
    rw [← Res.ok.inj hg]

/-- The sampling method on a horizontal ground with the wheel upright, in closed form. -/
theorem Rib.samplingFlat_upright {r : Rib ℝ} (hr : IsRib r) (hw : 0 < r.width) {pose : Affine ℝ}
    (hp : IsRigid pose) (hup : pose.linear.c2 = ⟨0, 0, 1⟩) {g : Flat ℝ}
    (hn : g.plane.normal = ⟨0, 0, 1⟩) :
    let c := pose.apply ⟨0, r.y, 0⟩
    let d := r.radius - |c.z - g.plane.origin.z|
    r.envelopSamplingFlat g pose =
      if 0 < d then (true,
        { point := ⟨c.x, c.y, g.plane.origin.z⟩
          normal := ⟨0, 0, 1⟩
          friction := g.friction
          depth := d
          area := Rib.depthArea r.radius r.width d
          volume := Rib.depthVolume r.radius r.width d })
      else (false, r.noContact pose) := by
  intro c d
  have hR : 0 < r.radius := hr.radius_pos
  have hc : r.center = ⟨0, r.y, 0⟩ := hr.center
  have z0 : pose.linear.c0.z = 0 := by
    have := hp.orth02; rw [hup] at this; simpa using this
  have z1 : pose.linear.c1.z = 0 := by
    have := hp.orth12; rw [hup] at this; simpa using this
  have hcr := hp.cross01
  have hcr2 := hp.cross12
  rw [hup] at hcr hcr2
  unfold Rib.envelopSamplingFlat Rib.envelopSampling
  simp only [Rib.lineXp, Rib.lineXm, Rib.lineYp, Rib.lineYm, Rib.samplingLineFlat_horizontal hn]
  have hcen : r.centerGrd pose = c := by
    rw [r.centerGrd_eq, ribCentre, hc]
  rw [hcen]
  have hpt : ∀ a b : V3 ℝ, V3.sdiv (V3.add (V3.add (V3.add
      (⟨(V3.add pose.trans (M3.mulVec pose.linear (V3.add r.center a))).x,
        (V3.add pose.trans (M3.mulVec pose.linear (V3.add r.center a))).y, g.plane.origin.z⟩ : V3 ℝ)
      ⟨(V3.add pose.trans (M3.mulVec pose.linear (V3.sub r.center a))).x,
        (V3.add pose.trans (M3.mulVec pose.linear (V3.sub r.center a))).y, g.plane.origin.z⟩)
      ⟨(V3.add pose.trans (M3.mulVec pose.linear (V3.add r.center b))).x,
        (V3.add pose.trans (M3.mulVec pose.linear (V3.add r.center b))).y, g.plane.origin.z⟩)
      ⟨(V3.add pose.trans (M3.mulVec pose.linear (V3.sub r.center b))).x,
        (V3.add pose.trans (M3.mulVec pose.linear (V3.sub r.center b))).y, g.plane.origin.z⟩) (lit 4 1) =
      ⟨c.x, c.y, g.plane.origin.z⟩ := by
    intro a b
    simp only [c, hc]
    v3
    simp only [real_lit]
    ext <;> dsimp only <;> push_cast <;> ring
  rw [hpt]
  have hdx : ∀ s : ℝ, V3.sub
      (⟨(V3.add pose.trans (M3.mulVec pose.linear (V3.add r.center (V3.smul s V3.ex)))).x,
        (V3.add pose.trans (M3.mulVec pose.linear (V3.add r.center (V3.smul s V3.ex)))).y,
        g.plane.origin.z⟩ : V3 ℝ)
      ⟨(V3.add pose.trans (M3.mulVec pose.linear (V3.sub r.center (V3.smul s V3.ex)))).x,
        (V3.add pose.trans (M3.mulVec pose.linear (V3.sub r.center (V3.smul s V3.ex)))).y,
        g.plane.origin.z⟩ = ⟨2 * s * pose.linear.c0.x, 2 * s * pose.linear.c0.y, 0⟩ := by
    intro s
    v3
    ext <;> dsimp only <;> ring
  have hdy : ∀ s : ℝ, V3.sub
      (⟨(V3.add pose.trans (M3.mulVec pose.linear (V3.add r.center (V3.smul s V3.ey)))).x,
        (V3.add pose.trans (M3.mulVec pose.linear (V3.add r.center (V3.smul s V3.ey)))).y,
        g.plane.origin.z⟩ : V3 ℝ)
      ⟨(V3.add pose.trans (M3.mulVec pose.linear (V3.sub r.center (V3.smul s V3.ey)))).x,
        (V3.add pose.trans (M3.mulVec pose.linear (V3.sub r.center (V3.smul s V3.ey)))).y,
        g.plane.origin.z⟩ = ⟨2 * s * pose.linear.c1.x, 2 * s * pose.linear.c1.y, 0⟩ := by
    intro s
    v3
    ext <;> dsimp only <;> ring
  rw [hdx, hdy]
  have hnorm : V3.normalized (V3.cross
      (⟨2 * (lit 1 10 *. r.radius) * pose.linear.c0.x, 2 * (lit 1 10 *. r.radius) * pose.linear.c0.y, 0⟩ : V3 ℝ)
      ⟨2 * (lit 3 10 *. r.width) * pose.linear.c1.x, 2 * (lit 3 10 *. r.width) * pose.linear.c1.y, 0⟩) =
      ⟨0, 0, 1⟩ := by
    have hk : V3.cross
      (⟨2 * (lit 1 10 *. r.radius) * pose.linear.c0.x, 2 * (lit 1 10 *. r.radius) * pose.linear.c0.y, 0⟩ : V3 ℝ)
      ⟨2 * (lit 3 10 *. r.width) * pose.linear.c1.x, 2 * (lit 3 10 *. r.width) * pose.linear.c1.y, 0⟩ =
      ⟨(3 / 25 * r.radius * r.width) * (⟨0, 0, 1⟩ : V3 ℝ).x, (3 / 25 * r.radius * r.width) * (⟨0, 0, 1⟩ : V3 ℝ).y,
        (3 / 25 * r.radius * r.width) * (⟨0, 0, 1⟩ : V3 ℝ).z⟩ := by
      rw [V3.real_cross, V3.ext_iff] at hcr
      have h3 := hcr.2.2
      dsimp only at h3
      rw [V3.real_cross]
      simp only [real_lit, real_mul]
      ext
      · dsimp only; ring
      · dsimp only; ring
      · dsimp only; push_cast; linear_combination (3 / 25 * r.radius * r.width) * h3
    rw [hk, V3.normalized_smul (by positivity), V3.normalized_unit (by norm_num)]
  rw [hnorm, V3.normalized_unit (hp.unit1)]
  have hex : V3.cross (⟨0, 0, 1⟩ : V3 ℝ) pose.linear.c1 =
      ⟨-pose.linear.c0.x, -pose.linear.c0.y, -pose.linear.c0.z⟩ := by
    rw [← hcr2, V3.real_cross, V3.real_cross]; ext <;> dsimp only <;> ring
  rw [hex, V3.normalized_unit
    (a := ⟨-pose.linear.c0.x, -pose.linear.c0.y, -pose.linear.c0.z⟩)
    (by have := hp.unit0; dsimp only; linear_combination this)]
  have hez : V3.cross pose.linear.c1 (⟨-pose.linear.c0.x, -pose.linear.c0.y, -pose.linear.c0.z⟩ : V3 ℝ) =
      ⟨0, 0, 1⟩ := by
    rw [← hcr, V3.real_cross, V3.real_cross]; ext <;> dsimp only <;> ring
  rw [hez, V3.normalized_unit (by norm_num)]
  have hd : r.radius *. Scalar.abs (V3.dot (⟨0, 0, 1⟩ : V3 ℝ) ⟨0, 0, 1⟩) -.
      V3.norm (V3.sub (⟨c.x, c.y, g.plane.origin.z⟩ : V3 ℝ) c) = d := by
    simp only [d]
    rw [V3.norm_sub, dist3]
    simp only [V3.real_dot, real_abs, real_mul, real_sub]
    rw [show (c.x - c.x) ^ 2 + (c.y - c.y) ^ 2 + (g.plane.origin.z - c.z) ^ 2 = (c.z - g.plane.origin.z) ^ 2 by
      ring, Real.sqrt_sq_eq_abs]
    norm_num
  rw [hd]
  have hfr : (g.friction +. g.friction +. g.friction +. g.friction) /. lit 4 1 = g.friction := by
    simp only [real_add, real_div, real_lit]; push_cast; ring
  rw [hfr]
  simp only [real_lt, real_zero, decide_eq_true_eq]

/-- **C60.**  On a horizontal flat ground at height `o.z`, with the wheel upright (its z axis vertical,
any heading and position) and the rib centre not below the ground, the sampling method reports contact
exactly when the lowest point of the rib, `centre.z - radius`, is below the ground; the depth is then the
height of the ground above that lowest point, the contact point is on the ground straight below the centre,
and the normal is vertical. -/
theorem C60_sampling_flat {r : Rib ℝ} (hr : IsRib r) (hw : 0 < r.width) {pose : Affine ℝ}
    (hp : IsRigid pose) (hup : pose.linear.c2 = ⟨0, 0, 1⟩) {f : ℝ} {o n : V3 ℝ} {g : Flat ℝ}
    (hg : Flat.make f o n = .ok g) (hx : n.x = 0) (hy : n.y = 0)
    (habove : o.z ≤ (pose.apply ⟨0, r.y, 0⟩).z) :
    let c := pose.apply ⟨0, r.y, 0⟩
    let res := r.envelopSamplingFlat g pose
    -- the lowest point of the rib
    (∀ p, OnRibDisk pose r p → c.z - r.radius ≤ p.z) ∧ OnRibDisk pose r ⟨c.x, c.y, c.z - r.radius⟩ ∧
    (res.1 = true ↔ c.z - r.radius < o.z) ∧
    (res.1 = true → res.2.depth = o.z - (c.z - r.radius) ∧ res.2.point = ⟨c.x, c.y, o.z⟩ ∧
      res.2.normal = ⟨0, 0, 1⟩ ∧ res.2.friction = f) := by
  intro c res
  obtain ⟨h1, h2, h3⟩ := Flat.make_horizontal hg hx hy
  have hres : res = _ := Rib.samplingFlat_upright hr hw hp hup h1
  have hab : |c.z - g.plane.origin.z| = c.z - o.z := by
    rw [h2]; exact abs_of_nonneg (sub_nonneg.2 habove)
  have hcc : r.center = ⟨0, r.y, 0⟩ := hr.center
  have z0 : pose.linear.c0.z = 0 := by
    have := hp.orth02; rw [hup] at this; simpa using this
  have z1 : pose.linear.c1.z = 0 := by
    have := hp.orth12; rw [hup] at this; simpa using this
  refine ⟨?_, ?_, ?_, ?_⟩
  · rintro p ⟨x, z, hxz, rfl⟩
    simp only [c, hcc]
    v3
    rw [hup, z0, z1]
    have : |z| ≤ r.radius := abs_le_of_sq_le_sq (by nlinarith [sq_nonneg x]) hr.radius_pos.le
    have := (abs_le.1 this).1
    simp only [zero_mul, zero_add, one_mul, mul_zero]
    linarith
  · refine ⟨0, -r.radius, by nlinarith, ?_⟩
    simp only [c, hcc]
    v3
    rw [hup, z0, z1]
    ext <;> dsimp only <;> ring
  · rw [hres, hab]
    split
    · rename_i h; simp only [true_iff]; linarith
    · rename_i h; simp only [Bool.false_eq_true, false_iff]; intro h'; apply h; linarith
  · rw [hres, hab]
    split
    · intro _
      exact ⟨by dsimp only; ring, by rw [h2], rfl, h3⟩
    · intro h; cases h

/-- The hypotheses of C60 are met, with contact. -/
example : (Demo.rib.envelopSamplingFlat Demo.road (Demo.upright (1 / 2))).1 = true := by
  refine ((C60_sampling_flat Demo.rib_isRib one_pos (Demo.upright_rigid _) rfl Demo.road_make rfl rfl ?_).2.2.1).2 ?_
  · simp [Demo.upright, Affine.apply, M3.mulVec, V3.add, Demo.rib, Rib.make]
  · simp [Demo.upright, Affine.apply, M3.mulVec, V3.add, Demo.rib, Rib.make, Rib.radius]
    norm_num

/-- **C35 is false for the sampling method**: a rib half sunk into the road is in contact, but after a
quarter turn of the wheel it is not (the two sampling lines that were side by side now coincide). -/
theorem C35_sampling_refuted :
    ∃ (r : Rib ℝ) (pose : Affine ℝ) (g : Flat ℝ) (angle : ℝ), IsRib r ∧ IsRigid pose ∧
      Flat.make 1 ⟨0, 0, 0⟩ ⟨0, 0, 1⟩ = .ok g ∧
      (r.envelopSamplingFlat g pose).1 = true ∧
      (r.envelopSamplingFlat g (spun pose angle)).1 = false := by
  refine ⟨Demo.rib, Demo.upright (1 / 2), Demo.road, Real.pi / 2, Demo.rib_isRib, Demo.upright_rigid _,
    Demo.road_make, ?_, ?_⟩
  · refine ((C60_sampling_flat Demo.rib_isRib one_pos (Demo.upright_rigid _) rfl Demo.road_make rfl rfl ?_).2.2.1).2 ?_
    · simp [Demo.upright, Affine.apply, M3.mulVec, V3.add, Demo.rib, Rib.make]
    · simp [Demo.upright, Affine.apply, M3.mulVec, V3.add, Demo.rib, Rib.make, Rib.radius]
      norm_num
  · have hs : spun (Demo.upright (1 / 2)) (Real.pi / 2) =
        ⟨⟨⟨0, 0, -1⟩, ⟨0, 1, 0⟩, ⟨1, 0, 0⟩⟩, ⟨0, 0, 1 / 2⟩⟩ := by
      simp [spun, Affine.rotate, M3.ofAngleAxis, M3.mul, M3.mulVec, Demo.upright]
    rw [hs]
    have hn : Demo.road.plane.normal = ⟨0, 0, 1⟩ := rfl
    unfold Rib.envelopSamplingFlat Rib.envelopSampling
    simp only [Rib.lineXp, Rib.lineXm, Rib.lineYp, Rib.lineYm, Rib.samplingLineFlat_horizontal hn]
    have hz : ∀ v : V3 ℝ, V3.cross (V3.sub
        (⟨(V3.add ⟨0, 0, 1 / 2⟩ (M3.mulVec ⟨⟨0, 0, -1⟩, ⟨0, 1, 0⟩, ⟨1, 0, 0⟩⟩
            (V3.add Demo.rib.center (V3.smul (lit 1 10 *. Demo.rib.radius) V3.ex)))).x,
          (V3.add ⟨0, 0, 1 / 2⟩ (M3.mulVec ⟨⟨0, 0, -1⟩, ⟨0, 1, 0⟩, ⟨1, 0, 0⟩⟩
            (V3.add Demo.rib.center (V3.smul (lit 1 10 *. Demo.rib.radius) V3.ex)))).y,
          Demo.road.plane.origin.z⟩ : V3 ℝ)
        ⟨(V3.add ⟨0, 0, 1 / 2⟩ (M3.mulVec ⟨⟨0, 0, -1⟩, ⟨0, 1, 0⟩, ⟨1, 0, 0⟩⟩
            (V3.sub Demo.rib.center (V3.smul (lit 1 10 *. Demo.rib.radius) V3.ex)))).x,
          (V3.add ⟨0, 0, 1 / 2⟩ (M3.mulVec ⟨⟨0, 0, -1⟩, ⟨0, 1, 0⟩, ⟨1, 0, 0⟩⟩
            (V3.sub Demo.rib.center (V3.smul (lit 1 10 *. Demo.rib.radius) V3.ex)))).y,
          Demo.road.plane.origin.z⟩) v = ⟨0, 0, 0⟩ := by
      intro v
      v3
      ext <;> dsimp only <;> ring
    rw [hz, V3.normalized_zero rfl]
    have h0 : ∀ v : V3 ℝ, V3.dot (⟨0, 0, 0⟩ : V3 ℝ) v = 0 := fun v => by rw [V3.real_dot]; simp
    rw [h0]
    have hneg : ∀ v : V3 ℝ, ¬ ((zero : ℝ) <. (Demo.rib.radius *. Scalar.abs (0 : ℝ) -. V3.norm v)) = true := by
      intro v
      have := V3.norm_nonneg v
      simpa using this
    rw [if_neg (hneg _)]

/-! ## C28: the highest ground under the line -/

section
variable {α : Type} [Scalar α]

theorem Rib.highest_mem (h : V3 α × α) (hs : List (V3 α × α)) : Rib.highest h hs ∈ h :: hs := by
  induction hs generalizing h with
  | nil => simp [Rib.highest]
  | cons a as ih =>
    have : Rib.highest h (a :: as) = Rib.highest (if h.1.z <. a.1.z then a else h) as := rfl
    rw [this]
    have := ih (if h.1.z <. a.1.z then a else h)
    split at this <;> rename_i hc <;> simp only [hc, if_true] <;> simp at this ⊢ <;> tauto

theorem Rib.highest_ge {P : α → Prop} (ho : OrderOn P) (h : V3 α × α) (hs : List (V3 α × α))
    (hP : ∀ x ∈ h :: hs, P x.1.z) : ∀ x ∈ h :: hs, (x.1.z <=. (Rib.highest h hs).1.z) = true := by
  induction hs generalizing h with
  | nil =>
    intro x hx
    rw [List.mem_singleton] at hx
    subst hx
    exact ho.refl (hP x (List.mem_singleton.2 rfl))
  | cons a as ih =>
    have e : Rib.highest h (a :: as) = Rib.highest (if h.1.z <. a.1.z then a else h) as := rfl
    have hh : P h.1.z := hP h (by simp)
    have ha : P a.1.z := hP a (by simp)
    have hbest : P (if h.1.z <. a.1.z then a else h).1.z := by split <;> assumption
    have key := ih (if h.1.z <. a.1.z then a else h) (by
      intro x hx
      rw [List.mem_cons] at hx
      rcases hx with rfl | hx
      · exact hbest
      · exact hP x (by simp [hx]))
    rw [e]
    have htop := key _ List.mem_cons_self
    have hres : P (Rib.highest (if h.1.z <. a.1.z then a else h) as).1.z := by
      have := Rib.highest_mem (if h.1.z <. a.1.z then a else h) as
      rw [List.mem_cons] at this
      rcases this with e | hx
      · rw [e]; exact hbest
      · exact hP _ (by simp [hx])
    intro x hx
    simp only [List.mem_cons] at hx
    have hlt := ho.lt_eq hh ha
    rcases hx with rfl | rfl | hx
    · refine ho.trans hh hbest hres ?_ htop
      split
      · rename_i hc
        rcases ho.total hh ha with h1 | h1
        · exact h1
        · rw [hlt, h1] at hc; cases hc
      · exact ho.refl hh
    · refine ho.trans ha hbest hres ?_ htop
      split
      · exact ho.refl ha
      · rename_i hc
        rw [hlt] at hc
        simpa using hc
    · exact key x (List.mem_cons_of_mem _ hx)

/-- **C28.**  For every scalar type: a sampling line misses the mesh exactly when it misses every
candidate triangle; otherwise the reported point and friction are those of one of the triangles hit and,
as soon as the heights of the hits are ordered (no NaN), that point is the highest of all hits. -/
theorem C28_highest_hit {P : α → Prop} (ho : OrderOn P) (ts : List (TriangleGround α)) (l : Line α) :
    (Rib.samplingLineMesh ts l = none ↔
      ∀ t ∈ ts, Inter.lineTriangle l t.tri Scalar.eps = none) ∧
    ∀ p f, Rib.samplingLineMesh ts l = some (p, f) →
      (∃ t ∈ ts, Inter.lineTriangle l t.tri Scalar.eps = some p ∧ t.friction = f) ∧
      ((∀ t ∈ ts, ∀ q, Inter.lineTriangle l t.tri Scalar.eps = some q → P q.z) →
        ∀ t ∈ ts, ∀ q, Inter.lineTriangle l t.tri Scalar.eps = some q → (q.z <=. p.z) = true) := by
  have hmem : ∀ x : V3 α × α, x ∈ Rib.samplingHits ts l ↔
      ∃ t ∈ ts, Inter.lineTriangle l t.tri Scalar.eps = some x.1 ∧ t.friction = x.2 := by
    intro x
    simp only [Rib.samplingHits, List.mem_filterMap, Option.map_eq_some_iff]
    constructor
    · rintro ⟨t, ht, q, hq, rfl⟩; exact ⟨t, ht, hq, rfl⟩
    · rintro ⟨t, ht, hq, hf⟩; exact ⟨t, ht, x.1, hq, by rw [hf]⟩
  constructor
  · unfold Rib.samplingLineMesh
    constructor
    · intro h t ht
      cases hq : Inter.lineTriangle l t.tri Scalar.eps with
      | none => rfl
      | some q =>
        have := (hmem (q, t.friction)).2 ⟨t, ht, hq, rfl⟩
        split at h
        · rename_i e; rw [e] at this; cases this
        · cases h
    · intro h
      split
      · rfl
      · rename_i x xs e
        obtain ⟨t, ht, hq, -⟩ := (hmem x).1 (by rw [e]; simp)
        rw [h t ht] at hq; cases hq
  · intro p f h
    unfold Rib.samplingLineMesh at h
    split at h
    · cases h
    · rename_i x xs e
      have hh : Rib.highest x xs = (p, f) := Option.some.inj h
      have hm := Rib.highest_mem x xs
      rw [hh, ← e] at hm
      refine ⟨(hmem (p, f)).1 hm, fun hP t ht q hq => ?_⟩
      have := Rib.highest_ge ho x xs (by
        intro y hy
        rw [← e] at hy
        obtain ⟨t, ht, hq, -⟩ := (hmem y).1 hy
        exact hP t ht _ hq) (q, t.friction) (by rw [← e]; exact (hmem _).2 ⟨t, ht, hq, rfl⟩)
      rw [hh] at this
      exact this

end

/-- **C28** on the exact reals, in terms of the mesh: the reported point is on the sampling line and on
one of the candidate triangles (up to the tolerance at its edges), with the friction of that triangle, and
no candidate triangle is met by the line (well inside or within the tolerance) higher up. -/
theorem C28_highest_ground (ts : List (TriangleGround ℝ)) (l : Line ℝ) (p : V3 ℝ) (f : ℝ)
    (h : Rib.samplingLineMesh ts l = some (p, f)) :
    (∃ t ∈ ts, OnLine l p ∧ NearTriangle Scalar.eps t.tri p ∧ t.friction = f) ∧
    ∀ t ∈ ts, ∀ q, Scalar.eps ≤ |box3 l.direction t.tri| → OnLine l q →
      InTriangle t.tri.v0 t.tri.v1 t.tri.v2 q → q.z ≤ p.z := by
  obtain ⟨⟨t, ht, hp, hf⟩, hmax⟩ := (C28_highest_hit OrderOn.real ts l).2 p f h
  refine ⟨⟨t, ht, ?_⟩, fun t' ht' q hb hq hin => ?_⟩
  · have := C50_line_triangle_tolerance l t.tri Scalar.eps real_eps_pos
    rcases lt_or_ge |box3 l.direction t.tri| Scalar.eps with hlt | hge
    · rw [this.1 hlt] at hp; cases hp
    · obtain ⟨a, b⟩ := (this.2 hge).2 p hp
      exact ⟨a, b, hf⟩
  · have := (C50_line_triangle_tolerance l t'.tri Scalar.eps real_eps_pos).2 hb
    simpa using hmax (fun _ _ _ _ => trivial) t' ht' q (this.1 q hq hin)

/-- A triangle below the origin, met by the vertical line through the origin. -/
example : ∃ p f, Rib.samplingLineMesh [(⟨⟨⟨-1, -1, -2⟩, ⟨2, -1, -2⟩, ⟨-1, 2, -2⟩⟩, 0, 1, ⟨0, 0, 1⟩,
    Box.default⟩ : TriangleGround ℝ)] ⟨⟨0, 0, 0⟩, ⟨0, 0, -1⟩⟩ = some (p, f) := by
  have hb : box3 (⟨0, 0, -1⟩ : V3 ℝ) ⟨⟨-1, -1, -2⟩, ⟨2, -1, -2⟩, ⟨-1, 2, -2⟩⟩ = -9 := by
    norm_num [box3, minus]
  have := (C50_line_triangle_tolerance ⟨⟨0, 0, 0⟩, ⟨0, 0, -1⟩⟩
    ⟨⟨-1, -1, -2⟩, ⟨2, -1, -2⟩, ⟨-1, 2, -2⟩⟩ Scalar.eps real_eps_pos).2
    (by rw [hb]; have := real_eps_lt_one; norm_num; linarith)
  have h := this.1 ⟨0, 0, -2⟩ ⟨2, by norm_num [along]⟩
    ⟨1 / 3, 1 / 3, 1 / 3, by norm_num, by norm_num, by norm_num, by norm_num, by norm_num⟩
  simp only [Rib.samplingLineMesh, Rib.samplingHits, List.filterMap_cons, h, Option.map_some,
    List.filterMap_nil]
  exact ⟨_, _, rfl⟩

/-! ## C29: the order of the triangles -/

theorem Rib.samplingLineMesh_onLine {ts : List (TriangleGround ℝ)} {l : Line ℝ} {p : V3 ℝ} {f : ℝ}
    (h : Rib.samplingLineMesh ts l = some (p, f)) : OnLine l p := by
  obtain ⟨⟨t, -, h, -⟩, -⟩ := C28_highest_ground ts l p f h
  exact h

/-- Reordering the candidates does not change the point found on a vertical line; the friction can change
only if two triangles are hit at the same height. -/
theorem Rib.samplingLineMesh_perm {ts ts' : List (TriangleGround ℝ)} (hperm : ts.Perm ts') {l : Line ℝ}
    (hl : l.direction.z ≠ 0) :
    (Rib.samplingLineMesh ts l).map (·.1) = (Rib.samplingLineMesh ts' l).map (·.1) ∧
    ((∀ t ∈ ts, ∀ t' ∈ ts, ∀ q q', Inter.lineTriangle l t.tri Scalar.eps = some q →
      Inter.lineTriangle l t'.tri Scalar.eps = some q' → q.z = q'.z → t.friction = t'.friction) →
      Rib.samplingLineMesh ts l = Rib.samplingLineMesh ts' l) := by
  have h1 := C28_highest_hit OrderOn.real ts l
  have h2 := C28_highest_hit OrderOn.real ts' l
  cases e1 : Rib.samplingLineMesh ts l with
  | none =>
    have : Rib.samplingLineMesh ts' l = none :=
      h2.1.2 fun t ht => h1.1.1 e1 t (hperm.mem_iff.2 ht)
    rw [this]; exact ⟨rfl, fun _ => rfl⟩
  | some x =>
    cases e2 : Rib.samplingLineMesh ts' l with
    | none =>
      have : Rib.samplingLineMesh ts l = none :=
        h1.1.2 fun t ht => h2.1.1 e2 t (hperm.mem_iff.1 ht)
      rw [this] at e1; cases e1
    | some y =>
      obtain ⟨⟨t, ht, hp, hf⟩, hm⟩ := h1.2 x.1 x.2 e1
      obtain ⟨⟨t', ht', hp', hf'⟩, hm'⟩ := h2.2 y.1 y.2 e2
      have hle : y.1.z ≤ x.1.z := by
        simpa using hm (fun _ _ _ _ => trivial) t' (hperm.mem_iff.2 ht') y.1 hp'
      have hge : x.1.z ≤ y.1.z := by
        simpa using hm' (fun _ _ _ _ => trivial) t (hperm.mem_iff.1 ht) x.1 hp
      have hz : x.1.z = y.1.z := le_antisymm hge hle
      have hpt : x.1 = y.1 := by
        obtain ⟨a, ha⟩ := Rib.samplingLineMesh_onLine (p := x.1) (f := x.2) e1
        obtain ⟨b, hb⟩ := Rib.samplingLineMesh_onLine (p := y.1) (f := y.2) e2
        have : a = b := by
          rw [ha, hb] at hz
          simp only [along] at hz
          exact mul_right_cancel₀ hl (by linarith)
        rw [ha, hb, this]
      refine ⟨by simp [hpt], fun hties => ?_⟩
      have := hties t ht t' (hperm.mem_iff.2 ht') x.1 y.1 hp hp' hz
      rw [Option.some.injEq]
      refine Prod.ext hpt ?_
      rw [← hf, ← hf', this]

/-- Two sampling functions that agree on the points lead to the same contact, except for the friction. -/
theorem Rib.envelopSampling_congr {α : Type} [Scalar α] (r : Rib α) (pose : Affine α)
    (f g : Line α → Option (V3 α × α))
    (h : ∀ o, (f ⟨o, V3.neg V3.ez⟩).map (·.1) = (g ⟨o, V3.neg V3.ez⟩).map (·.1)) :
    (r.envelopSampling f pose).1 = (r.envelopSampling g pose).1 ∧
    { (r.envelopSampling f pose).2 with friction := zero } =
      { (r.envelopSampling g pose).2 with friction := zero } := by
  have h0 := h (r.lineXp pose).origin
  have h1 := h (r.lineXm pose).origin
  have h2 := h (r.lineYp pose).origin
  have h3 := h (r.lineYm pose).origin
  unfold Rib.envelopSampling
  change (f (r.lineXp pose)).map _ = (g (r.lineXp pose)).map _ at h0
  change (f (r.lineXm pose)).map _ = (g (r.lineXm pose)).map _ at h1
  change (f (r.lineYp pose)).map _ = (g (r.lineYp pose)).map _ at h2
  change (f (r.lineYm pose)).map _ = (g (r.lineYm pose)).map _ at h3
  generalize f (r.lineXp pose) = a0 at *
  generalize f (r.lineXm pose) = a1 at *
  generalize f (r.lineYp pose) = a2 at *
  generalize f (r.lineYm pose) = a3 at *
  generalize g (r.lineXp pose) = b0 at *
  generalize g (r.lineXm pose) = b1 at *
  generalize g (r.lineYp pose) = b2 at *
  generalize g (r.lineYm pose) = b3 at *
  rcases a0 with _ | ⟨p0, f0⟩ <;> rcases b0 with _ | ⟨q0, g0⟩ <;> simp only [Option.map_none,
    Option.map_some, reduceCtorEq, Option.some.injEq] at h0
  · exact ⟨rfl, rfl⟩
  rcases a1 with _ | ⟨p1, f1⟩ <;> rcases b1 with _ | ⟨q1, g1⟩ <;> simp only [Option.map_none,
    Option.map_some, reduceCtorEq, Option.some.injEq] at h1
  · exact ⟨rfl, rfl⟩
  rcases a2 with _ | ⟨p2, f2⟩ <;> rcases b2 with _ | ⟨q2, g2⟩ <;> simp only [Option.map_none,
    Option.map_some, reduceCtorEq, Option.some.injEq] at h2
  · exact ⟨rfl, rfl⟩
  rcases a3 with _ | ⟨p3, f3⟩ <;> rcases b3 with _ | ⟨q3, g3⟩ <;> simp only [Option.map_none,
    Option.map_some, reduceCtorEq, Option.some.injEq] at h3
  · exact ⟨rfl, rfl⟩
  subst h0 h1 h2 h3
  dsimp only
  split <;> exact ⟨rfl, rfl⟩

/-- **C29.**  Reordering the candidate triangles does not change whether the sampling method finds
contact, nor point, normal, depth, area and volume; if triangles hit at the same height by a vertical line
have the same friction, the friction does not change either. -/
theorem C29_order_independent (r : Rib ℝ) (pose : Affine ℝ) {ts ts' : List (TriangleGround ℝ)}
    (hperm : ts.Perm ts') :
    let a := r.envelopSamplingMesh ts pose
    let b := r.envelopSamplingMesh ts' pose
    a.1 = b.1 ∧ a.2.point = b.2.point ∧ a.2.normal = b.2.normal ∧ a.2.depth = b.2.depth ∧
      a.2.area = b.2.area ∧ a.2.volume = b.2.volume ∧
    ((∀ o : V3 ℝ, ∀ t ∈ ts, ∀ t' ∈ ts, ∀ q q',
        Inter.lineTriangle ⟨o, ⟨0, 0, -1⟩⟩ t.tri Scalar.eps = some q →
        Inter.lineTriangle ⟨o, ⟨0, 0, -1⟩⟩ t'.tri Scalar.eps = some q' → q.z = q'.z →
        t.friction = t'.friction) → a.2.friction = b.2.friction) := by
  intro a b
  have hd : (V3.neg V3.ez : V3 ℝ) = ⟨0, 0, -1⟩ := by simp [V3.neg, V3.ez]
  have key := Rib.envelopSampling_congr r pose (Rib.samplingLineMesh ts) (Rib.samplingLineMesh ts')
    fun o => (Rib.samplingLineMesh_perm hperm (l := ⟨o, V3.neg V3.ez⟩) (by rw [hd]; norm_num)).1
  obtain ⟨k1, k2⟩ := key
  rw [Output.mk.injEq] at k2
  refine ⟨k1, k2.1, k2.2.1, k2.2.2.2.1, k2.2.2.2.2.1, k2.2.2.2.2.2, fun hties => ?_⟩
  have hall : ∀ o, Rib.samplingLineMesh ts ⟨o, V3.neg V3.ez⟩ = Rib.samplingLineMesh ts' ⟨o, V3.neg V3.ez⟩ := by
    intro o
    refine (Rib.samplingLineMesh_perm hperm (l := ⟨o, V3.neg V3.ez⟩) (by rw [hd]; norm_num)).2 ?_
    rw [hd]
    exact hties o
  have : a = b := by
    show r.envelopSampling _ pose = r.envelopSampling _ pose
    unfold Rib.envelopSampling
    simp only [Rib.lineXp, Rib.lineXm, Rib.lineYp, Rib.lineYm, hall]
  rw [this]

end Enve
