import Verif.Props.IntersectProps
import Verif.Props.GroundProps
import Verif.Props.SetupProps
import Verif.Props.AreaProps
import Verif.Lemmas.RibReal

/-! # Geometric enveloping on flat ground: C31, C32, C33, C35, C38 -/

namespace Enve
open Scalar Spec

/-- The rib centre in the ground frame. -/
noncomputable def Spec.ribCentre (pose : Affine ℝ) (r : Rib ℝ) : V3 ℝ := pose.apply r.center

theorem Rib.centerGrd_eq (r : Rib ℝ) (pose : Affine ℝ) : r.centerGrd pose = ribCentre pose r := by
  simp only [Rib.centerGrd, ribCentre]; v3; congr 1 <;> ring

theorem Rib.normalGrd_eq {r : Rib ℝ} (hr : IsRib r) (pose : Affine ℝ) :
    r.normalGrd pose = pose.linear.c1 := by
  simp only [Rib.normalGrd, Disk.normal, hr.normal]; v3; simp

/-- The points of the rib disk are those of the disk the code intersects with the ground. -/
theorem Rib.inDisk_iff {r : Rib ℝ} (hr : IsRib r) {pose : Affine ℝ} (hp : IsRigid pose) (p : V3 ℝ) :
    InDisk (r.diskGrd pose) p ↔ OnRibDisk pose r p := by
  have hrad : (r.diskGrd pose).radius = r.radius := rfl
  have ho : (r.diskGrd pose).plane.origin = ribCentre pose r := r.centerGrd_eq pose
  have hn : (r.diskGrd pose).plane.normal = pose.linear.c1 := Rib.normalGrd_eq hr pose
  have hpos : 0 ≤ r.radius := hr.radius_pos.le
  unfold InDisk OnPlane
  rw [hrad, ho, hn]
  constructor
  · rintro ⟨h1, h2⟩
    -- coordinates of the point in the frame of the shell
    have hinv := hp.mulVec_transpose (minus p (ribCentre pose r))
    set q := M3.mulVec (M3.transpose pose.linear) (minus p (ribCentre pose r)) with hq
    have hqy : q.y = 0 := by
      rw [hq]; simp only [dot3] at h1; v3; linear_combination h1
    have hlen : dist3 p (ribCentre pose r) ^ 2 = q.x ^ 2 + q.z ^ 2 := by
      have := hp.dot_mulVec q q
      rw [hinv] at this
      rw [dist3_sq]
      simp only [dot3, minus] at this
      rw [hqy] at this
      linear_combination this
    refine ⟨q.x, q.z, ?_, ?_⟩
    · rw [← hlen]
      exact (pow_le_pow_iff_left₀ (dist3_nonneg _ _) hpos two_ne_zero).2 h2
    · have e : p = ⟨(minus p (ribCentre pose r)).x + (ribCentre pose r).x,
          (minus p (ribCentre pose r)).y + (ribCentre pose r).y,
          (minus p (ribCentre pose r)).z + (ribCentre pose r).z⟩ := by simp [minus]
      rw [e, ← hinv]
      simp only [ribCentre]
      v3
      rw [hqy]
      congr 1 <;> ring
  · rintro ⟨x, z, h, rfl⟩
    have e : minus (pose.apply ⟨r.center.x + x, r.center.y, r.center.z + z⟩) (ribCentre pose r) =
        M3.mulVec pose.linear ⟨x, 0, z⟩ := by
      simp only [minus, ribCentre]; v3; congr 1 <;> ring
    refine ⟨?_, ?_⟩
    · rw [e]
      simp only [dot3]; v3
      linear_combination x * hp.orth01 + z * hp.orth12
    · have hl := hp.dot_mulVec ⟨x, 0, z⟩ ⟨x, 0, z⟩
      rw [← e] at hl
      have hsq : dist3 (pose.apply ⟨r.center.x + x, r.center.y, r.center.z + z⟩) (ribCentre pose r) ^ 2 =
          x ^ 2 + z ^ 2 := by
        rw [dist3_sq]
        simp only [dot3, minus] at hl ⊢
        linear_combination hl
      rw [← hsq] at h
      exact (pow_le_pow_iff_left₀ (dist3_nonneg _ _) hpos two_ne_zero).1 h

/-! ## The section of a rib by a plane, in closed form -/

/-- The squared sine of the angle between two unit vectors. -/
def Spec.sinSq (a b : V3 ℝ) : ℝ := 1 - dot3 a b ^ 2

/-- The signed distance of a point from a plane with unit normal. -/
def Spec.height (q : Plane ℝ) (c : V3 ℝ) : ℝ := dot3 (minus c q.origin) q.normal

/-- The point of the common line of a plane (unit normal `n`) and the plane through `c` with unit normal
`a` that is closest to `c`. -/
noncomputable def Spec.sectionFoot (q : Plane ℝ) (c a : V3 ℝ) : V3 ℝ :=
  along c (height q c / sinSq q.normal a) (minus ⟨dot3 q.normal a * a.x, dot3 q.normal a * a.y,
    dot3 q.normal a * a.z⟩ q.normal)

theorem Spec.sectionFoot_dist (q : Plane ℝ) (c a : V3 ℝ) (hn : Unit3 q.normal) (ha : Unit3 a)
    (hS : 0 < sinSq q.normal a) :
    dist3 (sectionFoot q c a) c = |height q c| / Real.sqrt (sinSq q.normal a) ∧
    dist3 (sectionFoot q c a) c ^ 2 = height q c ^ 2 / sinSq q.normal a := by
  have h2 : dist3 (sectionFoot q c a) c ^ 2 = height q c ^ 2 / sinSq q.normal a := by
    rw [dist3_sq]
    have hn' := hn.dot
    have ha' := ha.dot
    have hc : dot3 q.normal a = dot3 q.normal a := rfl
    unfold sectionFoot
    generalize hh : height q c = h
    have hS' : sinSq q.normal a = 1 - dot3 q.normal a ^ 2 := rfl
    generalize hSg : sinSq q.normal a = S at *
    generalize hC : dot3 q.normal a = C at *
    simp only [along, minus, dot3] at *
    have hX : (C * a.x - q.normal.x) ^ 2 + (C * a.y - q.normal.y) ^ 2 + (C * a.z - q.normal.z) ^ 2 = S := by
      rw [hS']; linear_combination (C ^ 2) * ha' - 2 * C * hC + hn'
    have e : h ^ 2 / S = (h / S) ^ 2 * S := by field_simp
    rw [e]
    linear_combination (h / S) ^ 2 * hX
  refine ⟨?_, h2⟩
  have h3 : (|height q c| / Real.sqrt (sinSq q.normal a)) ^ 2 = height q c ^ 2 / sinSq q.normal a := by
    rw [div_pow, sq_abs, Real.sq_sqrt hS.le]
  rw [← h3] at h2
  exact (pow_left_inj₀ (dist3_nonneg _ _) (by positivity) two_ne_zero).1 h2

/-- The foot of the perpendicular from `c` to the common line of the two planes. -/
theorem Spec.foot_eq_sectionFoot (q : Plane ℝ) (c a : V3 ℝ) (hn : Unit3 q.normal) (ha : Unit3 a)
    (l : Line ℝ) (hdir : l.direction = V3.cross q.normal a)
    (hS : dot3 l.direction l.direction = sinSq q.normal a) (hS0 : 0 < sinSq q.normal a)
    (hx : ∀ x, OnLine l x ↔ OnPlane q x ∧ OnPlane ⟨c, a⟩ x) :
    foot l c = sectionFoot q c a := by
  have ho := foot_orth l c (by rw [hS]; exact hS0.ne')
  have hon := (hx (foot l c)).1 ((onLine_foot l c _).2 ⟨0, by simp [along]⟩)
  have hdec := V3.decomp q.normal a (minus (foot l c) c)
  dsimp only at hdec
  have e1 : dot3 (minus (foot l c) c) q.normal = - height q c := by
    have := hon.1
    simp only [OnPlane, height, dot3, minus] at this ⊢
    linear_combination this
  have e2 : dot3 (minus (foot l c) c) a = 0 := hon.2
  rw [← hdir, hS, ho, e1, e2, hn.dot, ha.dot] at hdec
  generalize foot l c = f at *
  unfold sectionFoot
  generalize height q c = h at *
  generalize sinSq q.normal a = S at *
  generalize dot3 q.normal a = C at *
  simp only [minus, along] at hdec ⊢
  obtain ⟨k1, k2, k3⟩ := hdec
  ext
  · dsimp only; field_simp; linear_combination k1
  · dsimp only; field_simp; linear_combination k2
  · dsimp only; field_simp; linear_combination k3

/-- The intersection of a plane and a disk in closed form. -/
theorem Inter.planeDisk_closed (q : Plane ℝ) (d : Disk ℝ) (hn : Unit3 q.normal)
    (ha : Unit3 d.plane.normal) (tol : ℝ) (ht : 0 < tol) :
    let S := sinSq q.normal d.plane.normal
    let h := height q d.center
    let f := sectionFoot q d.center d.plane.normal
    let D := V3.cross q.normal d.plane.normal
    (S < tol ∧ Inter.planeDisk q d tol = none) ∨
    (tol ≤ S ∧ S * d.radius ^ 2 - h ^ 2 < tol ∧
      (Inter.planeDisk q d tol = none ∨ Inter.planeDisk q d tol = some ⟨f, f⟩)) ∨
    (tol ≤ S ∧ tol ≤ S * d.radius ^ 2 - h ^ 2 ∧
      ∃ ρ > 0, ρ ^ 2 * S = d.radius ^ 2 - h ^ 2 / S ∧
        Inter.planeDisk q d tol = some ⟨along f (-ρ) D, along f ρ D⟩) := by
  intro S h f D
  rcases Inter.planeDisk_spec q d hn ha tol ht with ⟨h1, h2⟩ | ⟨l, hdir, htol, hsq, hx, he⟩
  · exact .inl ⟨h2, h1⟩
  right
  have hS : dot3 l.direction l.direction = S := hsq
  rw [hS] at htol
  have hS0 : 0 < S := ht.trans_le htol
  have hf : foot l d.center = f :=
    foot_eq_sectionFoot q d.center d.plane.normal hn ha l hdir hS hS0 hx
  have hdist := (sectionFoot_dist q d.center d.plane.normal hn ha hS0).2
  have hdisc : S * (d.radius ^ 2 - dist3 f d.center ^ 2) = S * d.radius ^ 2 - h ^ 2 := by
    rw [hdist]
    show S * (d.radius ^ 2 - h ^ 2 / S) = _
    rw [mul_sub, mul_div_cancel₀ _ hS0.ne']
  rw [he]
  have hsp := Inter.lineDisk_spec l d tol ht (by rw [hS]; exact hS0.ne')
  dsimp only at hsp
  rw [hf, hS, hdisc, hdir] at hsp
  have hff : ∀ D : V3 ℝ, along f 0 D = f := fun D => by simp [along]
  rcases hsp with ⟨h1, h2⟩ | ⟨ρ, h1, h0, ⟨rfl, -, h2⟩ | ⟨hρ, h2, h3⟩⟩
  · exact .inl ⟨htol, by linarith, .inl h1⟩
  · refine .inl ⟨htol, h2, .inr ?_⟩
    rw [h1, neg_zero, hff]
  · refine .inr ⟨htol, h2, ρ, hρ, ?_, h1⟩
    rw [hdist] at h3
    linear_combination h3

theorem Spec.IsRigid.unit1 {pose : Affine ℝ} (hp : IsRigid pose) : Unit3 pose.linear.c1 :=
  IsRotation.unit1 hp

theorem Flat.make_unit {f : ℝ} {o n : V3 ℝ} {g : Flat ℝ} (h : Flat.make f o n = .ok g) :
    Unit3 g.plane.normal := by
  have := (C26_flat_normal f o n g h).1
  unfold length3 at this
  exact Real.sqrt_eq_one.1 this

/-- The condition under which the geometric method reports contact with a flat ground: the rib is not
nearly parallel to the ground (squared sine at least `eps`), the section is outside the tangency band,
and the chord is longer than `eps`. -/
def Spec.FlatContact (q : Plane ℝ) (pose : Affine ℝ) (r : Rib ℝ) : Prop :=
  let S := sinSq q.normal pose.linear.c1
  let h := height q (ribCentre pose r)
  Scalar.eps ≤ S ∧ Scalar.eps ≤ S * r.radius ^ 2 - h ^ 2 ∧
    Scalar.eps < 2 * Real.sqrt (r.radius ^ 2 - h ^ 2 / S)

/-- The depth of the section. -/
noncomputable def Spec.sectionDepth (q : Plane ℝ) (pose : Affine ℝ) (r : Rib ℝ) : ℝ :=
  r.radius - |height q (ribCentre pose r)| / Real.sqrt (sinSq q.normal pose.linear.c1)

/-- The geometric evaluation on flat ground in closed form. -/
theorem Rib.geometricFlat_closed {r : Rib ℝ} (hr : IsRib r) {pose : Affine ℝ} (hp : IsRigid pose)
    {g : Flat ℝ} (hn : Unit3 g.plane.normal) :
    (FlatContact g.plane pose r ∧ r.envelopGeometricFlat g pose = (true,
      { point := sectionFoot g.plane (ribCentre pose r) pose.linear.c1
        normal := g.plane.normal
        friction := g.friction
        depth := sectionDepth g.plane pose r
        area := Rib.depthArea r.radius r.width (sectionDepth g.plane pose r)
        volume := Rib.depthVolume r.radius r.width (sectionDepth g.plane pose r) })) ∨
    (¬ FlatContact g.plane pose r ∧ r.envelopGeometricFlat g pose = (false, r.noContact pose)) := by
  have ho : (r.diskGrd pose).center = ribCentre pose r := r.centerGrd_eq pose
  have ha : (r.diskGrd pose).plane.normal = pose.linear.c1 := Rib.normalGrd_eq hr pose
  have hrad : (r.diskGrd pose).radius = r.radius := rfl
  have heps := real_eps_pos
  have hcl := Inter.planeDisk_closed g.plane (r.diskGrd pose) hn (by rw [ha]; exact hp.unit1)
    Scalar.eps heps
  dsimp only at hcl
  rw [ho, ha, hrad] at hcl
  unfold Rib.envelopGeometricFlat
  rcases hcl with ⟨h1, h2⟩ | ⟨h1, h2, h3⟩ | ⟨h1, h2, ρ, hρ, h3, h4⟩
  · right
    refine ⟨fun hc => ?_, by rw [h2]⟩
    exact absurd hc.1 (not_le.2 h1)
  · right
    refine ⟨fun hc => absurd hc.2.1 (not_le.2 h2), ?_⟩
    rcases h3 with h3 | h3
    · rw [h3]
    · rw [h3]
      dsimp only
      have : Segment.length (⟨sectionFoot g.plane (ribCentre pose r) pose.linear.c1,
          sectionFoot g.plane (ribCentre pose r) pose.linear.c1⟩ : Segment ℝ) = 0 := by
        rw [Segment.length, V3.norm_sub, dist3_eq_zero.2 rfl]
      rw [this, if_neg (by simpa using heps.le)]
  · rw [h4]
    dsimp only
    set S := sinSq g.plane.normal pose.linear.c1 with hS
    set h := height g.plane (ribCentre pose r) with hh
    set f := sectionFoot g.plane (ribCentre pose r) pose.linear.c1 with hf
    set D := V3.cross g.plane.normal pose.linear.c1 with hD
    have hS0 : 0 < S := heps.trans_le h1
    have hDD : dot3 D D = S := by
      rw [hD, V3.cross_sq, hn.dot, hp.unit1.dot, mul_one]; rfl
    have hlen : Segment.length (⟨along f (-ρ) D, along f ρ D⟩ : Segment ℝ) =
        2 * Real.sqrt (r.radius ^ 2 - h ^ 2 / S) := by
      rw [Segment.length, V3.norm_sub]
      have e : dist3 (along f (-ρ) D) (along f ρ D) ^ 2 = (2 * Real.sqrt (r.radius ^ 2 - h ^ 2 / S)) ^ 2 := by
        rw [mul_pow, Real.sq_sqrt (by rw [← h3]; positivity), ← h3, dist3_sq, ← hDD]
        simp only [along, dot3]
        ring
      exact (pow_left_inj₀ (dist3_nonneg _ _) (by positivity) two_ne_zero).1 e
    have hcent : Segment.centroid (⟨along f (-ρ) D, along f ρ D⟩ : Segment ℝ) = f := by
      simp only [Segment.centroid, along]; v3
      simp only [real_two]
      ext <;> dsimp only <;> ring
    rw [hlen, hcent]
    by_cases hc : Scalar.eps < 2 * Real.sqrt (r.radius ^ 2 - h ^ 2 / S)
    · left
      refine ⟨⟨h1, h2, hc⟩, ?_⟩
      rw [if_pos (by simpa using hc), r.centerGrd_eq pose, Rib.normalGrd_eq hr pose]
      have hdist := (sectionFoot_dist g.plane (ribCentre pose r) pose.linear.c1 hn hp.unit1 hS0).1
      have hdepth : r.radius -. V3.norm (V3.sub f (ribCentre pose r)) = sectionDepth g.plane pose r := by
        rw [V3.norm_sub, hf, hdist]; rfl
      rw [hdepth]
      have hnt : V3.dot g.normal (V3.cross pose.linear.c1 (V3.sub (ribCentre pose r) f)) = 0 := by
        rw [hf]
        simp only [sectionFoot, along, minus, Flat.normal]
        v3
        ring
      have hnorm : V3.normalized (V3.sub g.normal (V3.smul (V3.dot g.normal (V3.normalized
          (V3.cross pose.linear.c1 (V3.sub (ribCentre pose r) f)))) (V3.normalized
          (V3.cross pose.linear.c1 (V3.sub (ribCentre pose r) f))))) = g.plane.normal := by
        have h0 : V3.dot g.normal (V3.normalized (V3.cross pose.linear.c1
            (V3.sub (ribCentre pose r) f))) = 0 := by
          by_cases hz : V3.cross pose.linear.c1 (V3.sub (ribCentre pose r) f) = ⟨0, 0, 0⟩
          · rw [V3.normalized_zero hz, hnt]
          · obtain ⟨k, -, e⟩ := V3.normalized_eq_smul hz
            rw [e]
            rw [V3.real_dot] at hnt ⊢
            linear_combination k * hnt
        rw [h0]
        have : V3.sub g.normal (V3.smul (0 : ℝ) (V3.normalized
          (V3.cross pose.linear.c1 (V3.sub (ribCentre pose r) f)))) = g.normal := by
          rw [V3.real_smul, V3.real_sub]; simp
        rw [this]
        exact V3.normalized_unit hn
      rw [hnorm]
    · right
      refine ⟨fun hcc => hc hcc.2.2, ?_⟩
      rw [if_neg (by simpa using hc)]

/-- The common points of a plane and a disk, relative to the midpoint of the chord. -/
theorem Spec.section_iff (q : Plane ℝ) (c a : V3 ℝ) (hn : Unit3 q.normal) (ha : Unit3 a)
    (hS : 0 < sinSq q.normal a) {R : ℝ} (hR : 0 ≤ R) (x : V3 ℝ) :
    (OnPlane q x ∧ OnPlane ⟨c, a⟩ x ∧ dist3 x c ≤ R) ↔
      ∃ t, x = along (sectionFoot q c a) t (V3.cross q.normal a) ∧
        t ^ 2 * sinSq q.normal a ≤ R ^ 2 - height q c ^ 2 / sinSq q.normal a := by
  have hdist := (sectionFoot_dist q c a hn ha hS).2
  have hDD : dot3 (V3.cross q.normal a) (V3.cross q.normal a) = sinSq q.normal a := by
    rw [V3.cross_sq, hn.dot, ha.dot, mul_one]; rfl
  have hSdef : sinSq q.normal a = 1 - dot3 q.normal a ^ 2 := rfl
  have hnd := hn.dot
  have had := ha.dot
  -- the foot is in both planes
  have f1 : dot3 (minus (sectionFoot q c a) q.origin) q.normal = 0 := by
    have hk : height q c / sinSq q.normal a * sinSq q.normal a = height q c := by field_simp
    have hh : height q c = dot3 (minus c q.origin) q.normal := rfl
    unfold sectionFoot
    generalize height q c / sinSq q.normal a = k at *
    generalize height q c = h at *
    generalize sinSq q.normal a = S at *
    generalize hC : dot3 q.normal a = C at *
    simp only [dot3, along, minus] at *
    linear_combination -hh - hk + k * hSdef + k * C * hC - k * hnd
  have f2 : dot3 (minus (sectionFoot q c a) c) a = 0 := by
    unfold sectionFoot
    generalize height q c / sinSq q.normal a = k at *
    generalize hC : dot3 q.normal a = C at *
    simp only [dot3, along, minus] at *
    linear_combination k * C * had - k * hC
  have f3 : dot3 (minus (sectionFoot q c a) c) (V3.cross q.normal a) = 0 := by
    unfold sectionFoot
    simp only [dot3, along, minus, V3.real_cross]
    ring
  have key : ∀ t, dist3 (along (sectionFoot q c a) t (V3.cross q.normal a)) c ^ 2 =
      height q c ^ 2 / sinSq q.normal a + t ^ 2 * sinSq q.normal a := by
    intro t
    rw [← hdist, dist3_sq, dist3_sq]
    generalize sectionFoot q c a = f at *
    rw [← hDD]
    generalize V3.cross q.normal a = D at *
    simp only [dot3, along, minus] at *
    linear_combination 2 * t * f3
  constructor
  · rintro ⟨h1, h2, h3⟩
    have hx : x = along (sectionFoot q c a)
        (dot3 (minus x (sectionFoot q c a)) (V3.cross q.normal a) / sinSq q.normal a)
        (V3.cross q.normal a) := by
      have hdec := V3.decomp q.normal a (minus x (sectionFoot q c a))
      dsimp only at hdec
      have e1 : dot3 (minus x (sectionFoot q c a)) q.normal = 0 := by
        unfold OnPlane at h1
        simp only [dot3, minus] at *
        linear_combination h1 - f1
      have e2 : dot3 (minus x (sectionFoot q c a)) a = 0 := by
        unfold OnPlane at h2
        simp only [dot3, minus] at *
        linear_combination h2 - f2
      rw [e1, e2, hDD] at hdec
      generalize dot3 (minus x (sectionFoot q c a)) (V3.cross q.normal a) = k at *
      generalize sectionFoot q c a = f at *
      simp only [minus, along] at hdec ⊢
      obtain ⟨k1, k2, k3⟩ := hdec
      generalize sinSq q.normal a = S at *
      ext
      · dsimp only; field_simp; linear_combination k1
      · dsimp only; field_simp; linear_combination k2
      · dsimp only; field_simp; linear_combination k3
    refine ⟨_, hx, ?_⟩
    have := key (dot3 (minus x (sectionFoot q c a)) (V3.cross q.normal a) / sinSq q.normal a)
    rw [← hx] at this
    have h4 : dist3 x c ^ 2 ≤ R ^ 2 := (pow_le_pow_iff_left₀ (dist3_nonneg _ _) hR two_ne_zero).2 h3
    linarith
  · rintro ⟨t, rfl, ht⟩
    refine ⟨?_, ?_, ?_⟩
    · unfold OnPlane
      generalize sectionFoot q c a = f at *
      simp only [dot3, along, minus, V3.real_cross] at *
      linear_combination f1
    · unfold OnPlane
      generalize sectionFoot q c a = f at *
      simp only [dot3, along, minus, V3.real_cross] at *
      linear_combination f2
    · refine (pow_le_pow_iff_left₀ (dist3_nonneg _ _) hR two_ne_zero).1 ?_
      rw [key t]; linarith

/-- The points common to the ground plane and the rib disk. -/
def Spec.InSection (q : Plane ℝ) (pose : Affine ℝ) (r : Rib ℝ) (x : V3 ℝ) : Prop :=
  OnPlane q x ∧ OnRibDisk pose r x

theorem Spec.inSection_iff {r : Rib ℝ} (hr : IsRib r) {pose : Affine ℝ} (hp : IsRigid pose)
    {q : Plane ℝ} (hn : Unit3 q.normal) (hS : 0 < sinSq q.normal pose.linear.c1) (x : V3 ℝ) :
    InSection q pose r x ↔
      ∃ t, x = along (sectionFoot q (ribCentre pose r) pose.linear.c1) t
          (V3.cross q.normal pose.linear.c1) ∧
        t ^ 2 * sinSq q.normal pose.linear.c1 ≤ r.radius ^ 2 -
          height q (ribCentre pose r) ^ 2 / sinSq q.normal pose.linear.c1 := by
  rw [← section_iff q (ribCentre pose r) _ hn hp.unit1 hS (R := r.radius) hr.radius_pos.le]
  unfold InSection
  rw [← Rib.inDisk_iff hr hp]
  unfold InDisk
  have ho : (r.diskGrd pose).plane.origin = ribCentre pose r := r.centerGrd_eq pose
  have ha : (r.diskGrd pose).plane.normal = pose.linear.c1 := Rib.normalGrd_eq hr pose
  have e : (r.diskGrd pose).plane = ⟨ribCentre pose r, pose.linear.c1⟩ := by
    rw [← ho, ← ha]
  rw [e]
  rfl

/-- **C32**, the contact decision.  The geometric method reports contact with flat ground exactly when
the wheel is not within the tolerance of being parallel to the ground and the ground plane has two
points in common with the rib disk that are further apart than the tolerance. -/
theorem C32_contact_iff {r : Rib ℝ} (hr : IsRib r) {pose : Affine ℝ} (hp : IsRigid pose) {f : ℝ}
    {o n : V3 ℝ} {g : Flat ℝ} (hg : Flat.make f o n = .ok g) :
    (r.envelopGeometricFlat g pose).1 = true ↔
      Scalar.eps ≤ 1 - dot3 g.plane.normal pose.linear.c1 ^ 2 ∧
      ∃ x x', InSection g.plane pose r x ∧ InSection g.plane pose r x' ∧
        Scalar.eps < dist3 x x' ∧
        4 * Scalar.eps ≤ (1 - dot3 g.plane.normal pose.linear.c1 ^ 2) * dist3 x x' ^ 2 := by
  have hn := Flat.make_unit hg
  have heps := real_eps_pos
  have hcontact : (r.envelopGeometricFlat g pose).1 = true ↔ FlatContact g.plane pose r := by
    rcases Rib.geometricFlat_closed hr hp hn with ⟨h1, h2⟩ | ⟨h1, h2⟩ <;> rw [h2]
    · simpa using h1
    · simpa using h1
  rw [hcontact]
  unfold FlatContact
  dsimp only
  change _ ↔ Scalar.eps ≤ sinSq g.plane.normal pose.linear.c1 ∧ ∃ x x', InSection g.plane pose r x ∧
    InSection g.plane pose r x' ∧ Scalar.eps < dist3 x x' ∧
    4 * Scalar.eps ≤ sinSq g.plane.normal pose.linear.c1 * dist3 x x' ^ 2
  refine and_congr_right fun h1 => ?_
  have hS0 : 0 < sinSq g.plane.normal pose.linear.c1 := heps.trans_le h1
  have hsec := inSection_iff hr hp hn hS0
  simp only [hsec]
  have hDD : dot3 (V3.cross g.plane.normal pose.linear.c1) (V3.cross g.plane.normal pose.linear.c1) =
      sinSq g.plane.normal pose.linear.c1 := by
    rw [V3.cross_sq, hn.dot, hp.unit1.dot, mul_one]; rfl
  have hd : ∀ (f D : V3 ℝ) (s t : ℝ), dist3 (along f s D) (along f t D) ^ 2 = (s - t) ^ 2 * dot3 D D := by
    intro f D s t
    rw [dist3_sq]; simp only [along, dot3]; ring
  have hdef : sinSq g.plane.normal pose.linear.c1 * r.radius ^ 2 - height g.plane (ribCentre pose r) ^ 2 =
      sinSq g.plane.normal pose.linear.c1 * (r.radius ^ 2 - height g.plane (ribCentre pose r) ^ 2 /
        sinSq g.plane.normal pose.linear.c1) := by
    rw [mul_sub, mul_div_cancel₀ _ hS0.ne']
  rw [hdef]
  generalize sectionFoot g.plane (ribCentre pose r) pose.linear.c1 = F
  generalize V3.cross g.plane.normal pose.linear.c1 = D at *
  generalize sinSq g.plane.normal pose.linear.c1 = S at *
  generalize r.radius ^ 2 - height g.plane (ribCentre pose r) ^ 2 / S = Q at *
  replace hd := fun s t => hDD ▸ hd F D s t
  constructor
  · rintro ⟨h2, h3⟩
    have hQ : 0 < Q := by
      by_contra hQ
      rw [Real.sqrt_eq_zero_of_nonpos (not_lt.1 hQ)] at h3
      linarith
    have hρ : (Real.sqrt (Q / S)) ^ 2 * S = Q := by
      rw [Real.sq_sqrt (by positivity)]; field_simp
    have hdd : dist3 (along F (-Real.sqrt (Q / S)) D) (along F (Real.sqrt (Q / S)) D) ^ 2 = 4 * Q := by
      rw [hd]; linear_combination 4 * hρ
    refine ⟨along F (-Real.sqrt (Q / S)) D, along F (Real.sqrt (Q / S)) D,
      ⟨_, rfl, by rw [neg_sq]; exact hρ.le⟩, ⟨_, rfl, hρ.le⟩, ?_, ?_⟩
    · have e : dist3 (along F (-Real.sqrt (Q / S)) D) (along F (Real.sqrt (Q / S)) D) = 2 * Real.sqrt Q := by
        refine (pow_left_inj₀ (dist3_nonneg _ _) (by positivity) two_ne_zero).1 ?_
        rw [hdd, mul_pow, Real.sq_sqrt hQ.le]; ring
      rw [e]; exact h3
    · rw [hdd]; linarith
  · rintro ⟨x, x', ⟨s, rfl, hs⟩, ⟨t, rfl, ht⟩, h3, h4⟩
    have hle : dist3 (along F s D) (along F t D) ^ 2 ≤ 4 * Q := by
      rw [hd]
      nlinarith [mul_nonneg (sq_nonneg (s + t)) hS0.le]
    have hQ : 0 < Q := by
      nlinarith [sq_nonneg (dist3 (along F s D) (along F t D)), dist3_nonneg (along F s D) (along F t D)]
    refine ⟨by nlinarith, ?_⟩
    refine h3.trans_le ?_
    refine (pow_le_pow_iff_left₀ (dist3_nonneg _ _) (by positivity) two_ne_zero).1 ?_
    rw [mul_pow, Real.sq_sqrt hQ.le]
    linarith

/-- **C32**, the reported contact.  Point, normal, friction and depth of the geometric contact with flat
ground: the point is common to the ground plane and the rib disk, is the point of the section closest to
the rib centre and the midpoint of the chord that the section is, the normal is the ground normal, and the
depth is the radius minus the distance of the point from the rib centre. -/
theorem C32_contact {r : Rib ℝ} (hr : IsRib r) {pose : Affine ℝ} (hp : IsRigid pose) {f : ℝ}
    {o n : V3 ℝ} {g : Flat ℝ} (hg : Flat.make f o n = .ok g)
    (hc : (r.envelopGeometricFlat g pose).1 = true) :
    let out := (r.envelopGeometricFlat g pose).2
    let centre := pose.apply ⟨0, r.y, 0⟩
    InSection g.plane pose r out.point ∧
    (∀ x, InSection g.plane pose r x → dist3 out.point centre ≤ dist3 x centre) ∧
    (∃ a b, InSection g.plane pose r a ∧ InSection g.plane pose r b ∧ a ≠ b ∧
      out.point = along a (1 / 2) (minus b a) ∧
      ∀ x, InSection g.plane pose r x ↔ OnSegment ⟨a, b⟩ x) ∧
    out.normal = g.plane.normal ∧ out.friction = f ∧
    out.depth = r.radius - dist3 out.point centre ∧ 0 < out.depth ∧ out.depth ≤ r.radius := by
  intro out centre
  have hn := Flat.make_unit hg
  have heps := real_eps_pos
  have hcen : ribCentre pose r = centre := by
    show pose.apply r.disk.plane.origin = _
    rw [hr.center]
  have hfr : g.friction = f := by
    unfold Flat.make at hg
    rw [Res.bind_eq_ok] at hg
    obtain ⟨_, -, hg⟩ := hg
    rw [Res.bind_eq_ok] at hg
    obtain ⟨_, -, hg⟩ := hg
    rw [← Res.ok.inj hg]
  rcases Rib.geometricFlat_closed hr hp hn with ⟨⟨h1, h2, h3⟩, h4⟩ | ⟨h1, h2⟩
  swap
  · rw [h2] at hc; cases hc
  have hS0 : 0 < sinSq g.plane.normal pose.linear.c1 := heps.trans_le h1
  have hsec := inSection_iff hr hp hn hS0
  have hdist := sectionFoot_dist g.plane (ribCentre pose r) pose.linear.c1 hn hp.unit1 hS0
  have hout : out = _ := congrArg Prod.snd h4
  have hDD : dot3 (V3.cross g.plane.normal pose.linear.c1) (V3.cross g.plane.normal pose.linear.c1) =
      sinSq g.plane.normal pose.linear.c1 := by
    rw [V3.cross_sq, hn.dot, hp.unit1.dot, mul_one]; rfl
  have hQ : 0 < r.radius ^ 2 - height g.plane (ribCentre pose r) ^ 2 /
      sinSq g.plane.normal pose.linear.c1 := by
    by_contra hQ
    rw [Real.sqrt_eq_zero_of_nonpos (not_lt.1 hQ)] at h3
    linarith
  have hpt : out.point = sectionFoot g.plane (ribCentre pose r) pose.linear.c1 := by rw [hout]
  have hf0 : ∀ f D : V3 ℝ, f = along f 0 D := fun f D => by simp [along]
  have hin : InSection g.plane pose r out.point := by
    rw [hsec]
    exact ⟨0, by rw [hpt]; exact hf0 _ _, by linarith⟩
  have hdep : out.depth = r.radius - dist3 out.point centre := by
    rw [hpt, ← hcen, hdist.1, hout]; rfl
  refine ⟨hin, ?_, ?_, by rw [hout], by rw [hout]; exact hfr, hdep, ?_, ?_⟩
  · intro x hx
    obtain ⟨t, rfl, -⟩ := (hsec x).1 hx
    rw [hpt]
    refine (pow_le_pow_iff_left₀ (dist3_nonneg _ _) (dist3_nonneg _ _) two_ne_zero).1 ?_
    have horth : dot3 (minus (sectionFoot g.plane (ribCentre pose r) pose.linear.c1) centre)
        (V3.cross g.plane.normal pose.linear.c1) = 0 := by
      rw [← hcen]; unfold sectionFoot
      simp only [dot3, along, minus, V3.real_cross]; ring
    rw [dist3_sq, dist3_sq]
    generalize sectionFoot g.plane (ribCentre pose r) pose.linear.c1 = F at *
    generalize V3.cross g.plane.normal pose.linear.c1 = D at *
    simp only [along, dot3, minus] at *
    have hpos := add_nonneg (add_nonneg (sq_nonneg (t * D.x)) (sq_nonneg (t * D.y))) (sq_nonneg (t * D.z))
    refine sub_nonneg.1 (hpos.trans_eq ?_)
    linear_combination -2 * t * horth
  · rw [hpt]
    generalize sectionFoot g.plane (ribCentre pose r) pose.linear.c1 = F at *
    generalize hD : V3.cross g.plane.normal pose.linear.c1 = D at *
    generalize sinSq g.plane.normal pose.linear.c1 = S at *
    generalize r.radius ^ 2 - height g.plane (ribCentre pose r) ^ 2 / S = Q at *
    have hρ : (Real.sqrt (Q / S)) ^ 2 * S = Q := by
      rw [Real.sq_sqrt (by positivity)]; field_simp
    have hρ0 : 0 < Real.sqrt (Q / S) := Real.sqrt_pos.2 (by positivity)
    generalize Real.sqrt (Q / S) = ρ at *
    refine ⟨along F (-ρ) D, along F ρ D, (hsec _).2 ⟨_, rfl, by rw [neg_sq]; exact hρ.le⟩,
      (hsec _).2 ⟨_, rfl, hρ.le⟩, ?_, ?_, ?_⟩
    · intro h
      have : (2 * ρ) ^ 2 * S = 0 := by
        rw [← hDD]
        simp only [along, V3.mk.injEq] at h
        simp only [dot3]
        linear_combination (-2 * ρ * D.x) * h.1 + (-2 * ρ * D.y) * h.2.1 + (-2 * ρ * D.z) * h.2.2
      have h0 : 0 < (2 * ρ) ^ 2 * S := by positivity
      linarith
    · simp only [along, minus]; ext <;> dsimp only <;> ring
    · intro x
      rw [hsec]
      constructor
      · rintro ⟨t, rfl, ht⟩
        have ht2 : t ^ 2 ≤ ρ ^ 2 := by
          rw [← hρ] at ht; exact le_of_mul_le_mul_right ht hS0
        have hab := abs_le.1 (sq_le_sq.1 ht2 |>.trans (le_of_eq (abs_of_pos hρ0)))
        refine ⟨(t + ρ) / (2 * ρ), div_nonneg (by linarith [hab.1]) (by positivity), ?_, ?_⟩
        · rw [div_le_one (by positivity)]; linarith [hab.2]
        · simp only [along, minus]; ext <;> dsimp only <;> field_simp <;> ring
      · rintro ⟨t, ht0, ht1, rfl⟩
        refine ⟨(2 * t - 1) * ρ, ?_, ?_⟩
        · simp only [along, minus]; ext <;> dsimp only <;> ring
        · rw [← hρ, mul_pow]
          have : (2 * t - 1) ^ 2 ≤ 1 := by nlinarith
          nlinarith [mul_nonneg (sq_nonneg ρ) hS0.le]
  · rw [hdep, hpt, ← hcen]
    have : dist3 (sectionFoot g.plane (ribCentre pose r) pose.linear.c1) (ribCentre pose r) < r.radius := by
      refine (pow_lt_pow_iff_left₀ (dist3_nonneg _ _) hr.radius_pos.le two_ne_zero).1 ?_
      rw [hdist.2]
      exact sub_pos.1 hQ
    linarith
  · rw [hdep]
    linarith [dist3_nonneg out.point centre]

/-! ## Area and volume of a reported contact -/

/-- Scalar products of unit or zero vectors are at most one in modulus. -/
theorem V3.abs_dot_normalized_le (a b : V3 ℝ) : |V3.dot (V3.normalized a) (V3.normalized b)| ≤ 1 := by
  have h : ∀ a : V3 ℝ, (V3.normalized a).x ^ 2 + (V3.normalized a).y ^ 2 + (V3.normalized a).z ^ 2 ≤ 1 := by
    intro a
    by_cases h : a = ⟨0, 0, 0⟩
    · rw [V3.normalized_zero h, h]; norm_num
    · exact (V3.sq_normalized h).le
  have ha := h a
  have hb := h b
  generalize V3.normalized a = u at *
  generalize V3.normalized b = v at *
  rw [V3.real_dot, abs_le]
  constructor <;> nlinarith [sq_nonneg (u.x - v.x), sq_nonneg (u.y - v.y), sq_nonneg (u.z - v.z),
    sq_nonneg (u.x + v.x), sq_nonneg (u.y + v.y), sq_nonneg (u.z + v.z)]

/-- The record of a sampled contact: its area and volume are those of its depth, which is positive and at
most the radius. -/
theorem Rib.envelopSampling_record {r : Rib ℝ} (hr : 0 < r.radius) {f : Line ℝ → Option (V3 ℝ × ℝ)}
    {pose : Affine ℝ} {o : Output ℝ} (h : r.envelopSampling f pose = (true, o)) :
    0 < o.depth ∧ o.depth ≤ r.radius ∧ o.area = Rib.depthArea r.radius r.width o.depth ∧
      o.volume = Rib.depthVolume r.radius r.width o.depth := by
  have hpos := Rib.envelopSampling_true h
  simp only [real_lt, real_zero, decide_eq_true_eq] at hpos
  refine ⟨hpos, ?_⟩
  unfold Rib.envelopSampling at h
  split at h
  · dsimp only at h
    split at h
    · cases h
      refine ⟨?_, rfl, rfl⟩
      simp only [real_sub, real_mul, real_abs]
      have h1 := V3.norm_nonneg
      have h2 := V3.abs_dot_normalized_le
      refine (sub_le_self _ (h1 _)).trans ?_
      refine (mul_le_mul_of_nonneg_left (h2 _ _) hr.le).trans (by rw [mul_one])
    · cases h
  · cases h

/-- **C31**, the records.  Whenever a rib of positive radius and width reports contact with a flat
ground (by either method, any pose that is rigid) or a sampled contact with a mesh, its area is width
times the chord of that depth and its volume width times the area of the circular segment of that
height. -/
theorem C31_records {r : Rib ℝ} (hr : IsRib r) {pose : Affine ℝ} (hp : IsRigid pose) {o : Output ℝ}
    (h : (∃ f og n g method, Flat.make f og n = .ok g ∧ r.envelopFlat g pose method = .ok (true, o)) ∨
      (∃ ts, r.envelopMesh ts pose "sampling" = .ok (true, o))) :
    0 < o.depth ∧ o.depth ≤ r.radius ∧
    (∃ c, IsChordLength r.radius o.depth c ∧ o.area = r.width * c) ∧
    o.volume = r.width * segmentArea r.radius o.depth ∧
    0 ≤ o.area ∧ 0 ≤ o.volume ∧ o.volume ≤ r.width * (Real.pi * r.radius ^ 2) := by
  have hR : 0 < r.radius := hr.radius_pos
  have key : 0 < o.depth ∧ o.depth ≤ r.radius ∧ o.area = Rib.depthArea r.radius r.width o.depth ∧
      o.volume = Rib.depthVolume r.radius r.width o.depth := by
    rcases h with ⟨f, og, n, g, method, hg, h⟩ | ⟨ts, h⟩
    · unfold Rib.envelopFlat at h
      split at h
      · have h := Res.ok.inj h
        have hc := C32_contact hr hp hg (by rw [h])
        rw [h] at hc
        rcases Rib.geometricFlat_closed hr hp (Flat.make_unit hg) with ⟨-, h4⟩ | ⟨-, h4⟩
        · rw [h4] at h
          dsimp only at hc
          refine ⟨hc.2.2.2.2.2.2.1, hc.2.2.2.2.2.2.2, ?_⟩
          rw [Prod.mk.injEq] at h
          rw [← h.2]
          exact ⟨rfl, rfl⟩
        · rw [h4] at h; cases h
      · split at h
        · exact Rib.envelopSampling_record hR (Res.ok.inj h)
        · cases h
    · unfold Rib.envelopMesh at h
      rw [if_neg (by decide), if_pos rfl] at h
      exact Rib.envelopSampling_record hR (Res.ok.inj h)
  obtain ⟨h1, h2, h3, h4⟩ := key
  have hav := C31_area_volume r.width hR h1.le (by linarith)
  refine ⟨h1, h2, ?_, ?_, ?_⟩
  · rw [h3]; exact hav.1
  · rw [h4]; exact hav.2
  · rw [h3, h4]
    rcases hr.width_nonneg.eq_or_lt with hw | hw
    · rw [hav.2, ← hw]
      simp [Rib.depthArea]
    · exact (C31_monotone hR hw).2.1 _ h1.le (by linarith)

/-! ## C33 -/

/-- The pose moved down by `d`. -/
def Spec.lowered (pose : Affine ℝ) (d : ℝ) : Affine ℝ :=
  ⟨pose.linear, ⟨pose.trans.x, pose.trans.y, pose.trans.z - d⟩⟩

theorem Rib.depthArea_mono {R w a b : ℝ} (hw : 0 ≤ w) (hab : a ≤ b) (hb : b ≤ R) :
    Rib.depthArea R w a ≤ Rib.depthArea R w b := by
  simp only [Rib.depthArea, real_mul, real_sub, real_two, real_sqrt]
  have : Real.sqrt (a * (2 * R - a)) ≤ Real.sqrt (b * (2 * R - b)) := Real.sqrt_le_sqrt (by nlinarith)
  gcongr

theorem Rib.depthVolume_mono {R w a b : ℝ} (hR : 0 < R) (hw : 0 ≤ w) (ha : 0 ≤ a) (hab : a ≤ b)
    (hb : b ≤ R) : Rib.depthVolume R w a ≤ Rib.depthVolume R w b := by
  rcases hw.eq_or_lt with rfl | hw
  · simp [Rib.depthVolume]
  · exact (C31_monotone hR hw).1.monotoneOn ⟨ha, by linarith⟩ ⟨by linarith, by linarith⟩ hab

/-- **C33**, partial: while the rib centre stays above the ground plane, lowering the tyre never loses the
contact and never decreases depth, area or volume.  (The restriction is needed:
`C33_past_centre_refuted`.) -/
theorem C33_above_ground_partial {r : Rib ℝ} (hr : IsRib r) {pose : Affine ℝ} (hp : IsRigid pose) {f : ℝ}
    {o n : V3 ℝ} {g : Flat ℝ} (hg : Flat.make f o n = .ok g) {d : ℝ} (hd : 0 ≤ d)
    (habove : 0 ≤ dot3 (minus ((lowered pose d).apply ⟨0, r.y, 0⟩) g.plane.origin) g.plane.normal) :
    let before := r.envelopGeometricFlat g pose
    let after := r.envelopGeometricFlat g (lowered pose d)
    (before.1 = true → after.1 = true) ∧ before.2.depth ≤ after.2.depth ∧
      before.2.area ≤ after.2.area ∧ before.2.volume ≤ after.2.volume := by
  intro before after
  have hn := Flat.make_unit hg
  have hnz := (C26_flat_normal f o n g hg).2
  have hp' : IsRigid (lowered pose d) := hp
  have hR : 0 < r.radius := hr.radius_pos
  have hc : r.center = ⟨0, r.y, 0⟩ := hr.center
  have hh' : 0 ≤ height g.plane (ribCentre (lowered pose d) r) := by
    unfold height ribCentre; rw [hc]; exact habove
  have hh : height g.plane (ribCentre (lowered pose d) r) ≤ height g.plane (ribCentre pose r) := by
    have : height g.plane (ribCentre pose r) =
        height g.plane (ribCentre (lowered pose d) r) + d * g.plane.normal.z := by
      simp only [height, ribCentre, dot3, minus, lowered]; v3; ring
    rw [this]
    have : 0 < g.plane.normal.z := by first | exact hnz | exact hnz.1
    nlinarith
  have hS : (lowered pose d).linear.c1 = pose.linear.c1 := rfl
  -- contact is kept and the depth grows
  have hcontact : FlatContact g.plane pose r → FlatContact g.plane (lowered pose d) r := by
    rintro ⟨h1, h2, h3⟩
    have hsq : height g.plane (ribCentre (lowered pose d) r) ^ 2 ≤ height g.plane (ribCentre pose r) ^ 2 := by
      nlinarith
    refine ⟨h1, ?_, ?_⟩
    · rw [hS]; linarith
    · refine h3.trans_le ?_
      rw [hS]
      have hS0 := real_eps_pos.trans_le h1
      have := Real.sqrt_le_sqrt (sub_le_sub_left (div_le_div_of_nonneg_right hsq hS0.le) (r.radius ^ 2))
      linarith
  have hdepth : sectionDepth g.plane pose r ≤ sectionDepth g.plane (lowered pose d) r := by
    unfold sectionDepth
    rw [hS, abs_of_nonneg hh', abs_of_nonneg (hh'.trans hh)]
    have := div_le_div_of_nonneg_right hh (Real.sqrt_nonneg (sinSq g.plane.normal pose.linear.c1))
    linarith
  rcases Rib.geometricFlat_closed hr hp' hn with ⟨a1, a2⟩ | ⟨a1, a2⟩
  · have hA := C32_contact hr hp' hg (by rw [a2])
    have ha : after = _ := a2
    dsimp only at hA
    rw [a2] at hA
    dsimp only at hA
    have hApos := hA.2.2.2.2.2.2.1
    have hAle := hA.2.2.2.2.2.2.2
    rcases Rib.geometricFlat_closed hr hp hn with ⟨b1, b2⟩ | ⟨b1, b2⟩
    · have hB := C32_contact hr hp hg (by rw [b2])
      have hb : before = _ := b2
      dsimp only at hB
      rw [b2] at hB
      dsimp only at hB
      rw [ha, hb]
      exact ⟨fun _ => rfl, hdepth, Rib.depthArea_mono hr.width_nonneg hdepth hAle,
        Rib.depthVolume_mono hR hr.width_nonneg hB.2.2.2.2.2.2.1.le hdepth hAle⟩
    · have hb : before = _ := b2
      rw [ha, hb]
      refine ⟨fun _ => rfl, by simpa [Rib.noContact] using hApos.le, ?_, ?_⟩
      · have := Rib.depthArea_mono (R := r.radius) hr.width_nonneg hApos.le hAle
        simpa [Rib.noContact, Rib.depthArea] using this
      · have := Rib.depthVolume_mono (R := r.radius) hR hr.width_nonneg (le_refl 0) hApos.le hAle
        simpa [Rib.noContact, Rib.depthVolume, hR.ne'] using this
  · rcases Rib.geometricFlat_closed hr hp hn with ⟨b1, b2⟩ | ⟨b1, b2⟩
    · exact absurd (hcontact b1) a1
    · have ha : after = _ := a2
      have hb : before = _ := b2
      rw [ha, hb]
      exact ⟨(fun h => by cases h), le_refl _, le_refl _, le_refl _⟩

/-- The road `z = 0` with friction 1. -/
def Demo.road : Flat ℝ := ⟨⟨⟨0, 0, 0⟩, ⟨0, 0, 1⟩⟩, 1⟩

theorem Demo.road_make : Flat.make (1 : ℝ) ⟨0, 0, 0⟩ ⟨0, 0, 1⟩ = .ok Demo.road := by
  have h : V3.normalized (⟨0, 0, 1⟩ : V3 ℝ) = ⟨0, 0, 1⟩ := V3.normalized_unit (by norm_num)
  simp [Flat.make, Plane.normalize, Demo.road, h]

/-- A rib of radius and width 1 in the middle of the tyre. -/
noncomputable def Demo.rib : Rib ℝ := Rib.make 0 1 0 1 0

theorem Demo.rib_isRib : IsRib Demo.rib := Rib.make_isRib _ _ _ one_pos zero_le_one

/-- The upright pose at height `h`. -/
def Demo.upright (h : ℝ) : Affine ℝ := ⟨⟨⟨1, 0, 0⟩, ⟨0, 1, 0⟩, ⟨0, 0, 1⟩⟩, ⟨0, 0, h⟩⟩

theorem Demo.upright_rigid (h : ℝ) : IsRigid (Demo.upright h) :=
  ⟨by norm_num [Demo.upright], by norm_num [Demo.upright], by norm_num [Demo.upright],
    by norm_num [Demo.upright], by norm_num [Demo.upright], by norm_num [Demo.upright],
    by norm_num [Demo.upright]⟩

theorem real_eps_le_half : (Scalar.eps : ℝ) ≤ 1 / 2 := by rw [real_eps]; norm_num

/-- The rib at height `h` above the road: contact if `h² ≤ 1/2`, at depth `1 - |h|`. -/
theorem Demo.rib_depth {h : ℝ} (hh : h ^ 2 ≤ 1 / 2) :
    (Demo.rib.envelopGeometricFlat Demo.road (Demo.upright h)).1 = true ∧
    (Demo.rib.envelopGeometricFlat Demo.road (Demo.upright h)).2.depth = 1 - |h| := by
  have hS : sinSq Demo.road.plane.normal (Demo.upright h).linear.c1 = 1 := by
    simp [sinSq, dot3, Demo.road, Demo.upright]
  have hH : height Demo.road.plane (ribCentre (Demo.upright h) Demo.rib) = h := by
    simp only [height, dot3, minus, ribCentre, Demo.rib, Rib.center, Disk.center, Rib.make, Demo.road,
      Demo.upright]
    v3
    ring
  have hR : Demo.rib.radius = 1 := rfl
  have heps := real_eps_le_half
  have hpos := real_eps_pos
  have hc : FlatContact Demo.road.plane (Demo.upright h) Demo.rib := by
    unfold FlatContact
    dsimp only
    rw [hS, hH, hR, div_one, one_pow, mul_one]
    refine ⟨by linarith, by linarith, ?_⟩
    have : Real.sqrt (1 / 4) ≤ Real.sqrt (1 - h ^ 2) := Real.sqrt_le_sqrt (by linarith)
    rw [show (1 : ℝ) / 4 = (1 / 2) ^ 2 by norm_num, Real.sqrt_sq (by norm_num)] at this
    linarith
  rcases Rib.geometricFlat_closed Demo.rib_isRib (Demo.upright_rigid h) (Flat.make_unit Demo.road_make) with
    ⟨-, e⟩ | ⟨e, -⟩
  · rw [e]
    refine ⟨rfl, ?_⟩
    simp only [sectionDepth]
    rw [hS, hH, hR, Real.sqrt_one, div_one]
  · exact absurd hc e

/-- **C33 is false** once the rib centre is below the ground: lowering the tyre then reduces the reported
depth. -/
theorem C33_past_centre_refuted :
    ∃ (r : Rib ℝ) (pose : Affine ℝ) (g : Flat ℝ) (d : ℝ), IsRib r ∧ IsRigid pose ∧
      Flat.make 1 ⟨0, 0, 0⟩ ⟨0, 0, 1⟩ = .ok g ∧ 0 < d ∧
      (r.envelopGeometricFlat g pose).1 = true ∧ (r.envelopGeometricFlat g (lowered pose d)).1 = true ∧
      (r.envelopGeometricFlat g (lowered pose d)).2.depth < (r.envelopGeometricFlat g pose).2.depth := by
  refine ⟨Demo.rib, Demo.upright 0, Demo.road, 1 / 2, Demo.rib_isRib, Demo.upright_rigid 0, Demo.road_make,
    by norm_num, ?_⟩
  have e : lowered (Demo.upright 0) (1 / 2) = Demo.upright (-(1 / 2)) := by
    simp [lowered, Demo.upright]
  rw [e, (Demo.rib_depth (h := 0) (by norm_num)).1, (Demo.rib_depth (h := 0) (by norm_num)).2,
    (Demo.rib_depth (h := -(1 / 2)) (by norm_num)).1, (Demo.rib_depth (h := -(1 / 2)) (by norm_num)).2]
  norm_num

/-- The hypotheses of C31–C33 are met: a rib half sunk into the road, and lowered further. -/
example : (Demo.rib.envelopGeometricFlat Demo.road (Demo.upright (1 / 2))).1 = true ∧
    (Demo.rib.envelopGeometricFlat Demo.road (lowered (Demo.upright (1 / 2)) (1 / 4))).2.depth = 3 / 4 := by
  have e : lowered (Demo.upright (1 / 2)) (1 / 4) = Demo.upright (1 / 4) := by
    simp [lowered, Demo.upright]; norm_num
  rw [e, (Demo.rib_depth (h := 1 / 4) (by norm_num)).2]
  refine ⟨(Demo.rib_depth (by norm_num)).1, ?_⟩
  rw [abs_of_pos (by norm_num)]; norm_num

/-! ## C35: spinning the wheel -/

/-- The pose after spinning the wheel by `angle` about its own axis, `shell::rotate(angle, UNITY_VEC3)`. -/
noncomputable def Spec.spun (pose : Affine ℝ) (angle : ℝ) : Affine ℝ :=
  pose.rotate (M3.ofAngleAxis angle ⟨0, 1, 0⟩)

theorem Spec.spun_c1 (pose : Affine ℝ) (angle : ℝ) : (spun pose angle).linear.c1 = pose.linear.c1 := by
  simp [spun, Affine.rotate, M3.ofAngleAxis, M3.mul, M3.mulVec]

theorem Spec.spun_centre {r : Rib ℝ} (hr : IsRib r) (pose : Affine ℝ) (angle : ℝ) :
    ribCentre (spun pose angle) r = ribCentre pose r := by
  have hc : r.center = ⟨0, r.y, 0⟩ := hr.center
  have h1 := spun_c1 pose angle
  have ht : (spun pose angle).trans = pose.trans := rfl
  unfold ribCentre Affine.apply
  rw [hc, ht]
  simp only [V3.real_add, M3.mulVec, real_add, real_mul, h1, mul_zero]

theorem Spec.spun_rigid {pose : Affine ℝ} (hp : IsRigid pose) (angle : ℝ) : IsRigid (spun pose angle) := by
  refine IsRotation.mul hp ?_
  have := Real.sin_sq_add_cos_sq angle
  constructor <;> simp [M3.ofAngleAxis] <;> first | ring1 | linear_combination this

/-- **C35 on flat ground, geometric method** (partial: the other methods and grounds are refuted below).
Spinning the wheel changes neither whether a rib is in contact nor anything in the record of the contact;
without contact the depth, friction, area and volume stay zero. -/
theorem C35_geometric_flat_partial {r : Rib ℝ} (hr : IsRib r) {pose : Affine ℝ} (hp : IsRigid pose)
    {f : ℝ} {o n : V3 ℝ} {g : Flat ℝ} (hg : Flat.make f o n = .ok g) (angle : ℝ) :
    let before := r.envelopGeometricFlat g pose
    let after := r.envelopGeometricFlat g (spun pose angle)
    after.1 = before.1 ∧ (before.1 = true → after.2 = before.2) ∧
      after.2.depth = before.2.depth ∧ after.2.friction = before.2.friction ∧
      after.2.area = before.2.area ∧ after.2.volume = before.2.volume := by
  intro before after
  have hn := Flat.make_unit hg
  have hF : FlatContact g.plane (spun pose angle) r ↔ FlatContact g.plane pose r := by
    unfold FlatContact; rw [spun_c1, spun_centre hr]
  have hD : sectionDepth g.plane (spun pose angle) r = sectionDepth g.plane pose r := by
    unfold sectionDepth; rw [spun_c1, spun_centre hr]
  rcases Rib.geometricFlat_closed hr hp hn with ⟨b1, b2⟩ | ⟨b1, b2⟩ <;>
  rcases Rib.geometricFlat_closed hr (spun_rigid hp angle) hn with ⟨a1, a2⟩ | ⟨a1, a2⟩
  · have ha : after = _ := a2
    have hb : before = _ := b2
    rw [ha, hb, hD, spun_c1, spun_centre hr]
    simp
  · exact absurd (hF.2 b1) a1
  · exact absurd (hF.1 a1) b1
  · have ha : after = _ := a2
    have hb : before = _ := b2
    rw [ha, hb]
    simp [Rib.noContact]

/-! ## C38: the flag of a setup on flat ground -/

/-- **C38 is false on flat ground**: a tilted tyre of two ribs whose first rib is in contact (its record
says so) and whose second rib is not; setup returns "no contact".  (`raw`: the records live in the reserved
storage, see C06.) -/
theorem C38_flat_flag_refuted (fresh : Nat → Output ℝ) :
    ∃ (s s' : Shell ℝ) (g : Flat ℝ) (pose : Affine ℝ) (o : Output ℝ),
      Shell.make fresh 2 1 2 2 2 1 = .ok s ∧ IsRigid pose ∧
      Flat.make 1 ⟨0, 0, 0⟩ ⟨0, 0, 1⟩ = .ok g ∧
      s.setupFlat .raw g pose "geometric" = .ok s' false ∧
      s'.out.read .raw 0 = .ok o ∧ ShowsContact o ∧ 0 < o.depth := by
  have hv : ValidProfile (1 : ℝ) 2 2 2 1 :=
    ⟨by norm_num, by norm_num, by norm_num, by norm_num, by norm_num, by norm_num⟩
  obtain ⟨s, h1, h2, -, -, h5, -⟩ := C04_construct fresh 2 (by norm_num) 1 2 2 2 1 hv
  obtain ⟨r0, hr0, c0, w0, e0, p0⟩ := h5 0 (by norm_num)
  obtain ⟨r1, hr1, c1, w1, e1, p1⟩ := h5 1 (by norm_num)
  have hreach : s.Reachable .raw := .make h1
  have hrib := hreach.isRib
  -- both radii
  have hrad : ∀ r y : ℝ, |y| = 1 / 2 → OnProfile 1 2 2 2 y r → r ^ 2 = 15 / 16 := by
    intro r y hy h
    have := h.2
    rw [hy, div_one, Real.rpow_two, Real.rpow_two] at this
    linarith
  have hq0 := hrad r0 _ (by norm_num) p0
  have hq1 := hrad r1 _ (by norm_num) p1
  -- the two ribs
  obtain ⟨a, b, hab⟩ : ∃ a b, s.ribs = [a, b] := by
    have hl : s.ribs.length = 2 := h2
    match hs : s.ribs, hl with
    | [a, b], _ => exact ⟨a, b, rfl⟩
  have ha : IsRib a := hrib a (by rw [hab]; simp)
  have hb : IsRib b := hrib b (by rw [hab]; simp)
  simp only [Shell.ribCenter, Shell.ribRadius, Shell.ribAt, hab, List.getElem?_cons_zero,
    List.getElem?_cons_succ, Res.bind_ok, Res.pure_eq, Res.ok.injEq] at c0 c1 e0 e1
  have hac : a.center = ⟨0, -1 / 2, 0⟩ := by rw [c0]; norm_num
  have hbc : b.center = ⟨0, 1 / 2, 0⟩ := by rw [c1]; norm_num
  set pose : Affine ℝ := ⟨⟨⟨1, 0, 0⟩, ⟨0, 3 / 5, 4 / 5⟩, ⟨0, -4 / 5, 3 / 5⟩⟩, ⟨0, 0, 2 / 5⟩⟩ with hpose
  have hp : IsRigid pose :=
    ⟨by norm_num [pose], by norm_num [pose], by norm_num [pose], by norm_num [pose], by norm_num [pose],
      by norm_num [pose], by norm_num [pose]⟩
  have hS : sinSq Demo.road.plane.normal pose.linear.c1 = 9 / 25 := by
    norm_num [sinSq, dot3, Demo.road, pose]
  have hha : height Demo.road.plane (ribCentre pose a) = 0 := by
    unfold height ribCentre
    rw [hac]
    simp only [dot3, minus, Demo.road, pose]
    v3
    norm_num
  have hhb : height Demo.road.plane (ribCentre pose b) = 4 / 5 := by
    unfold height ribCentre
    rw [hbc]
    simp only [dot3, minus, Demo.road, pose]
    v3
    norm_num
  have heps := real_eps_le_half
  have heps' : (Scalar.eps : ℝ) ≤ 1 / 4 := by rw [real_eps]; norm_num
  have hpos := real_eps_pos
  have hca : FlatContact Demo.road.plane pose a := by
    unfold FlatContact
    dsimp only
    rw [hS, hha, e0, hq0]
    refine ⟨by linarith, by linarith, ?_⟩
    have : Real.sqrt ((1 / 2) ^ 2) ≤ Real.sqrt (15 / 16 - 0 ^ 2 / (9 / 25)) :=
      Real.sqrt_le_sqrt (by norm_num)
    rw [Real.sqrt_sq (by norm_num)] at this
    linarith
  have hcb : ¬ FlatContact Demo.road.plane pose b := by
    unfold FlatContact
    dsimp only
    rw [hS, hhb, e1, hq1]
    rintro ⟨-, h, -⟩
    norm_num at h
    linarith
  have hn := Flat.make_unit Demo.road_make
  obtain ⟨oa, hoa, hda⟩ : ∃ oa, a.envelopGeometricFlat Demo.road pose = (true, oa) ∧ 0 < oa.depth := by
    rcases Rib.geometricFlat_closed ha hp hn with ⟨-, h⟩ | ⟨h, -⟩
    · have hc := C32_contact ha hp Demo.road_make (by rw [h])
      exact ⟨_, by rw [h], by rw [h] at hc; exact hc.2.2.2.2.2.2.1⟩
    · exact absurd hca h
  have hob : b.envelopGeometricFlat Demo.road pose = (false, b.noContact pose) := by
    rcases Rib.geometricFlat_closed hb hp hn with ⟨h, -⟩ | ⟨-, h⟩
    · exact absurd h hcb
    · exact h
  have hcap := hreach.inv.out_cap
  have hrun : s.setupFlat .raw Demo.road pose "geometric" =
      .ok { (s.transform pose).updateBBox with out := (s.out.set 0 oa).set 1 (b.noContact pose) } false := by
    rw [Shell.setupFlat_eq]
    have hribs : (s.transform pose).updateBBox.ribs = [a, b] := hab
    have hout : (s.transform pose).updateBBox.out = s.out := rfl
    simp only [hab, Shell.ribLoop, RecVec.accessible, RecVec.set, hcap, Rib.envelopFlat, hoa, hob,
      Shell.withOut, if_true]
    simp
  refine ⟨s, _, Demo.road, pose, oa, h1, hp, Demo.road_make, hrun, ?_, .inr (.inr hda.ne'), hda⟩
  simp [RecVec.read, RecVec.accessible, RecVec.set, hcap]

end Enve
