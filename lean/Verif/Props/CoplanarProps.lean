import Verif.Props.RelationProps

/-! # Collinear and coplanar entities as point sets -/

namespace Enve
open Scalar Spec

/-! ## Vectors -/

theorem Spec.cross3_dir {n N : V3 ℝ} (hn : Unit3 n) (h : cross3 N n = ⟨0, 0, 0⟩) :
    N = ⟨dot3 N n * n.x, dot3 N n * n.y, dot3 N n * n.z⟩ := by
  simp only [cross3, V3.mk.injEq] at h
  obtain ⟨h1, h2, h3⟩ := h
  unfold Unit3 at hn
  ext <;> simp only [dot3]
  · linear_combination (-N.x) * hn + n.y * h3 - n.z * h2
  · linear_combination (-N.y) * hn + n.z * h1 - n.x * h3
  · linear_combination (-N.z) * hn + n.x * h2 - n.y * h1

theorem Spec.cross3_swap {a b : V3 ℝ} (h : cross3 a b = ⟨0, 0, 0⟩) : cross3 b a = ⟨0, 0, 0⟩ := by
  simp only [cross3, V3.mk.injEq] at h ⊢
  obtain ⟨h1, h2, h3⟩ := h
  exact ⟨by linarith, by linarith, by linarith⟩

/-- Every vector has a unit vector orthogonal to it. -/
theorem Spec.exists_orth (n : V3 ℝ) : ∃ a, Unit3 a ∧ dot3 a n = 0 := by
  have key (b : V3 ℝ) (hb : b ≠ ⟨0, 0, 0⟩) (h : dot3 b n = 0) : ∃ a, Unit3 a ∧ dot3 a n = 0 := by
    refine ⟨unit3 b, unit3_unit hb, ?_⟩
    have : dot3 (unit3 b) n = dot3 b n / length3 b := by simp only [unit3, dot3]; ring
    rw [this, h, zero_div]
  by_cases hx : n.x = 0 ∧ n.y = 0
  · refine key ⟨1, 0, 0⟩ (by simp) ?_
    simp [dot3, hx.1]
  · refine key ⟨n.y, -n.x, 0⟩ ?_ (by simp only [dot3]; ring)
    simp only [ne_eq, V3.mk.injEq, neg_eq_zero, and_true]
    exact fun h => hx ⟨h.2, h.1⟩

/-- The orthogonal frame of a unit vector and a unit vector orthogonal to it. -/
theorem Spec.orth_cross {n a : V3 ℝ} (hn : Unit3 n) (ha : Unit3 a) (h : dot3 a n = 0) :
    Unit3 (cross3 n a) ∧ dot3 (cross3 n a) n = 0 ∧ cross3 a (cross3 n a) = n := by
  unfold Unit3 at hn ha
  simp only [dot3] at h
  refine ⟨?_, by simp only [dot3, cross3]; ring, ?_⟩
  · simp only [Unit3, cross3]
    linear_combination (a.x ^ 2 + a.y ^ 2 + a.z ^ 2) * hn + ha -
      (a.x * n.x + a.y * n.y + a.z * n.z) * h
  · ext <;> simp only [cross3]
    · linear_combination n.x * ha - a.x * h
    · linear_combination n.y * ha - a.y * h
    · linear_combination n.z * ha - a.z * h

/-! ## Entities that run along a direction and entities that lie in a plane -/

/-- The point set contains `o` and another point in direction `u`, and lies on the line through `o`
along `u`. -/
structure Spec.LineLike (e : Entity ℝ) (o u : V3 ℝ) : Prop where
  unit : Unit3 u
  start : Has e o
  other : ∃ s : ℝ, s ≠ 0 ∧ Has e (along o s u)
  all : ∀ p, Has e p → ∃ t, p = along o t u

/-- The point set contains `c` and two more points that span with `c` a plane with normal `n`, and lies
in that plane. -/
structure Spec.PlaneLike (e : Entity ℝ) (c n : V3 ℝ) : Prop where
  unit : Unit3 n
  start : Has e c
  other : ∃ (a b : V3 ℝ) (k : ℝ), k ≠ 0 ∧ cross3 a b = ⟨k * n.x, k * n.y, k * n.z⟩ ∧
    Has e (along c 1 a) ∧ Has e (along c 1 b)
  all : ∀ p, Has e p → dot3 (minus p c) n = 0

theorem Spec.LineLike.line {l : Line ℝ} (h : Proper (.line l)) :
    LineLike (.line l) l.origin l.direction :=
  ⟨h, ⟨0, by simp [along]⟩, ⟨1, one_ne_zero, 1, rfl⟩, fun _ hp => hp⟩

theorem Spec.LineLike.ray {r : Ray ℝ} (h : Proper (.ray r)) :
    LineLike (.ray r) r.origin r.direction :=
  ⟨h, ⟨0, le_rfl, by simp [along]⟩, ⟨1, one_ne_zero, 1, zero_le_one, rfl⟩,
    fun _ ⟨t, _, hp⟩ => ⟨t, hp⟩⟩

theorem Spec.along_unit3 (o a : V3 ℝ) (t : ℝ) (h : a ≠ ⟨0, 0, 0⟩) :
    along o t a = along o (t * length3 a) (unit3 a) := by
  have h0 : length3 a ≠ 0 := by rw [← V3.norm_eq]; exact (V3.norm_pos.2 h).ne'
  simp only [along, unit3]
  congr 1 <;> field_simp

theorem Spec.LineLike.segment {s : Segment ℝ} (h : Proper (.segment s)) :
    LineLike (.segment s) s.v0 s.toUnitVector := by
  rw [Segment.unit_eq]
  have h1 := minus_ne h
  have h0 : length3 (minus s.v1 s.v0) ≠ 0 := by rw [← V3.norm_eq]; exact (V3.norm_pos.2 h1).ne'
  refine ⟨h.seg, ⟨0, le_rfl, zero_le_one, by simp [along]⟩, ⟨length3 (minus s.v1 s.v0), h0, 1,
    zero_le_one, le_rfl, ?_⟩, ?_⟩
  · rw [along_unit3 _ _ _ h1, one_mul]
  · rintro p ⟨t, -, -, rfl⟩
    exact ⟨_, along_unit3 _ _ _ h1⟩

theorem Spec.PlaneLike.plane {q : Plane ℝ} (h : Proper (.plane q)) :
    PlaneLike (.plane q) q.origin q.normal := by
  obtain ⟨a, ha, h1⟩ := exists_orth q.normal
  obtain ⟨hb, h2, h3⟩ := orth_cross h ha h1
  refine ⟨h, by simp [Has, OnPlane, minus, dot3], ⟨a, cross3 q.normal a, 1, one_ne_zero, ?_, ?_, ?_⟩,
    fun _ hp => hp⟩
  · simpa using h3
  · simpa [Has, OnPlane, minus, along, dot3] using h1
  · simpa [Has, OnPlane, minus, along, dot3] using h2

theorem Spec.PlaneLike.disk {d : Disk ℝ} (h : Proper (.disk d)) :
    PlaneLike (.disk d) d.layingPlane.origin d.layingPlane.normal := by
  obtain ⟨hu, hr⟩ := h
  obtain ⟨a, ha, h1⟩ := exists_orth d.plane.normal
  obtain ⟨hb, h2, h3⟩ := orth_cross hu ha h1
  have key (b : V3 ℝ) (hb : Unit3 b) (h : dot3 b d.plane.normal = 0) :
      Has (.disk d) (along d.plane.origin 1 ⟨d.radius * b.x, d.radius * b.y, d.radius * b.z⟩) := by
    refine ⟨?_, ?_⟩
    · simp only [OnPlane, minus, along, dot3] at h ⊢; linear_combination d.radius * h
    · unfold dist3 along
      unfold Unit3 at hb
      refine Real.sqrt_le_iff.2 ⟨hr.le, le_of_eq ?_⟩
      linear_combination d.radius ^ 2 * hb
  refine ⟨hu, ⟨by simp [OnPlane, minus, dot3, Disk.layingPlane], ?_⟩, ⟨_, _, d.radius ^ 2, by positivity, ?_,
    key a ha h1, key _ hb h2⟩, fun _ hp => hp.1⟩
  · simp [dist3, Disk.layingPlane, hr.le]
  · have hx := congrArg V3.x h3
    have hy := congrArg V3.y h3
    have hz := congrArg V3.z h3
    simp only [cross3] at hx hy hz
    simp only [cross3, Disk.layingPlane]
    congr 1
    · linear_combination d.radius ^ 2 * hx
    · linear_combination d.radius ^ 2 * hy
    · linear_combination d.radius ^ 2 * hz

theorem Spec.PlaneLike.triangle {t : Triangle ℝ} (h : Proper (.triangle t)) :
    PlaneLike (.triangle t) t.layingPlane.origin t.layingPlane.normal := by
  have hu := h.tri
  have hL : length3 (cross3 (minus t.v1 t.v0) (minus t.v2 t.v0)) ≠ 0 := by
    rw [← V3.norm_eq]; exact (V3.norm_pos.2 h).ne'
  have hc : t.layingPlane.origin = ⟨(t.v0.x + t.v1.x + t.v2.x) / 3, (t.v0.y + t.v1.y + t.v2.y) / 3,
      (t.v0.z + t.v1.z + t.v2.z) / 3⟩ := by
    simp [Triangle.layingPlane, Triangle.centroid, V3.real_add, V3.real_sdiv]
  have hn : t.layingPlane.normal = unit3 (cross3 (minus t.v1 t.v0) (minus t.v2 t.v0)) :=
    Triangle.normal_eq t
  rw [hc, hn]
  refine ⟨hu, ⟨1 / 3, 1 / 3, 1 / 3, by norm_num, by norm_num, by norm_num, by norm_num, ?_⟩,
    ⟨minus t.v0 ⟨(t.v0.x + t.v1.x + t.v2.x) / 3, (t.v0.y + t.v1.y + t.v2.y) / 3,
      (t.v0.z + t.v1.z + t.v2.z) / 3⟩, minus t.v1 ⟨(t.v0.x + t.v1.x + t.v2.x) / 3,
      (t.v0.y + t.v1.y + t.v2.y) / 3, (t.v0.z + t.v1.z + t.v2.z) / 3⟩,
      length3 (cross3 (minus t.v1 t.v0) (minus t.v2 t.v0)) / 3, by positivity, ?_, ?_, ?_⟩, ?_⟩
  · congr 1 <;> ring
  · unfold unit3
    generalize length3 (cross3 (minus t.v1 t.v0) (minus t.v2 t.v0)) = L at hL
    have cl (x : ℝ) : L / 3 * (x / L) = x / 3 := by field_simp
    simp only [cross3, minus, cl]
    congr 1 <;> ring
  · refine ⟨1, 0, 0, by norm_num, by norm_num, by norm_num, by norm_num, ?_⟩
    simp only [along, minus]; congr 1 <;> ring
  · refine ⟨0, 1, 0, by norm_num, by norm_num, by norm_num, by norm_num, ?_⟩
    simp only [along, minus]; congr 1 <;> ring
  · rintro p ⟨a, b, c, -, -, -, hs, rfl⟩
    obtain rfl : c = 1 - a - b := by linarith
    simp only [unit3, dot3]
    rw [← mul_div_assoc, ← mul_div_assoc, ← mul_div_assoc, ← add_div, ← add_div,
      div_eq_zero_iff]
    left
    simp only [cross3, minus]
    ring

/-! ## Point sets and vectors -/

theorem Spec.orth_of_onPlane {q : Plane ℝ} {o u : V3 ℝ} {s : ℝ} (hs : s ≠ 0) (h0 : OnPlane q o)
    (h1 : OnPlane q (along o s u)) : dot3 u q.normal = 0 := by
  simp only [OnPlane, minus, along, dot3] at h0 h1 ⊢
  have : s * (u.x * q.normal.x + u.y * q.normal.y + u.z * q.normal.z) = 0 := by
    linear_combination h1 - h0
  exact (mul_eq_zero.1 this).resolve_left hs

/-- Two line-like sets lie in a common plane exactly when the triple product of the difference of the
starts and the directions vanishes. -/
theorem Spec.samePlane_lines {e f : Entity ℝ} {o u p v : V3 ℝ} (he : LineLike e o u)
    (hf : LineLike f p v) : SamePlane e f ↔ dot3 (minus o p) (cross3 u v) = 0 := by
  have mem {q : Plane ℝ} (h1 : OnPlane q o) (h2 : OnPlane q p) (h3 : dot3 u q.normal = 0)
      (h4 : dot3 v q.normal = 0) : ∀ x, Has e x ∨ Has f x → OnPlane q x := by
    rintro x (hx | hx)
    · obtain ⟨t, rfl⟩ := he.all x hx
      simp only [OnPlane, minus, along, dot3] at h1 h3 ⊢
      linear_combination h1 + t * h3
    · obtain ⟨t, rfl⟩ := hf.all x hx
      simp only [OnPlane, minus, along, dot3] at h2 h4 ⊢
      linear_combination h2 + t * h4
  constructor
  · rintro ⟨q, hq, h⟩
    obtain ⟨s, hs, h1⟩ := he.other
    obtain ⟨t, ht, h2⟩ := hf.other
    have a0 := h o (.inl he.start)
    have b0 := h p (.inr hf.start)
    have hu := orth_of_onPlane hs a0 (h _ (.inl h1))
    have hv := orth_of_onPlane ht b0 (h _ (.inr h2))
    by_contra hne
    apply hq
    have hw : dot3 (minus o p) q.normal = 0 := by
      simp only [OnPlane, minus, dot3] at a0 b0 ⊢; linear_combination a0 - b0
    have cr : ∀ x : ℝ, dot3 (minus o p) (cross3 u v) * x = 0 → x = 0 :=
      fun x hx => (mul_eq_zero.1 hx).resolve_left hne
    simp only [dot3, minus, cross3] at hu hv hw cr
    ext
    · apply cr
      linear_combination (u.y * v.z - u.z * v.y) * hw + (v.y * (o.z - p.z) - v.z * (o.y - p.y)) * hu +
        ((o.y - p.y) * u.z - (o.z - p.z) * u.y) * hv
    · apply cr
      linear_combination (u.z * v.x - u.x * v.z) * hw + (v.z * (o.x - p.x) - v.x * (o.z - p.z)) * hu +
        ((o.z - p.z) * u.x - (o.x - p.x) * u.z) * hv
    · apply cr
      linear_combination (u.x * v.y - u.y * v.x) * hw + (v.x * (o.y - p.y) - v.y * (o.x - p.x)) * hu +
        ((o.x - p.x) * u.y - (o.y - p.y) * u.x) * hv
  · intro h
    by_cases huv : cross3 u v = ⟨0, 0, 0⟩
    · have hv := cross3_dir he.unit (cross3_swap huv)
      generalize dot3 v u = k at hv
      by_cases hw : cross3 (minus o p) u = ⟨0, 0, 0⟩
      · have hw := cross3_dir he.unit hw
        generalize dot3 (minus o p) u = m at hw
        obtain ⟨a, ha, hau⟩ := exists_orth u
        refine ⟨⟨o, a⟩, ?_, mem ?_ ?_ ?_ ?_⟩
        · rintro rfl
          simp [Unit3] at ha
        · simp [OnPlane, minus, dot3]
        · simp only [minus, V3.mk.injEq] at hw
          obtain ⟨w1, w2, w3⟩ := hw
          simp only [OnPlane, minus, dot3] at hau ⊢
          linear_combination (-a.x) * w1 - a.y * w2 - a.z * w3 - m * hau
        · rw [dot3_comm]; exact hau
        · rw [hv]; simp only [dot3] at hau ⊢; linear_combination k * hau
      · refine ⟨⟨o, cross3 (minus o p) u⟩, hw, mem ?_ ?_ ?_ ?_⟩
        · simp [OnPlane, minus, dot3]
        · simp only [OnPlane, minus, dot3, cross3]; ring
        · simp only [minus, dot3, cross3]; ring
        · rw [hv]; simp only [minus, dot3, cross3]; ring
    · refine ⟨⟨o, cross3 u v⟩, huv, mem ?_ ?_ ?_ ?_⟩
      · simp [OnPlane, minus, dot3]
      · simp only [OnPlane, minus, dot3, cross3] at h ⊢; linear_combination -h
      · simp only [dot3, cross3]; ring
      · simp only [dot3, cross3]; ring

/-- A plane that contains a plane-like set is the plane of that set. -/
theorem Spec.PlaneLike.normal_of {e : Entity ℝ} {c n : V3 ℝ} (he : PlaneLike e c n) {q : Plane ℝ}
    (h : ∀ p, Has e p → OnPlane q p) :
    q.normal = ⟨dot3 q.normal n * n.x, dot3 q.normal n * n.y, dot3 q.normal n * n.z⟩ := by
  obtain ⟨a, b, k, hk, hab, h1, h2⟩ := he.other
  have ha := orth_of_onPlane one_ne_zero (h _ he.start) (h _ h1)
  have hb := orth_of_onPlane one_ne_zero (h _ he.start) (h _ h2)
  refine cross3_dir he.unit ?_
  simp only [cross3, V3.mk.injEq] at hab
  obtain ⟨c1, c2, c3⟩ := hab
  have cr : ∀ x : ℝ, k * x = 0 → x = 0 := fun x hx => (mul_eq_zero.1 hx).resolve_left hk
  simp only [dot3] at ha hb
  simp only [cross3, V3.mk.injEq]
  refine ⟨cr _ ?_, cr _ ?_, cr _ ?_⟩
  · linear_combination (-q.normal.y) * c3 + q.normal.z * c2 + a.x * hb - b.x * ha
  · linear_combination (-q.normal.z) * c1 + q.normal.x * c3 + a.y * hb - b.y * ha
  · linear_combination (-q.normal.x) * c2 + q.normal.y * c1 + a.z * hb - b.z * ha

/-- A line-like and a plane-like set lie in a common plane exactly when the line lies in the plane. -/
theorem Spec.samePlane_line_plane {e f : Entity ℝ} {o u c n : V3 ℝ} (he : LineLike e o u)
    (hf : PlaneLike f c n) : SamePlane e f ↔ dot3 u n = 0 ∧ dot3 n (minus o c) = 0 := by
  constructor
  · rintro ⟨q, hq, h⟩
    have hN := hf.normal_of (q := q) fun p hp => h p (.inr hp)
    obtain ⟨s, hs, h1⟩ := he.other
    have a0 := h o (.inl he.start)
    have hu := orth_of_onPlane hs a0 (h _ (.inl h1))
    have c0 := h c (.inr hf.start)
    have hk : dot3 q.normal n ≠ 0 := by
      intro h0; rw [h0] at hN; apply hq; rw [hN]; simp
    generalize dot3 q.normal n = k at hN hk
    have cr : ∀ x : ℝ, k * x = 0 → x = 0 := fun x hx => (mul_eq_zero.1 hx).resolve_left hk
    simp only [OnPlane, hN, dot3, minus] at hu a0 c0
    refine ⟨cr _ ?_, cr _ ?_⟩ <;> simp only [dot3, minus]
    · linear_combination hu
    · linear_combination a0 - c0
  · rintro ⟨h1, h2⟩
    refine ⟨⟨c, n⟩, ?_, ?_⟩
    · rintro rfl
      have := hf.unit
      simp [Unit3] at this
    · rintro x (hx | hx)
      · obtain ⟨t, rfl⟩ := he.all x hx
        simp only [OnPlane, minus, along, dot3] at h1 h2 ⊢
        linear_combination h2 + t * h1
      · exact hf.all x hx

/-- Two plane-like sets lie in a common plane exactly when their planes agree. -/
theorem Spec.samePlane_planes {e f : Entity ℝ} {c n d m : V3 ℝ} (he : PlaneLike e c n)
    (hf : PlaneLike f d m) :
    SamePlane e f ↔ cross3 n m = ⟨0, 0, 0⟩ ∧ dot3 (minus d c) n = 0 := by
  constructor
  · rintro ⟨q, hq, h⟩
    have hN := he.normal_of (q := q) fun p hp => h p (.inl hp)
    have hM := hf.normal_of (q := q) fun p hp => h p (.inr hp)
    have c0 := h c (.inl he.start)
    have d0 := h d (.inr hf.start)
    have hk : dot3 q.normal n ≠ 0 := by
      intro h0; rw [h0] at hN; apply hq; rw [hN]; simp
    have hl : dot3 q.normal m ≠ 0 := by
      intro h0; rw [h0] at hM; apply hq; rw [hM]; simp
    generalize dot3 q.normal n = k at hN hk
    generalize dot3 q.normal m = l at hM hl
    have cr : ∀ x : ℝ, k * x = 0 → x = 0 := fun x hx => (mul_eq_zero.1 hx).resolve_left hk
    simp only [OnPlane, hN, dot3, minus] at c0 d0
    rw [hM] at hN
    simp only [V3.mk.injEq] at hN
    obtain ⟨e1, e2, e3⟩ := hN
    refine ⟨?_, cr _ ?_⟩
    · simp only [cross3, V3.mk.injEq]
      refine ⟨cr _ ?_, cr _ ?_, cr _ ?_⟩
      · linear_combination m.y * e3 - m.z * e2
      · linear_combination m.z * e1 - m.x * e3
      · linear_combination m.x * e2 - m.y * e1
    · simp only [dot3, minus]
      linear_combination d0 - c0
  · rintro ⟨h1, h2⟩
    have hn := cross3_dir hf.unit h1
    generalize dot3 n m = k at hn
    refine ⟨⟨c, n⟩, ?_, ?_⟩
    · rintro rfl
      have := he.unit
      simp [Unit3] at this
    · rintro x (hx | hx)
      · exact he.all x hx
      · have h3 := hf.all x hx
        rw [hn] at h2
        simp only [OnPlane]
        rw [hn]
        simp only [minus, dot3] at h2 h3 ⊢
        linear_combination h2 + k * h3

/-- Two line-like sets lie on a common line exactly when the second starts on the line of the first and
runs in the same or the opposite direction. -/
theorem Spec.sameLine_lines {e f : Entity ℝ} {o u p v : V3 ℝ} (he : LineLike e o u)
    (hf : LineLike f p v) :
    SameLine e f ↔ cross3 u (minus o p) = ⟨0, 0, 0⟩ ∧ cross3 u v = ⟨0, 0, 0⟩ := by
  constructor
  · rintro ⟨l, h⟩
    obtain ⟨s, hs, h1⟩ := he.other
    obtain ⟨t, ht, h2⟩ := hf.other
    obtain ⟨x0, e0⟩ := h o (.inl he.start)
    obtain ⟨x1, e1⟩ := h _ (.inl h1)
    obtain ⟨y0, f0⟩ := h p (.inr hf.start)
    obtain ⟨y1, f1⟩ := h _ (.inr h2)
    have crs : ∀ x : ℝ, s * x = 0 → x = 0 := fun x hx => (mul_eq_zero.1 hx).resolve_left hs
    have crt : ∀ x : ℝ, t * x = 0 → x = 0 := fun x hx => (mul_eq_zero.1 hx).resolve_left ht
    generalize l.origin = q at e0 e1 f0 f1
    generalize l.direction = d at e0 e1 f0 f1
    rw [e0] at e1 ⊢
    rw [f0] at f1 ⊢
    simp only [along, V3.mk.injEq] at e1 f1
    obtain ⟨a1, a2, a3⟩ := e1
    obtain ⟨b1, b2, b3⟩ := f1
    simp only [cross3, minus, along, V3.mk.injEq]
    refine ⟨⟨crs _ ?_, crs _ ?_, crs _ ?_⟩, crs _ (crt _ ?_), crs _ (crt _ ?_), crs _ (crt _ ?_)⟩
    · linear_combination (x0 - y0) * d.z * a2 - (x0 - y0) * d.y * a3
    · linear_combination (x0 - y0) * d.x * a3 - (x0 - y0) * d.z * a1
    · linear_combination (x0 - y0) * d.y * a1 - (x0 - y0) * d.x * a2
    · linear_combination t * v.z * a2 - t * v.y * a3 + (x1 - x0) * (d.y * b3 - d.z * b2)
    · linear_combination t * v.x * a3 - t * v.z * a1 + (x1 - x0) * (d.z * b1 - d.x * b3)
    · linear_combination t * v.y * a1 - t * v.x * a2 + (x1 - x0) * (d.x * b2 - d.y * b1)
  · rintro ⟨h1, h2⟩
    refine ⟨⟨o, u⟩, ?_⟩
    have hw := cross3_dir he.unit (cross3_swap h1)
    have hv := cross3_dir he.unit (cross3_swap h2)
    generalize dot3 (minus o p) u = m at hw
    generalize dot3 v u = k at hv
    rintro x (hx | hx)
    · exact he.all x hx
    · obtain ⟨t, rfl⟩ := hf.all x hx
      refine ⟨t * k - m, ?_⟩
      simp only [minus, V3.mk.injEq] at hw
      obtain ⟨w1, w2, w3⟩ := hw
      rw [hv]
      simp only [along]
      congr 1
      · linear_combination -w1
      · linear_combination -w2
      · linear_combination -w3

/-! ## The tests for all tolerances -/

theorem Rel.parV_all {a b : V3 ℝ} :
    (∀ tol > 0, Rel.parV a b tol = true) ↔ cross3 a b = ⟨0, 0, 0⟩ := by
  unfold Rel.parV Inter.isParallel Scalar.isApprox
  simp only [real_lt, real_abs, real_sub, real_zero, sub_zero, decide_eq_true_eq,
    abs_of_nonneg (V3.norm_nonneg _), V3.cross_eq3]
  rw [← V3.norm_eq_zero]
  constructor
  · intro h
    by_contra h0
    exact lt_irrefl _ (h _ (lt_of_le_of_ne (V3.norm_nonneg _) (Ne.symm h0)))
  · intro h tol ht; rwa [h]

theorem V3.isOrthogonal_all {a b : V3 ℝ} :
    (∀ tol > 0, V3.isOrthogonal a b tol = true) ↔ dot3 a b = 0 := by
  unfold V3.isOrthogonal
  simp only [real_le, real_mul, V3.dot_eq, decide_eq_true_eq]
  constructor
  · intro h
    by_contra h0
    have hA := V3.sqNorm_nonneg a
    have hB := V3.sqNorm_nonneg b
    generalize dot3 a b = d at h h0
    generalize V3.sqNorm a = A at h hA
    generalize V3.sqNorm b = B at h hB
    have hM : 0 < A * B + 1 := by positivity
    have h1 := h (|d| / (A * B + 1)) (by positivity)
    rw [div_mul_div_comm, abs_mul_abs_self, mul_assoc, div_mul_eq_mul_div, le_div_iff₀ (by positivity)] at h1
    have h2 : 0 < d * d := mul_self_pos.2 h0
    have h3 := le_of_mul_le_mul_left h1 h2
    nlinarith [mul_nonneg hA hB]
  · intro h tol ht
    rw [h]
    have := V3.sqNorm_nonneg a
    have := V3.sqNorm_nonneg b
    simp
    positivity

theorem Scalar.isApprox_all {a : ℝ} : (∀ tol > 0, Scalar.isApprox a zero tol = true) ↔ a = 0 := by
  unfold Scalar.isApprox
  simp only [real_lt, real_abs, real_sub, real_zero, sub_zero, decide_eq_true_eq]
  constructor
  · intro h
    by_contra h0
    exact lt_irrefl _ (h _ (abs_pos.2 h0))
  · rintro rfl tol ht; simpa using ht

theorem Rel.and_all {f g : ℝ → Bool} : (∀ tol > 0, (f tol && g tol) = true) ↔
    (∀ tol > 0, f tol = true) ∧ ∀ tol > 0, g tol = true := by
  simp only [Bool.and_eq_true]
  exact ⟨fun h => ⟨fun t ht => (h t ht).1, fun t ht => (h t ht).2⟩, fun h t ht => ⟨h.1 t ht, h.2 t ht⟩⟩

theorem Spec.SamePlane.swap {a b : Entity ℝ} : SamePlane a b ↔ SamePlane b a := by
  unfold SamePlane; simp only [or_comm]
theorem Spec.SameLine.swap {a b : Entity ℝ} : SameLine a b ↔ SameLine b a := by
  unfold SameLine; simp only [or_comm]

theorem Rel.cop_lines {e f : Entity ℝ} {o u p v : V3 ℝ} (he : LineLike e o u) (hf : LineLike f p v) :
    (∀ tol > 0, V3.isOrthogonal (V3.sub o p) (V3.cross u v) tol = true) ↔ SamePlane e f := by
  rw [samePlane_lines he hf, V3.isOrthogonal_all, V3.sub_eq3, V3.cross_eq3]

theorem Rel.cop_line_plane {e f : Entity ℝ} {o u c n : V3 ℝ} (he : LineLike e o u)
    (hf : PlaneLike f c n) :
    (∀ tol > 0, (V3.isOrthogonal u n tol && V3.isOrthogonal n (V3.sub o c) tol) = true) ↔
      SamePlane e f := by
  rw [samePlane_line_plane he hf, Rel.and_all, V3.isOrthogonal_all, V3.isOrthogonal_all, V3.sub_eq3]

theorem Rel.cop_planes {e f : Entity ℝ} {q r : Plane ℝ} (he : PlaneLike e q.origin q.normal)
    (hf : PlaneLike f r.origin r.normal) :
    (∀ tol > 0, Rel.copPlanePlane q r tol = true) ↔ SamePlane e f := by
  unfold Rel.copPlanePlane Plane.signedDistance
  rw [samePlane_planes he hf, Rel.and_all, Rel.parV_all, Scalar.isApprox_all, V3.sub_eq3, V3.dot_eq]

/-- **C69.** Two entities with a direction or a normal are coplanar for every positive tolerance exactly
when some plane contains all points of both. -/
theorem C69_coplanar (a b : Entity ℝ) (ha : Proper a) (hb : Proper b)
    (ka : attitude a ≠ none) (kb : attitude b ≠ none) :
    (∀ tol > 0, Rel.coplanar a b tol = true) ↔ SamePlane a b := by
  cases a with
  | none => exact absurd rfl ka
  | point => exact absurd rfl ka
  | line x =>
    cases b with
    | none => exact absurd rfl kb
    | point => exact absurd rfl kb
    | line y => exact Rel.cop_lines (.line ha) (.line hb)
    | ray y => exact Rel.cop_lines (.line ha) (.ray hb)
    | plane y => exact Rel.cop_line_plane (.line ha) (.plane hb)
    | segment y => exact Rel.cop_lines (.line ha) (.segment hb)
    | triangle y => exact Rel.cop_line_plane (.line ha) (.triangle hb)
    | disk y => exact Rel.cop_line_plane (.line ha) (.disk hb)
    | ball => exact absurd rfl kb
  | ray x =>
    cases b with
    | none => exact absurd rfl kb
    | point => exact absurd rfl kb
    | line y => exact (Rel.cop_lines (.line hb) (.ray ha)).trans Spec.SamePlane.swap
    | ray y => exact Rel.cop_lines (.ray ha) (.ray hb)
    | plane y => exact Rel.cop_line_plane (.ray ha) (.plane hb)
    | segment y => exact Rel.cop_lines (.ray ha) (.segment hb)
    | triangle y => exact Rel.cop_line_plane (.ray ha) (.triangle hb)
    | disk y => exact Rel.cop_line_plane (.ray ha) (.disk hb)
    | ball => exact absurd rfl kb
  | plane x =>
    cases b with
    | none => exact absurd rfl kb
    | point => exact absurd rfl kb
    | line y => exact (Rel.cop_line_plane (.line hb) (.plane ha)).trans Spec.SamePlane.swap
    | ray y => exact (Rel.cop_line_plane (.ray hb) (.plane ha)).trans Spec.SamePlane.swap
    | plane y => exact Rel.cop_planes (.plane ha) (.plane hb)
    | segment y => exact (Rel.cop_line_plane (.segment hb) (.plane ha)).trans Spec.SamePlane.swap
    | triangle y => exact Rel.cop_planes (.plane ha) (.triangle hb)
    | disk y => exact Rel.cop_planes (.plane ha) (.disk hb)
    | ball => exact absurd rfl kb
  | segment x =>
    cases b with
    | none => exact absurd rfl kb
    | point => exact absurd rfl kb
    | line y => exact (Rel.cop_lines (.line hb) (.segment ha)).trans Spec.SamePlane.swap
    | ray y => exact (Rel.cop_lines (.ray hb) (.segment ha)).trans Spec.SamePlane.swap
    | plane y => exact Rel.cop_line_plane (.segment ha) (.plane hb)
    | segment y => exact Rel.cop_lines (.segment ha) (.segment hb)
    | triangle y => exact Rel.cop_line_plane (.segment ha) (.triangle hb)
    | disk y => exact Rel.cop_line_plane (.segment ha) (.disk hb)
    | ball => exact absurd rfl kb
  | triangle x =>
    cases b with
    | none => exact absurd rfl kb
    | point => exact absurd rfl kb
    | line y => exact (Rel.cop_line_plane (.line hb) (.triangle ha)).trans Spec.SamePlane.swap
    | ray y => exact (Rel.cop_line_plane (.ray hb) (.triangle ha)).trans Spec.SamePlane.swap
    | plane y => exact (Rel.cop_planes (.plane hb) (.triangle ha)).trans Spec.SamePlane.swap
    | segment y => exact (Rel.cop_line_plane (.segment hb) (.triangle ha)).trans Spec.SamePlane.swap
    | triangle y => exact Rel.cop_planes (.triangle ha) (.triangle hb)
    | disk y => exact Rel.cop_planes (.triangle ha) (.disk hb)
    | ball => exact absurd rfl kb
  | disk x =>
    cases b with
    | none => exact absurd rfl kb
    | point => exact absurd rfl kb
    | line y => exact (Rel.cop_line_plane (.line hb) (.disk ha)).trans Spec.SamePlane.swap
    | ray y => exact (Rel.cop_line_plane (.ray hb) (.disk ha)).trans Spec.SamePlane.swap
    | plane y => exact (Rel.cop_planes (.plane hb) (.disk ha)).trans Spec.SamePlane.swap
    | segment y => exact (Rel.cop_line_plane (.segment hb) (.disk ha)).trans Spec.SamePlane.swap
    | triangle y => exact (Rel.cop_planes (.triangle hb) (.disk ha)).trans Spec.SamePlane.swap
    | disk y => exact Rel.cop_planes (.disk ha) (.disk hb)
    | ball => exact absurd rfl kb
  | ball => exact absurd rfl ka

/-- Two unit vectors `u`, `v` and points `o`, `p`: the lines through them come as close as `tol` times
the distance of `o` and `p` exactly when the relative triple product is at most `tol`. -/
theorem V3.isOrthogonal_lines (o u p v : V3 ℝ) (tol : ℝ) (ht : 0 ≤ tol) :
    V3.isOrthogonal (V3.sub o p) (V3.cross u v) tol = true ↔ cross3 u v = ⟨0, 0, 0⟩ ∨
      ∃ s t, dist3 (along o s u) (along p t v) ≤ tol * dist3 o p := by
  have e1 : V3.isOrthogonal (V3.sub o p) (V3.cross u v) tol = true ↔
      dot3 (minus o p) (cross3 u v) ^ 2 ≤ tol ^ 2 * dist3 o p ^ 2 * dot3 (cross3 u v) (cross3 u v) := by
    unfold V3.isOrthogonal
    rw [← V3.norm_mul_self, V3.norm_sub, V3.sub_eq3, V3.cross_eq3]
    simp only [real_le, real_mul, V3.dot_eq, decide_eq_true_eq, V3.sqNorm]
    refine iff_of_eq ?_
    congr 1 <;> ring
  have dd : dot3 (cross3 u v) (cross3 u v) = 0 ↔ cross3 u v = ⟨0, 0, 0⟩ := by
    rw [← V3.sqNorm_eq_zero, V3.sqNorm, V3.dot_eq]
  have dp : 0 ≤ dot3 (cross3 u v) (cross3 u v) := by
    have := V3.sqNorm_nonneg (cross3 u v)
    rwa [V3.sqNorm, V3.dot_eq] at this
  rw [e1]
  constructor
  · intro h
    by_cases h0 : cross3 u v = ⟨0, 0, 0⟩
    · exact .inl h0
    refine .inr ?_
    have hp : 0 < dot3 (cross3 u v) (cross3 u v) := lt_of_le_of_ne dp (fun h => h0 (dd.1 h.symm))
    obtain ⟨d1, d2, d3⟩ := V3.decomp u v (minus o p)
    rw [V3.cross_eq3] at d1 d2 d3
    generalize dot3 (minus o p) u * dot3 v v - dot3 (minus o p) v * dot3 u v = A at d1 d2 d3
    generalize dot3 (minus o p) v * dot3 u u - dot3 (minus o p) u * dot3 u v = B at d1 d2 d3
    refine ⟨-A / dot3 (cross3 u v) (cross3 u v), B / dot3 (cross3 u v) (cross3 u v), ?_⟩
    rw [← sq_le_sq₀ (dist3_nonneg _ _) (mul_nonneg ht (dist3_nonneg _ _)), mul_pow, dist3_sq]
    generalize hN : cross3 u v = N at *
    generalize hD : dot3 N N = D at *
    generalize dot3 (minus o p) N = k at *
    generalize tol ^ 2 * dist3 o p ^ 2 = R at *
    simp only [along]
    have c (x y a b n : ℝ) (h : D * (x - y) = k * n + A * a + B * b) :
        x + -A / D * a - (y + B / D * b) = k * n / D := by
      field_simp
      linear_combination h
    rw [c _ _ _ _ _ d1, c _ _ _ _ _ d2, c _ _ _ _ _ d3]
    have : (k * N.x / D) ^ 2 + (k * N.y / D) ^ 2 + (k * N.z / D) ^ 2 = k ^ 2 / D := by
      simp only [dot3] at hD
      field_simp
      linear_combination k ^ 2 * hD
    rw [this, div_le_iff₀ hp]
    exact h
  · rintro (h | ⟨s, t, h⟩)
    · rw [h]; simp [dot3]
    · rw [← sq_le_sq₀ (dist3_nonneg _ _) (mul_nonneg ht (dist3_nonneg _ _)), mul_pow] at h
      refine le_trans ?_ (mul_le_mul_of_nonneg_right h dp)
      rw [dist3_sq]
      have hw : dot3 (minus o p) (cross3 u v) = dot3 (minus (along o s u) (along p t v)) (cross3 u v) := by
        simp only [dot3, minus, along, cross3]; ring
      rw [hw]
      have cs (x n : V3 ℝ) : dot3 x n ^ 2 ≤ (x.x ^ 2 + x.y ^ 2 + x.z ^ 2) * dot3 n n := by
        simp only [dot3]
        nlinarith [sq_nonneg (x.x * n.y - x.y * n.x), sq_nonneg (x.y * n.z - x.z * n.y),
          sq_nonneg (x.z * n.x - x.x * n.z)]
      exact cs _ _

/-- **C69.** Two entities that run along a line are coplanar for a tolerance exactly when they are
parallel, or the lines carrying them come as close to each other as the tolerance times the distance of
their starts. -/
theorem C69_lines (a b : Entity ℝ) (o u p v : V3 ℝ) (ha : carrier a = some (o, u))
    (hb : carrier b = some (p, v)) (tol : ℝ) (ht : 0 ≤ tol) :
    Rel.coplanar a b tol = true ↔ cross3 u v = ⟨0, 0, 0⟩ ∨
      ∃ s t, dist3 (along o s u) (along p t v) ≤ tol * dist3 o p := by
  have sw : V3.isOrthogonal (V3.sub p o) (V3.cross v u) tol =
      V3.isOrthogonal (V3.sub o p) (V3.cross u v) tol := by
    unfold V3.isOrthogonal
    simp only [V3.sqNorm, V3.dot_eq, V3.sub_eq3, V3.cross_eq3, dot3, minus, cross3, real_le, real_mul]
    rw [decide_eq_decide]
    refine iff_of_eq ?_
    congr 1 <;> ring
  rw [← V3.isOrthogonal_lines o u p v tol ht]
  cases a <;> simp only [carrier, Option.some.injEq, Prod.mk.injEq, reduceCtorEq] at ha <;>
    obtain ⟨rfl, rfl⟩ := ha <;>
    cases b <;> simp only [carrier, Option.some.injEq, Prod.mk.injEq, reduceCtorEq] at hb <;>
    obtain ⟨rfl, rfl⟩ := hb <;>
    try simp only [← Segment.unit_eq] at sw ⊢
  all_goals first | exact Iff.rfl | exact iff_of_eq (congrArg (· = true) sw)

/-- **C69.** A point, a ball and the empty entity are coplanar with nothing, for no tolerance. -/
theorem C69_other {α : Type} [Scalar α] (a b : Entity α) (tol : α)
    (h : a.isPoint = true ∨ a.isBall = true ∨ a.isNone = true ∨
      b.isPoint = true ∨ b.isBall = true ∨ b.isNone = true) : Rel.coplanar a b tol = false := by
  cases a <;> cases b <;> first | rfl | (simp [Entity.isPoint, Entity.isBall, Entity.isNone] at h)

/-- **C68.** Two entities that run along a line, not both rays, are collinear for every positive
tolerance exactly when some line contains all points of both. -/
theorem C68_same_line_partial (a b : Entity ℝ) (ha : Proper a) (hb : Proper b)
    (ka : carrier a ≠ none) (kb : carrier b ≠ none) (hr : ¬ (a.isRay = true ∧ b.isRay = true)) :
    (∀ tol > 0, Rel.collinear a b tol = true) ↔ SameLine a b := by
  have key {e f : Entity ℝ} {o u p v : V3 ℝ} (he : LineLike e o u) (hf : LineLike f p v) :
      (∀ tol > 0, (Rel.parV u (V3.sub o p) tol && Rel.parV u v tol) = true) ↔ SameLine e f := by
    rw [sameLine_lines he hf, Rel.and_all, Rel.parV_all, Rel.parV_all, V3.sub_eq3]
  cases a with
  | none => exact absurd rfl ka
  | point => exact absurd rfl ka
  | line x =>
    cases b with
    | none => exact absurd rfl kb
    | point => exact absurd rfl kb
    | line y => exact key (.line ha) (.line hb)
    | ray y => exact key (.line ha) (.ray hb)
    | plane => exact absurd rfl kb
    | segment y => exact key (.line ha) (.segment hb)
    | triangle => exact absurd rfl kb
    | disk => exact absurd rfl kb
    | ball => exact absurd rfl kb
  | ray x =>
    cases b with
    | none => exact absurd rfl kb
    | point => exact absurd rfl kb
    | line y => exact (key (.line hb) (.ray ha)).trans Spec.SameLine.swap
    | ray y => exact absurd ⟨rfl, rfl⟩ hr
    | plane => exact absurd rfl kb
    | segment y => exact key (.ray ha) (.segment hb)
    | triangle => exact absurd rfl kb
    | disk => exact absurd rfl kb
    | ball => exact absurd rfl kb
  | plane => exact absurd rfl ka
  | segment x =>
    cases b with
    | none => exact absurd rfl kb
    | point => exact absurd rfl kb
    | line y => exact (key (.line hb) (.segment ha)).trans Spec.SameLine.swap
    | ray y => exact (key (.ray hb) (.segment ha)).trans Spec.SameLine.swap
    | plane => exact absurd rfl kb
    | segment y => exact key (.segment ha) (.segment hb)
    | triangle => exact absurd rfl kb
    | disk => exact absurd rfl kb
    | ball => exact absurd rfl kb
  | triangle => exact absurd rfl ka
  | disk => exact absurd rfl ka
  | ball => exact absurd rfl ka

/-! ## Concrete cases -/

/-- A triangle, a disk and a line in the plane `z = 1`: pairwise coplanar for every tolerance. -/
example : let a : Entity ℝ := .triangle ⟨⟨0, 0, 1⟩, ⟨1, 0, 1⟩, ⟨0, 1, 1⟩⟩
    let b : Entity ℝ := .disk ⟨2, ⟨⟨5, 5, 1⟩, ⟨0, 0, -1⟩⟩⟩
    ∀ tol > 0, Rel.coplanar a b tol = true := by
  intro a b
  have ha : Proper a := by simp [a, Proper, cross3, minus]
  have hb : Proper b := by simp [b, Proper, Unit3]
  refine (C69_coplanar a b ha hb (by simp [a, attitude]) (by simp [b, attitude])).2 ?_
  refine ⟨⟨⟨0, 0, 1⟩, ⟨0, 0, 1⟩⟩, by simp, ?_⟩
  rintro p (⟨x, y, z, -, -, -, h, rfl⟩ | ⟨h, -⟩)
  · simp [OnPlane, dot3, minus]; linarith
  · simp [OnPlane, dot3, minus] at h ⊢; linarith

/-- A segment and a line that cross in a point: coplanar, not collinear. -/
example : let a : Entity ℝ := .segment ⟨⟨0, 0, 0⟩, ⟨2, 0, 0⟩⟩
    let b : Entity ℝ := .line ⟨⟨1, -1, 0⟩, ⟨0, 1, 0⟩⟩
    SamePlane a b ∧ ¬ SameLine a b ∧ ¬ ∀ tol > 0, Rel.collinear a b tol = true := by
  intro a b
  have ha : Proper a := by simp [a, Proper]
  have hb : Proper b := by simp [b, Proper, Unit3]
  have hn : ¬ SameLine a b := by
    rintro ⟨l, h⟩
    obtain ⟨t0, e0⟩ := h ⟨0, 0, 0⟩ (.inl ⟨0, le_rfl, zero_le_one, by simp [along]⟩)
    obtain ⟨t1, e1⟩ := h ⟨2, 0, 0⟩ (.inl ⟨1, zero_le_one, le_rfl, by simp [along, minus]⟩)
    obtain ⟨t2, e2⟩ := h ⟨1, -1, 0⟩ (.inr ⟨0, by simp [along]⟩)
    simp only [along, V3.mk.injEq] at e0 e1 e2
    obtain ⟨x0, y0, -⟩ := e0
    obtain ⟨x1, y1, -⟩ := e1
    obtain ⟨x2, y2, -⟩ := e2
    have a1 : (t1 - t0) * l.direction.x = 2 := by linarith
    have a2 : (t1 - t0) * l.direction.y = 0 := by linarith
    have b1 : (t2 - t0) * l.direction.x = 1 := by linarith
    have b2 : (t2 - t0) * l.direction.y = -1 := by linarith
    have : ((t1 - t0) * l.direction.x) * ((t2 - t0) * l.direction.y) =
      ((t1 - t0) * l.direction.y) * ((t2 - t0) * l.direction.x) := by ring
    rw [a1, a2, b1, b2] at this
    norm_num at this
  refine ⟨⟨⟨⟨0, 0, 0⟩, ⟨0, 0, 1⟩⟩, by simp, ?_⟩, hn, fun h => hn ?_⟩
  · rintro p (⟨t, -, -, rfl⟩ | ⟨t, rfl⟩) <;> simp [OnPlane, dot3, minus, along]
  · exact (C68_same_line_partial a b ha hb (by simp [a, carrier]) (by simp [b, carrier])
      (by simp [a, Entity.isRay])).1 h

end Enve
