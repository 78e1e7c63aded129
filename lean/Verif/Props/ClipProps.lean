import Verif.Props.DispatchProps

/-! # C76: entities on one line -/

namespace Enve
open Scalar Spec

/-- `k u`. -/
def Spec.times (k : ℝ) (u : V3 ℝ) : V3 ℝ := ⟨k * u.x, k * u.y, k * u.z⟩

/-- Two line-like sets on a common line: the second starts at some coordinate and runs forward or
backward. -/
theorem Spec.axis {o u p v : V3 ℝ} (hu : Unit3 u) (hv : Unit3 v)
    (h1 : cross3 u (minus o p) = ⟨0, 0, 0⟩) (h2 : cross3 u v = ⟨0, 0, 0⟩) :
    ∃ k σ : ℝ, σ ^ 2 = 1 ∧ p = along o k u ∧ v = times σ u := by
  have hw := cross3_dir hu (cross3_swap h1)
  have hv' := cross3_dir hu (cross3_swap h2)
  refine ⟨-dot3 (minus o p) u, dot3 v u, ?_, ?_, hv'⟩
  · generalize dot3 v u = k at hv'
    unfold Unit3 at hu hv
    rw [hv'] at hv
    linear_combination hv - k ^ 2 * hu
  · generalize dot3 (minus o p) u = m at hw
    simp only [minus, V3.mk.injEq] at hw
    ext <;> simp only [along] <;> linarith [hw.1, hw.2.1, hw.2.2]

theorem Spec.unit_ne {u : V3 ℝ} (hu : Unit3 u) : u ≠ ⟨0, 0, 0⟩ := by
  rintro rfl; simp [Unit3] at hu

theorem Spec.sign_cases {σ : ℝ} (h : σ ^ 2 = 1) : σ = 1 ∨ σ = -1 := by
  have : (σ - 1) * (σ + 1) = 0 := by linear_combination h
  rcases mul_eq_zero.1 this with h | h
  · exact .inl (by linarith)
  · exact .inr (by linarith)

theorem Spec.axis_ray {o u : V3 ℝ} {k σ : ℝ} (hσ : σ ^ 2 = 1) (p : V3 ℝ) :
    OnRay ⟨along o k u, times σ u⟩ p ↔ ∃ s, 0 ≤ σ * (s - k) ∧ p = along o s u := by
  constructor
  · rintro ⟨t, h0, rfl⟩
    refine ⟨k + σ * t, ?_, by simp only [along, times]; congr 1 <;> ring⟩
    have : σ * (k + σ * t - k) = t := by linear_combination t * hσ
    rw [this]; exact h0
  · rintro ⟨s, h0, rfl⟩
    refine ⟨σ * (s - k), h0, ?_⟩
    simp only [along, times]
    congr 1
    · linear_combination (-(s - k)) * u.x * hσ
    · linear_combination (-(s - k)) * u.y * hσ
    · linear_combination (-(s - k)) * u.z * hσ

theorem Spec.axis_seg {o u : V3 ℝ} {α β : ℝ} (p : V3 ℝ) :
    OnSegment ⟨along o α u, along o β u⟩ p ↔
      ∃ s, Min.min α β ≤ s ∧ s ≤ Max.max α β ∧ p = along o s u := by
  rcases le_total α β with h | h
  · rw [min_eq_left h, max_eq_right h]; exact seg_param o u h p
  · rw [min_eq_right h, max_eq_left h, ← seg_param o u h p]
    constructor
    · rintro ⟨t, h0, h1, rfl⟩
      exact ⟨1 - t, by linarith, by linarith, by simp only [along, minus]; congr 1 <;> ring⟩
    · rintro ⟨t, h0, h1, rfl⟩
      exact ⟨1 - t, by linarith, by linarith, by simp only [along, minus]; congr 1 <;> ring⟩

theorem Spec.axis_dist {o u : V3 ℝ} (hu : Unit3 u) (s t : ℝ) :
    dist3 (along o s u) (along o t u) = |s - t| := by
  rw [← sq_eq_sq₀ (dist3_nonneg _ _) (abs_nonneg _), sq_abs, dist3_sq]
  unfold Unit3 at hu
  simp only [along]; linear_combination (s - t) ^ 2 * hu

theorem Spec.axis_ray_inside {o u : V3 ℝ} (hu : Unit3 u) {k σ : ℝ} (hσ : σ ^ 2 = 1) {tol : ℝ}
    (ht : 0 < tol) (s : ℝ) :
    (⟨along o k u, times σ u⟩ : Ray ℝ).isInside (along o s u) tol = true ↔ 0 ≤ σ * (s - k) := by
  have hv : Unit3 (times σ u) := by
    unfold Unit3 at hu ⊢
    simp only [times]; linear_combination σ ^ 2 * hu + hσ
  have hx : cross3 (minus (along o s u) (along o k u)) (times σ u) = ⟨0, 0, 0⟩ := by
    simp only [cross3, minus, along, times]; congr 1 <;> ring
  have hall := Ray.isInside_all (r := ⟨along o k u, times σ u⟩) hv (along o s u)
  have heq : (⟨along o k u, times σ u⟩ : Ray ℝ).isInside (along o s u) tol = true ↔
      ∀ e > 0, (⟨along o k u, times σ u⟩ : Ray ℝ).isInside (along o s u) e = true := by
    refine ⟨fun h e he => ?_, fun h => h tol ht⟩
    unfold Ray.isInside at h ⊢
    rw [Bool.and_eq_true] at h ⊢
    refine ⟨?_, h.2⟩
    rw [V3.normalized_eq3, V3.sub_eq3]
    exact isApprox_norm_all.2 ((cross3_unit3_left _ _).2 hx) e he
  rw [heq, hall, axis_ray hσ]
  constructor
  · rintro ⟨s', h, e⟩
    rwa [along_inj (unit_ne hu) e]
  · intro h
    exact ⟨s, h, rfl⟩

theorem Spec.axis_seg_inside {o u : V3 ℝ} (hu : Unit3 u) {α β tol : ℝ} (s : ℝ) :
    (⟨along o α u, along o β u⟩ : Segment ℝ).isInside (along o s u) tol = true ↔
      |(|α - β| - |s - α| - |s - β|)| ≤ tol := by
  unfold Segment.isInside Segment.length
  simp only [V3.norm_sub, real_sub, real_abs, real_le, decide_eq_true_eq, axis_dist hu]

theorem Spec.inside_iff {α β tol : ℝ} (ht : 0 ≤ tol) (s : ℝ) :
    |(|α - β| - |s - α| - |s - β|)| ≤ tol ↔
      Min.min α β - tol / 2 ≤ s ∧ s ≤ Max.max α β + tol / 2 := by
  rcases le_total α β with h | h
  · rw [min_eq_left h, max_eq_right h, abs_of_nonpos (by linarith : α - β ≤ 0)]
    rcases le_total s α with h1 | h1 <;> rcases le_total s β with h2 | h2 <;>
      simp only [abs_of_nonpos, abs_of_nonneg, sub_nonpos, sub_nonneg, h1, h2, abs_le] <;>
      constructor <;> intro h3 <;> constructor <;> linarith
  · rw [min_eq_right h, max_eq_left h, abs_of_nonneg (by linarith : 0 ≤ α - β)]
    rcases le_total s α with h1 | h1 <;> rcases le_total s β with h2 | h2 <;>
      simp only [abs_of_nonpos, abs_of_nonneg, sub_nonpos, sub_nonneg, h1, h2, abs_le] <;>
      constructor <;> intro h3 <;> constructor <;> linarith

/-- The coordinates of a segment on the axis. -/
theorem Spec.axis_segment {o u : V3 ℝ} (hu : Unit3 u) {s : Segment ℝ} (hs : s.v0 ≠ s.v1)
    (h1 : cross3 u (minus o s.v0) = ⟨0, 0, 0⟩) (h2 : cross3 u s.toUnitVector = ⟨0, 0, 0⟩) :
    ∃ α β : ℝ, s = ⟨along o α u, along o β u⟩ := by
  have hv := minus_ne hs
  rw [Segment.unit_eq] at h2
  obtain ⟨k, σ, -, e1, e2⟩ := axis hu (unit3_unit hv) h1 h2
  refine ⟨k, k + length3 (minus s.v1 s.v0) * σ, ?_⟩
  have e3 := along_unit3 s.v0 (minus s.v1 s.v0) 1 hv
  have e4 : along s.v0 1 (minus s.v1 s.v0) = s.v1 := by simp [along, minus]
  rw [e4] at e3
  generalize length3 (minus s.v1 s.v0) = L at e3 ⊢
  rw [e2, e1] at e3
  obtain ⟨v0, v1⟩ := s
  dsimp only at *
  rw [e1]
  congr 1
  rw [e3]
  simp only [along, times]
  congr 1 <;> ring

theorem Spec.SameLine.collinear {a b : Entity ℝ} (ha : Proper a) (hb : Proper b)
    (ka : carrier a ≠ none) (kb : carrier b ≠ none) (hr : ¬ (a.isRay = true ∧ b.isRay = true))
    (h : SameLine a b) {tol : ℝ} (ht : 0 < tol) : Rel.collinear a b tol = true :=
  (C68_same_line_partial a b ha hb ka kb hr).2 h tol ht

theorem Inter.entity_onLine {α : Type} [Scalar α] (a b : Entity α) (tol : α) (ha : a.isPoint = false)
    (hb : b.isPoint = false) (hl : Rel.collinear a b eps = true) :
    Inter.entity a b tol = Inter.onLine a b tol := by
  simp only [Inter.entity, ha, hb, hl, Bool.or_self, Bool.false_eq_true, if_false, if_true]

/-- What is on a common line with a line is on that line. -/
theorem Spec.SameLine.sub {l : Line ℝ} {b : Entity ℝ} (hl : Proper (.line l)) (hb : Proper b)
    (kb : carrier b ≠ none) (h : SameLine (.line l) b) (p : V3 ℝ) (hp : Has b p) : OnLine l p := by
  obtain ⟨q, v, lb⟩ := carrier_like hb kb
  obtain ⟨h1, h2⟩ := (sameLine_lines (.line hl) lb).1 h
  obtain ⟨k, σ, -, e1, e2⟩ := axis hl lb.unit h1 h2
  obtain ⟨t, rfl⟩ := lb.all p hp
  exact ⟨k + t * σ, by rw [e1, e2]; simp only [along, times]; congr 1 <;> ring⟩

theorem Inter.clip_line {l : Line ℝ} {b : Entity ℝ} (hl : Proper (.line l)) (hb : Proper b)
    (kb : carrier b ≠ none) (h : SameLine (.line l) b) {tol : ℝ} (ht : 0 < tol) :
    ∃ x, Inter.entity (.line l) b tol = .ok x ∧ ∀ p, Has x p ↔ Has (.line l) p ∧ Has b p := by
  have hc {e : ℝ} (he : 0 < e) : Rel.collinear (.line l) b e = true :=
    h.collinear hl hb (by simp [carrier]) kb (fun h => by cases h.1) he
  have hs := h.sub hl hb kb
  have hh := hc ht
  rcases b with _ | _ | m | r | _ | s | _ | _ | _ <;> first | exact absurd rfl kb | skip
  · rw [Inter.entity_onLine _ _ _ rfl rfl (hc real_eps_pos)]
    have hh : Rel.colLineLine l m tol = true := hh
    refine ⟨.line l, by simp only [Inter.onLine, Inter.lineLineLine, hh, if_true, Inter.out], ?_⟩
    refine fun p => ⟨fun hp => ⟨hp, ?_⟩, fun hp => hp.1⟩
    exact (SameLine.swap.1 h).sub hb hl (by simp [carrier]) p hp
  · rw [Inter.entity_onLine _ _ _ rfl rfl (hc real_eps_pos)]
    have hh : Rel.colLineRay l r tol = true := hh
    refine ⟨.ray r, by simp only [Inter.onLine, Inter.lineRayRay, hh, if_true, Inter.out], ?_⟩
    exact fun p => ⟨fun hp => ⟨hs p hp, hp⟩, fun hp => hp.2⟩
  · rw [Inter.entity_onLine _ _ _ rfl rfl (hc real_eps_pos)]
    have hh : Rel.colLineSeg l s tol = true := hh
    refine ⟨.segment s, by simp only [Inter.onLine, Inter.lineSegSeg, hh, if_true, Inter.out], ?_⟩
    exact fun p => ⟨fun hp => ⟨hs p hp, hp⟩, fun hp => hp.2⟩

theorem Spec.ray_axis (r : Ray ℝ) : r = ⟨along r.origin 0 r.direction, times 1 r.direction⟩ := by
  obtain ⟨o, u⟩ := r
  congr 1
  · simp [along]
  · simp [times]

theorem Inter.clip_ray_segment {r : Ray ℝ} {s : Segment ℝ} (hr : Proper (.ray r))
    (hs : Proper (.segment s)) (h : SameLine (.ray r) (.segment s)) {tol : ℝ} (ht : 0 < tol) :
    ∃ x, Inter.entity (.ray r) (.segment s) tol = .ok x ∧
      ∀ p, Has x p ↔ Has (.ray r) p ∧ Has (.segment s) p := by
  have hc {e : ℝ} (he : 0 < e) : Rel.collinear (.ray r) (.segment s) e = true :=
    h.collinear hr hs (by simp [carrier]) (by simp [carrier]) (fun h => by cases h.2) he
  obtain ⟨h1, h2⟩ := (sameLine_lines (.ray hr) (.segment hs)).1 h
  rw [Inter.entity_onLine _ _ _ rfl rfl (hc real_eps_pos)]
  have hh : Rel.colRaySeg r s tol = true := hc ht
  simp only [Inter.onLine, Inter.raySegSeg, hh, if_true]
  obtain ⟨α, β, e⟩ := axis_segment hr hs h1 h2
  have hu : Unit3 r.direction := hr
  have er := ray_axis r
  have hray (p) : Has (.ray r) p ↔ ∃ t, 0 ≤ t ∧ p = along r.origin t r.direction := Iff.rfl
  have hseg (p) : Has (.segment s) p ↔ ∃ t, Min.min α β ≤ t ∧ t ≤ Max.max α β ∧
      p = along r.origin t r.direction := by rw [e]; exact axis_seg p
  have hand (p) : Has (.ray r) p ∧ Has (.segment s) p ↔
      ∃ t, (0 ≤ t ∧ Min.min α β ≤ t ∧ t ≤ Max.max α β) ∧ p = along r.origin t r.direction := by
    rw [hray, hseg]
    constructor
    · rintro ⟨⟨t, h0, e1⟩, t', h1, h2, e2⟩
      obtain rfl := along_inj (unit_ne hu) (e1.symm.trans e2)
      exact ⟨t, ⟨h0, h1, h2⟩, e1⟩
    · rintro ⟨t, ⟨h0, h1, h2⟩, e1⟩
      exact ⟨⟨t, h0, e1⟩, t, h1, h2, e1⟩
  have hin (t : ℝ) : r.isInside (along r.origin t r.direction) tol = true ↔ 0 ≤ t := by
    have := axis_ray_inside (o := r.origin) hu (k := 0) (σ := 1) (by norm_num) ht t
    rw [← er] at this
    rw [this]; simp
  have i0 : r.isInside s.v0 tol = true ↔ 0 ≤ α := by rw [e]; exact hin α
  have i1 : r.isInside s.v1 tol = true ↔ 0 ≤ β := by rw [e]; exact hin β
  have es (t : ℝ) : (⟨r.origin, along r.origin t r.direction⟩ : Segment ℝ) =
      ⟨along r.origin 0 r.direction, along r.origin t r.direction⟩ := by simp [along]
  have hset (I J : ℝ → Prop) (hIJ : ∀ t, I t ↔ J t) (p : V3 ℝ) :
      (∃ t, I t ∧ p = along r.origin t r.direction) ↔ ∃ t, J t ∧ p = along r.origin t r.direction :=
    exists_congr fun t => by rw [hIJ]
  rcases x0 : r.isInside s.v0 tol <;> rcases x1 : r.isInside s.v1 tol
  · rw [x0] at i0; rw [x1] at i1
    refine ⟨.none, by simp [Inter.out], fun p => ?_⟩
    rw [hand]
    refine ⟨fun h => h.elim, ?_⟩
    rintro ⟨t, ⟨h3, -, h4⟩, -⟩
    have a0 : α < 0 := not_le.1 fun h => Bool.noConfusion (i0.2 h)
    have b0 : β < 0 := not_le.1 fun h => Bool.noConfusion (i1.2 h)
    have := max_lt a0 b0
    linarith
  · rw [x0] at i0; rw [x1] at i1
    refine ⟨.segment ⟨r.origin, s.v1⟩, by simp [Inter.out], fun p => ?_⟩
    rw [hand]
    have a0 : α < 0 := not_le.1 fun h => Bool.noConfusion (i0.2 h)
    have b0 : 0 ≤ β := i1.1 rfl
    rw [e]
    dsimp only
    rw [es]
    show OnSegment _ _ ↔ _
    rw [seg_param _ _ b0, min_eq_left (by linarith), max_eq_right (by linarith)]
    refine exists_congr fun t => ?_
    constructor
    · rintro ⟨h1, h2, h3⟩; exact ⟨⟨h1, by linarith, h2⟩, h3⟩
    · rintro ⟨⟨h1, -, h2⟩, h3⟩; exact ⟨h1, h2, h3⟩
  · rw [x0] at i0; rw [x1] at i1
    refine ⟨.segment ⟨r.origin, s.v0⟩, by simp [Inter.out], fun p => ?_⟩
    rw [hand]
    have b0 : β < 0 := not_le.1 fun h => Bool.noConfusion (i1.2 h)
    have a0 : 0 ≤ α := i0.1 rfl
    rw [e]
    dsimp only
    rw [es]
    show OnSegment _ _ ↔ _
    rw [seg_param _ _ a0, min_eq_right (by linarith), max_eq_left (by linarith)]
    refine exists_congr fun t => ?_
    constructor
    · rintro ⟨h1, h2, h3⟩; exact ⟨⟨h1, by linarith, h2⟩, h3⟩
    · rintro ⟨⟨h1, -, h2⟩, h3⟩; exact ⟨h1, h2, h3⟩
  · rw [x0] at i0; rw [x1] at i1
    refine ⟨.segment s, by simp [Inter.out], fun p => ?_⟩
    rw [hand, hseg]
    refine exists_congr fun t => ?_
    have := le_min (i0.1 rfl) (i1.1 rfl)
    constructor
    · rintro ⟨h1, h2, h3⟩; exact ⟨⟨by linarith, h1, h2⟩, h3⟩
    · rintro ⟨⟨-, h1, h2⟩, h3⟩; exact ⟨h1, h2, h3⟩

theorem Inter.clip_rays {a b : Ray ℝ} (ha : Proper (.ray a)) (hb : Proper (.ray b))
    (h : SameLine (.ray a) (.ray b)) {tol : ℝ} (ht : 0 < tol) :
    (∃ x, Inter.entity (.ray a) (.ray b) tol = .ok x ∧
      ∀ p, Has x p ↔ Has (.ray a) p ∧ Has (.ray b) p) ∨
    ((∃ w, Inter.entity (.ray a) (.ray b) tol = .throw w) ∧
      ∀ p, ¬ (Has (.ray a) p ∧ Has (.ray b) p)) := by
  obtain ⟨h1, h2⟩ := (sameLine_lines (.ray ha) (.ray hb)).1 h
  have hself : cross3 b.direction b.direction = ⟨0, 0, 0⟩ := by
    simp only [cross3]; congr 1 <;> ring
  have hc {e : ℝ} (he : 0 < e) : Rel.colRayRay a b e = true := by
    unfold Rel.colRayRay
    rw [Bool.and_eq_true, V3.sub_eq3]
    exact ⟨Rel.parV_all.2 h1 e he, Rel.parV_all.2 hself e he⟩
  have hu : Unit3 a.direction := ha
  obtain ⟨k, σ, hσ, e1, e2⟩ := axis hu hb h1 h2
  have hce : Rel.collinear (.ray a) (.ray b) eps = true := hc real_eps_pos
  rw [Inter.entity_onLine _ _ _ rfl rfl hce]
  simp only [Inter.onLine, Inter.rayRayRay, Inter.rayRaySegment, hc ht, Bool.true_and]
  have hdot : V3.dot a.direction b.direction = σ := by
    rw [V3.dot_eq, e2]
    have := hu.dot
    simp only [dot3, times] at this ⊢
    linear_combination σ * this
  have eb : b = ⟨along a.origin k a.direction, times σ a.direction⟩ := by
    obtain ⟨q, v⟩ := b
    simp only at e1 e2
    rw [e1, e2]
  have hrb (p) : Has (.ray b) p ↔ ∃ t, 0 ≤ σ * (t - k) ∧ p = along a.origin t a.direction := by
    rw [eb]; exact axis_ray hσ p
  have hand (p) : Has (.ray a) p ∧ Has (.ray b) p ↔
      ∃ t, (0 ≤ t ∧ 0 ≤ σ * (t - k)) ∧ p = along a.origin t a.direction := by
    rw [hrb]
    constructor
    · rintro ⟨⟨t, h0, e1⟩, t', h1, e2⟩
      obtain rfl := along_inj (unit_ne hu) (e1.symm.trans e2)
      exact ⟨t, ⟨h0, h1⟩, e1⟩
    · rintro ⟨t, ⟨h0, h1⟩, e1⟩
      exact ⟨⟨t, h0, e1⟩, t, h1, e1⟩
  have ia : a.isInside b.origin tol = true ↔ 0 ≤ k := by
    have := axis_ray_inside (o := a.origin) hu (k := 0) (σ := 1) (by norm_num) ht k
    rw [← ray_axis a, ← e1] at this
    rw [this]; simp
  have ib : b.isInside a.origin tol = true ↔ 0 ≤ σ * (0 - k) := by
    have := axis_ray_inside (o := a.origin) hu (k := k) hσ ht 0
    rw [← eb] at this
    rw [← this]
    have e0 : along a.origin 0 a.direction = a.origin := by simp [along]
    rw [e0]
  simp only [hdot, real_lt, real_zero]
  rcases sign_cases hσ with rfl | rfl
  · left
    simp only [zero_lt_one, decide_true, if_true]
    rcases xa : a.isInside b.origin tol
    · rw [xa] at ia
      have k0 : k < 0 := not_le.1 fun h => Bool.noConfusion (ia.2 h)
      have xb : b.isInside a.origin tol = true := ib.2 (by linarith)
      refine ⟨.ray a, by simp [xb], fun p => ?_⟩
      rw [hand]
      refine exists_congr fun t => ?_
      constructor
      · rintro ⟨h1, h3⟩; exact ⟨⟨h1, by linarith⟩, h3⟩
      · rintro ⟨⟨h1, -⟩, h3⟩; exact ⟨h1, h3⟩
    · rw [xa] at ia
      have k0 : 0 ≤ k := ia.1 rfl
      refine ⟨.ray b, by simp, fun p => ?_⟩
      rw [hand, hrb]
      refine exists_congr fun t => ?_
      constructor
      · rintro ⟨h1, h3⟩; exact ⟨⟨by linarith, h1⟩, h3⟩
      · rintro ⟨⟨-, h1⟩, h3⟩; exact ⟨h1, h3⟩
  · have n1 : ¬ ((0 : ℝ) < -1) := by norm_num
    have n2 : (-1 : ℝ) < 0 := by norm_num
    simp only [n1, n2, decide_true, decide_false, if_true, Bool.false_eq_true, if_false]
    rcases xa : a.isInside b.origin tol
    · right
      rw [xa] at ia
      have k0 : k < 0 := not_le.1 fun h => Bool.noConfusion (ia.2 h)
      refine ⟨⟨_, by simp; rfl⟩, fun p => ?_⟩
      rw [hand]
      rintro ⟨t, ⟨h1, h2⟩, -⟩
      linarith
    · left
      rw [xa] at ia
      have k0 : 0 ≤ k := ia.1 rfl
      have xb : b.isInside a.origin tol = true := ib.2 (by linarith)
      refine ⟨.segment ⟨a.origin, b.origin⟩, by simp [xb], fun p => ?_⟩
      rw [hand, e1]
      have es : (⟨a.origin, along a.origin k a.direction⟩ : Segment ℝ) =
        ⟨along a.origin 0 a.direction, along a.origin k a.direction⟩ := by simp [along]
      rw [es]
      show OnSegment _ _ ↔ _
      rw [seg_param _ _ k0]
      refine exists_congr fun t => ?_
      constructor
      · rintro ⟨h1, h2, h3⟩; exact ⟨⟨h1, by linarith⟩, h3⟩
      · rintro ⟨⟨h1, h2⟩, h3⟩; exact ⟨h1, by linarith, h3⟩

/-- The interval between two numbers, enlarged by `h`. -/
def Spec.Between (h x y s : ℝ) : Prop := Min.min x y - h ≤ s ∧ s ≤ Max.max x y + h

theorem Spec.between_iff {h x y s : ℝ} : Between h x y s ↔
    (x ≤ y ∧ x - h ≤ s ∧ s ≤ y + h) ∨ (y ≤ x ∧ y - h ≤ s ∧ s ≤ x + h) := by
  unfold Between
  rcases le_total x y with hxy | hxy
  · rw [min_eq_left hxy, max_eq_right hxy]
    constructor
    · exact fun h => .inl ⟨hxy, h⟩
    · rintro (h | ⟨h1, h2, h3⟩)
      · exact h.2
      · obtain rfl := le_antisymm hxy h1; exact ⟨h2, h3⟩
  · rw [min_eq_right hxy, max_eq_left hxy]
    constructor
    · exact fun h => .inr ⟨hxy, h⟩
    · rintro (⟨h1, h2, h3⟩ | h)
      · obtain rfl := le_antisymm hxy h1; exact ⟨h2, h3⟩
      · exact h.2

theorem Spec.between_self {h x y : ℝ} (hh : 0 ≤ h) : Between h x y x ∧ Between h x y y := by
  unfold Between
  exact ⟨⟨by linarith [min_le_left x y], by linarith [le_max_left x y]⟩,
    by linarith [min_le_right x y], by linarith [le_max_right x y]⟩

theorem Spec.between_sub {h x y a b s : ℝ} (h1 : Between h x y a) (h2 : Between h x y b)
    (hs : Between 0 a b s) : Between h x y s := by
  unfold Between at *
  constructor
  · have := le_min h1.1 h2.1; linarith [hs.1]
  · have := max_le h1.2 h2.2; linarith [hs.2]

theorem Spec.between_near {h x y s : ℝ} (hh : 0 ≤ h) (hs : Between h x y s) :
    ∃ t, Between 0 x y t ∧ |s - t| ≤ h := by
  unfold Between at *
  have hm : Min.min x y ≤ Max.max x y := min_le_max
  rcases le_total s (Min.min x y) with h1 | h1
  · exact ⟨Min.min x y, ⟨by linarith, by linarith⟩, abs_le.2 ⟨by linarith [hs.1], by linarith⟩⟩
  rcases le_total s (Max.max x y) with h2 | h2
  · exact ⟨s, ⟨by linarith, by linarith⟩, by simpa using hh⟩
  · exact ⟨Max.max x y, ⟨by linarith, by linarith⟩, abs_le.2 ⟨by linarith, by linarith [hs.2]⟩⟩

theorem Spec.between_comm {h x y s : ℝ} : Between h x y s ↔ Between h y x s := by
  unfold Between; rw [min_comm, max_comm]

/-- Two intervals of the line, one end of each inside the other one, enlarged. -/
theorem Spec.clip_mixed {h a0 a1 b0 b1 s : ℝ} (hh : 0 < h)
    (hs : Between 0 a0 a1 s) (hs' : Between 0 b0 b1 s)
    (h1 : ¬ Between h b0 b1 a0) (h2 : Between h b0 b1 a1) (h3 : Between h a0 a1 b0)
    (h4 : ¬ Between h a0 a1 b1) : Between 0 a1 b0 s := by
  unfold Between at *
  rcases le_total a0 a1 with ha | ha <;> rcases le_total b0 b1 with hb | hb <;>
  rcases le_total a1 b0 with hc | hc <;>
  simp only [ha, hb, hc, min_eq_left, min_eq_right, max_eq_left, max_eq_right, not_and_or, not_le]
    at h1 h2 h3 h4 hs hs' ⊢ <;>
  rcases h1 with h1 | h1 <;> rcases h4 with h4 | h4 <;> constructor <;> linarith

/-- It is impossible that only one of the four ends is inside the other interval, enlarged. -/
theorem Spec.clip_single {h a0 a1 b0 b1 : ℝ} (hh : 0 < h)
    (h1 : Between h b0 b1 a0) (h2 : ¬ Between h b0 b1 a1) (h3 : ¬ Between h a0 a1 b0)
    (h4 : ¬ Between h a0 a1 b1) : False := by
  unfold Between at *
  rcases le_total a0 a1 with ha | ha <;> rcases le_total b0 b1 with hb | hb <;>
  simp only [ha, hb, min_eq_left, min_eq_right, max_eq_left, max_eq_right, not_and_or, not_le]
    at h1 h2 h3 h4 <;>
  rcases h2 with h2 | h2 <;> rcases h3 with h3 | h3 <;> rcases h4 with h4 | h4 <;> linarith

/-- If no end is inside the other interval, enlarged, the two intervals are apart. -/
theorem Spec.clip_apart {h a0 a1 b0 b1 s t : ℝ} (hh : 0 < h)
    (h1 : ¬ Between h b0 b1 a0) (h2 : ¬ Between h b0 b1 a1) (h3 : ¬ Between h a0 a1 b0)
    (h4 : ¬ Between h a0 a1 b1) (hs : Between 0 a0 a1 s) (ht : Between 0 b0 b1 t) : h < |s - t| := by
  rw [lt_abs]
  unfold Between at *
  rcases le_total a0 a1 with ha | ha <;> rcases le_total b0 b1 with hb | hb <;>
  simp only [ha, hb, min_eq_left, min_eq_right, max_eq_left, max_eq_right, not_and_or, not_le]
    at h1 h2 h3 h4 hs ht <;>
  rcases h1 with h1 | h1 <;> rcases h2 with h2 | h2 <;> rcases h3 with h3 | h3 <;>
  rcases h4 with h4 | h4 <;> first | (left; linarith) | (right; linarith)

/-- What the intersection of two segments on a common line computes. -/
theorem Inter.clip_segments {a b : Segment ℝ} (ha : Proper (.segment a)) (hb : Proper (.segment b))
    (h : SameLine (.segment a) (.segment b)) {tol : ℝ} (ht : 0 < tol) :
    (∃ s, Inter.segSegSeg a b tol = .ok (some s) ∧
      (∀ p, OnSegment a p → OnSegment b p → OnSegment s p) ∧
      ∀ p, OnSegment s p → (∃ q, OnSegment a q ∧ dist3 p q ≤ tol / 2) ∧
        ∃ q, OnSegment b q ∧ dist3 p q ≤ tol / 2) ∨
    (Inter.segSegSeg a b tol = .ok none ∧
      ∀ p q, OnSegment a p → OnSegment b q → tol / 2 < dist3 p q) := by
  have hc : Rel.colSegSeg a b tol = true :=
    h.collinear ha hb (by simp [carrier]) (by simp [carrier]) (fun h => by cases h.2) ht
  obtain ⟨h1, h2⟩ := (sameLine_lines (.segment ha) (.segment hb)).1 h
  have hu : Unit3 a.toUnitVector := by rw [Segment.unit_eq]; exact unit3_unit (minus_ne ha)
  have z1 : cross3 a.toUnitVector (minus a.v0 a.v0) = ⟨0, 0, 0⟩ := by simp [cross3, minus]
  have z2 : cross3 a.toUnitVector a.toUnitVector = ⟨0, 0, 0⟩ := by
    simp only [cross3]; congr 1 <;> ring
  obtain ⟨b0, b1, eb⟩ := axis_segment hu hb h1 h2
  obtain ⟨a0, a1, ea⟩ := axis_segment hu ha z1 z2
  generalize a.toUnitVector = u at *
  generalize a.v0 = o at ea eb
  have hh : 0 < tol / 2 := by linarith
  generalize hT : tol / 2 = H at *
  have on (x y : ℝ) (p : V3 ℝ) : OnSegment ⟨along o x u, along o y u⟩ p ↔
      ∃ s, Between 0 x y s ∧ p = along o s u := by
    rw [axis_seg]; unfold Between; simp only [sub_zero, add_zero, and_assoc]
  have ins (x y s : ℝ) : (⟨along o x u, along o y u⟩ : Segment ℝ).isInside (along o s u) tol = true ↔
      Between H x y s := by
    rw [axis_seg_inside hu, inside_iff ht.le, hT]; rfl
  have fin (x y : ℝ) (k : ∀ s, Between 0 a0 a1 s → Between 0 b0 b1 s → Between 0 x y s)
      (k0 : Between H a0 a1 x) (k1 : Between H a0 a1 y) (k2 : Between H b0 b1 x)
      (k3 : Between H b0 b1 y) :
      (∀ p, OnSegment a p → OnSegment b p → OnSegment ⟨along o x u, along o y u⟩ p) ∧
      ∀ p, OnSegment ⟨along o x u, along o y u⟩ p → (∃ q, OnSegment a q ∧ dist3 p q ≤ H) ∧
        ∃ q, OnSegment b q ∧ dist3 p q ≤ H := by
    rw [ea, eb]
    constructor
    · intro p hp hq
      rw [on] at hp hq ⊢
      obtain ⟨s, hs, e1⟩ := hp
      obtain ⟨s', hs', e2⟩ := hq
      obtain rfl := along_inj (unit_ne hu) (e1.symm.trans e2)
      exact ⟨s, k s hs hs', e1⟩
    · intro p hp
      rw [on] at hp
      obtain ⟨s, hs, rfl⟩ := hp
      obtain ⟨t, t1, t2⟩ := between_near hh.le (between_sub k0 k1 hs)
      obtain ⟨t', t1', t2'⟩ := between_near hh.le (between_sub k2 k3 hs)
      exact ⟨⟨along o t u, (on _ _ _).2 ⟨t, t1, rfl⟩, by rw [axis_dist hu]; exact t2⟩,
        along o t' u, (on _ _ _).2 ⟨t', t1', rfl⟩, by rw [axis_dist hu]; exact t2'⟩
  have sa := between_self (x := a0) (y := a1) hh.le
  have sb := between_self (x := b0) (y := b1) hh.le
  have i1 : b.isInside a.v0 tol = true ↔ Between H b0 b1 a0 := by rw [ea, eb]; exact ins _ _ _
  have i2 : b.isInside a.v1 tol = true ↔ Between H b0 b1 a1 := by rw [ea, eb]; exact ins _ _ _
  have i3 : a.isInside b.v0 tol = true ↔ Between H a0 a1 b0 := by rw [ea, eb]; exact ins _ _ _
  have i4 : a.isInside b.v1 tol = true ↔ Between H a0 a1 b1 := by rw [ea, eb]; exact ins _ _ _
  have va : a.v0 = along o a0 u ∧ a.v1 = along o a1 u := by rw [ea]; exact ⟨rfl, rfl⟩
  have vb : b.v0 = along o b0 u ∧ b.v1 = along o b1 u := by rw [eb]; exact ⟨rfl, rfl⟩
  simp only [Inter.segSegSeg, hc, if_true]
  rcases x1 : b.isInside a.v0 tol <;> rcases x2 : b.isInside a.v1 tol <;>
    rcases x3 : a.isInside b.v0 tol <;> rcases x4 : a.isInside b.v1 tol <;>
    simp only [x1, x2, x3, x4, Bool.false_eq_true, false_iff, true_iff] at i1 i2 i3 i4 <;> dsimp only
  · right
    refine ⟨rfl, fun p q hp hq => ?_⟩
    rw [ea, on] at hp
    rw [eb, on] at hq
    obtain ⟨s, hs, rfl⟩ := hp
    obtain ⟨t, ht, rfl⟩ := hq
    rw [axis_dist hu]
    exact clip_apart hh i1 i2 i3 i4 hs ht
  · exact (clip_single hh i4 i3 (mt between_comm.1 i1) (mt between_comm.1 i2)).elim
  · exact (clip_single hh i3 i4 i1 i2).elim
  · left; refine ⟨_, rfl, ?_⟩; rw [vb.1, vb.2]; exact fin _ _ (fun _ _ h => h) i3 i4 sb.1 sb.2
  · exact (clip_single hh i2 i1 (mt between_comm.1 i3) (mt between_comm.1 i4)).elim
  · left; refine ⟨_, rfl, ?_⟩; rw [va.2, vb.2]
    exact fin _ _ (fun s h h' => clip_mixed hh h (between_comm.1 h') (mt between_comm.1 i1)
      (between_comm.1 i2) i4 i3) sa.2 i4 i2 sb.2
  · left; refine ⟨_, rfl, ?_⟩; rw [va.2, vb.1]
    exact fin _ _ (fun s h h' => clip_mixed hh h h' i1 i2 i3 i4) sa.2 i3 i2 sb.1
  · left; refine ⟨_, rfl, ?_⟩; rw [vb.1, vb.2]; exact fin _ _ (fun _ _ h => h) i3 i4 sb.1 sb.2
  · exact (clip_single hh i1 i2 i3 i4).elim
  · left; refine ⟨_, rfl, ?_⟩; rw [va.1, vb.2]
    exact fin _ _ (fun s h h' => clip_mixed hh (between_comm.1 h) (between_comm.1 h')
      (mt between_comm.1 i2) (between_comm.1 i1) (between_comm.1 i4) (mt between_comm.1 i3))
      sa.1 i4 i1 sb.2
  · left; refine ⟨_, rfl, ?_⟩; rw [va.1, vb.1]
    exact fin _ _ (fun s h h' => clip_mixed hh (between_comm.1 h) h'
      i2 i1 (between_comm.1 i3) (mt between_comm.1 i4)) sa.1 i3 i1 sb.1
  · left; refine ⟨_, rfl, ?_⟩; rw [vb.1, vb.2]; exact fin _ _ (fun _ _ h => h) i3 i4 sb.1 sb.2
  · left; refine ⟨_, rfl, ?_⟩; rw [va.1, va.2]; exact fin _ _ (fun _ h _ => h) sa.1 sa.2 i1 i2
  · left; refine ⟨_, rfl, ?_⟩; rw [va.1, va.2]; exact fin _ _ (fun _ h _ => h) sa.1 sa.2 i1 i2
  · left; refine ⟨_, rfl, ?_⟩; rw [va.1, va.2]; exact fin _ _ (fun _ h _ => h) sa.1 sa.2 i1 i2
  · left; refine ⟨_, rfl, ?_⟩; rw [va.1, va.2]; exact fin _ _ (fun _ h _ => h) sa.1 sa.2 i1 i2

/-- **C76 (partial).** For two lines, rays or segments on a common line, not both segments,
`Intersection` returns exactly their common points.  Missing: rays pointing away from each other (the
call throws, see `C76_rays_throw_refuted`); two segments are in `C76_segments`. -/
theorem C76_overlap_partial (a b : Entity ℝ) (ha : Proper a) (hb : Proper b) (ka : carrier a ≠ none)
    (kb : carrier b ≠ none) (h : SameLine a b) (hs : ¬ (a.isSegment = true ∧ b.isSegment = true))
    (tol : ℝ) (ht : 0 < tol) (hr : a.isRay = true → b.isRay = true → ∃ p, Has a p ∧ Has b p) :
    ∃ x, Inter.entity a b tol = .ok x ∧ ∀ p, Has x p ↔ Has a p ∧ Has b p := by
  have h' : SameLine b a := SameLine.swap.1 h
  have sw {a b : Entity ℝ} (hl : a.level ≠ b.level) (ka : a.isPlane = false) (kb : b.isPlane = false)
      (hx : ∃ x, Inter.entity b a tol = .ok x ∧ ∀ p, Has x p ↔ Has b p ∧ Has a p) :
      ∃ x, Inter.entity a b tol = .ok x ∧ ∀ p, Has x p ↔ Has a p ∧ Has b p := by
    obtain ⟨x, e, hx⟩ := hx
    refine ⟨x, ?_, fun p => (hx p).trans and_comm⟩
    rw [← e]
    exact C70_swap_partial a b tol hl (fun h => by rw [ka] at h; cases h)
      (fun h => by rw [kb] at h; cases h)
  cases a with
  | line l => exact Inter.clip_line ha hb kb h ht
  | ray r =>
    cases b with
    | line l => exact sw (by simp [Entity.level]) rfl rfl (Inter.clip_line hb ha ka h' ht)
    | ray q =>
      rcases Inter.clip_rays ha hb h ht with hx | ⟨-, hn⟩
      · exact hx
      · obtain ⟨p, hp⟩ := hr rfl rfl
        exact absurd hp (hn p)
    | segment s => exact Inter.clip_ray_segment ha hb h ht
    | _ => exact absurd rfl kb
  | segment s =>
    cases b with
    | line l => exact sw (by simp [Entity.level]) rfl rfl (Inter.clip_line hb ha ka h' ht)
    | ray q => exact sw (by simp [Entity.level]) rfl rfl (Inter.clip_ray_segment hb ha h' ht)
    | segment s => exact absurd ⟨rfl, rfl⟩ hs
    | _ => exact absurd rfl kb
  | _ => exact absurd rfl ka

/-- **C76.** For two segments on a common line `Intersection` returns a segment that contains all common
points and whose points are within half the tolerance of both, or an empty entity exactly when the two
are further apart than half the tolerance.  In particular it does not throw. -/
theorem C76_segments (a b : Segment ℝ) (ha : Proper (.segment a)) (hb : Proper (.segment b))
    (h : SameLine (.segment a) (.segment b)) (tol : ℝ) (ht : 0 < tol) :
    (∃ s, Inter.entity (.segment a) (.segment b) tol = .ok (.segment s) ∧
      (∀ p, OnSegment a p → OnSegment b p → OnSegment s p) ∧
      ∀ p, OnSegment s p → (∃ q, OnSegment a q ∧ dist3 p q ≤ tol / 2) ∧
        ∃ q, OnSegment b q ∧ dist3 p q ≤ tol / 2) ∨
    (Inter.entity (.segment a) (.segment b) tol = .ok .none ∧
      ∀ p q, OnSegment a p → OnSegment b q → tol / 2 < dist3 p q) := by
  have hc : Rel.collinear (.segment a) (.segment b) eps = true :=
    h.collinear ha hb (by simp [carrier]) (by simp [carrier]) (fun h => by cases h.2) real_eps_pos
  rw [Inter.entity_onLine _ _ _ rfl rfl hc]
  rcases Inter.clip_segments ha hb h ht with ⟨s, e, hs⟩ | ⟨e, hs⟩
  · exact .inl ⟨s, by simp only [Inter.onLine, e]; rfl, hs⟩
  · exact .inr ⟨by simp only [Inter.onLine, e]; rfl, hs⟩

/-- **C76 (refuted for rays).** Two rays on a line that point away from each other, and two
perpendicular rays with a common origin, make the call throw, for every tolerance. -/
theorem C76_rays_throw_refuted (tol : ℝ) (ht : 0 < tol) :
    (∃ w, Inter.entity (.ray ⟨⟨1, 0, 0⟩, ⟨1, 0, 0⟩⟩) (.ray ⟨⟨0, 0, 0⟩, ⟨-1, 0, 0⟩⟩) tol = .throw w) ∧
    ∃ w, Inter.entity (.ray ⟨⟨0, 0, 0⟩, ⟨1, 0, 0⟩⟩) (.ray ⟨⟨0, 0, 0⟩, ⟨0, 1, 0⟩⟩) tol = .throw w := by
  constructor
  · have hs : SameLine (.ray ⟨⟨1, 0, 0⟩, ⟨1, 0, 0⟩⟩) (.ray ⟨⟨0, 0, 0⟩, ⟨-1, 0, 0⟩⟩) := by
      refine ⟨⟨⟨0, 0, 0⟩, ⟨1, 0, 0⟩⟩, ?_⟩
      rintro p (⟨t, -, rfl⟩ | ⟨t, -, rfl⟩)
      · exact ⟨1 + t, by simp [along]⟩
      · exact ⟨-t, by simp [along]⟩
    rcases Inter.clip_rays (by simp [Proper, Unit3]) (by simp [Proper, Unit3]) hs ht with ⟨x, e, hx⟩ | ⟨e, -⟩
    · exfalso
      have hd : Inter.onLine (.ray ⟨⟨1, 0, 0⟩, ⟨1, 0, 0⟩⟩) (.ray ⟨⟨0, 0, 0⟩, ⟨-1, 0, 0⟩⟩) tol = .ok x := by
        rw [← e]
        refine (Inter.entity_onLine _ _ _ rfl rfl ?_).symm
        have := real_eps_pos
        simpa [Rel.collinear, Rel.colRayRay, Rel.parV, Inter.isParallel, Scalar.isApprox, V3.real_cross,
          V3.real_sub, V3.norm_eq, length3] using this
      have hn : ¬ ∃ p, Has (.ray ⟨⟨1, 0, 0⟩, ⟨1, 0, 0⟩⟩) p ∧ Has (.ray ⟨⟨0, 0, 0⟩, ⟨-1, 0, 0⟩⟩) p := by
        rintro ⟨p, ⟨t, h0, rfl⟩, s, h1, e⟩
        simp [along] at e
        linarith
      cases x with
      | ray r => exact hn ⟨_, (hx r.origin).1 ⟨0, le_rfl, by simp [along]⟩⟩
      | segment s => exact hn ⟨_, (hx s.v0).1 ⟨0, le_rfl, zero_le_one, by simp [along]⟩⟩
      | _ =>
        unfold Inter.onLine at hd
        dsimp only at hd
        split at hd
        · cases hd
        · split at hd <;> cases hd
    · exact e
  · have hc : Rel.collinear (.ray ⟨⟨0, 0, 0⟩, ⟨1, 0, 0⟩⟩) (.ray ⟨⟨0, 0, 0⟩, ⟨0, 1, 0⟩⟩) (eps : ℝ) = true := by
      have := real_eps_pos
      simpa [Rel.collinear, Rel.colRayRay, Rel.parV, Inter.isParallel, Scalar.isApprox, V3.real_cross,
          V3.real_sub, V3.norm_eq, length3] using this
    rw [Inter.entity_onLine _ _ _ rfl rfl hc]
    refine ⟨"exception not handled (ray/ray intersection).", ?_⟩
    simp [Inter.onLine, Inter.rayRayRay, Inter.rayRaySegment, V3.real_dot]

theorem Segment.inside_iff (s : Segment ℝ) (q : V3 ℝ) (tol : ℝ) : s.isInside q tol = true ↔
    |length3 (minus s.v0 s.v1) - length3 (minus q s.v0) - length3 (minus q s.v1)| ≤ tol := by
  simp only [Segment.isInside, Segment.length, V3.sub_eq3, V3.norm_eq, real_le, real_sub, real_abs,
    decide_eq_true_eq]

/-- **C76 (refuted).** Segments of any length that are parallel and a little apart are taken as
collinear; laid end to end they make `Intersection`, with its default tolerance, throw. -/
theorem C76_segments_throw_refuted (L : ℝ) (hL : 1 ≤ L) :
    ∃ a b : Segment ℝ, Proper (.segment a) ∧ Proper (.segment b) ∧ L ≤ dist3 a.v0 a.v1 ∧
      L ≤ dist3 b.v0 b.v1 ∧ ∃ w, Inter.entity (.segment a) (.segment b) eps = .throw w := by
  have e0 := real_eps_pos
  have e1 := real_eps_lt_one
  generalize hT : (eps : ℝ) = T at *
  have hp : 0 < 2 * (T + 2 * L) := by linarith
  obtain ⟨δ, hδ⟩ : ∃ δ, δ = T * (T + 4 * L) / (2 * (T + 2 * L)) := ⟨_, rfl⟩
  have d1 : δ * (2 * (T + 2 * L)) = T * (T + 4 * L) := by
    rw [hδ]; exact div_mul_cancel₀ _ hp.ne'
  have d0 : 0 < δ := by rw [hδ]; have := mul_pos e0 (show 0 < T + 4 * L by linarith); positivity
  have d2 : δ < T := by
    by_contra h
    nlinarith [mul_le_mul_of_nonneg_right (not_lt.1 h) hp.le]
  have hLL : 0 ≤ L := by linarith
  let a : Segment ℝ := ⟨⟨0, δ, 0⟩, ⟨L, δ, 0⟩⟩
  let b : Segment ℝ := ⟨⟨-2 * L, 0, 0⟩, ⟨0, 0, 0⟩⟩
  have la : length3 (minus a.v0 a.v1) = L := by
    rw [← Real.sqrt_sq hLL]; simp only [length3, minus, a]; congr 1; ring
  have lb : length3 (minus b.v0 b.v1) = 2 * L := by
    rw [← Real.sqrt_sq (show 0 ≤ 2 * L by linarith)]; simp only [length3, minus, b]; congr 1; ring
  have l1 : length3 (minus a.v0 b.v1) = δ := by
    rw [← Real.sqrt_sq d0.le]; simp only [length3, minus, a, b]; congr 1; ring
  have l1' : length3 (minus b.v1 a.v0) = δ := by
    rw [← Real.sqrt_sq d0.le]; simp only [length3, minus, a, b]; congr 1; ring
  have l2 : length3 (minus a.v0 b.v0) = 2 * L + T - δ := by
    rw [← Real.sqrt_sq (show 0 ≤ 2 * L + T - δ by linarith)]
    simp only [length3, minus, a, b]; congr 1; linear_combination d1
  have l3 : L + T - δ < length3 (minus b.v1 a.v1) := by
    refine Real.lt_sqrt_of_sq_lt ?_
    simp only [minus, a, b]
    nlinarith [mul_pos e0 (show 0 < L by linarith)]
  have le {x y : ℝ} (hx : 0 ≤ x) {w : V3 ℝ} (hy : y = w.x ∨ y = -w.x) (h : x ≤ y) : x ≤ length3 w := by
    refine Real.le_sqrt_of_sq_le ?_
    have : x ^ 2 ≤ y ^ 2 := by nlinarith
    have : y ^ 2 = w.x ^ 2 := by rcases hy with rfl | rfl <;> ring
    nlinarith [sq_nonneg w.y, sq_nonneg w.z]
  have l4 : 2 * L ≤ length3 (minus b.v0 a.v0) :=
    le (by linarith) (.inr rfl) (by simp only [minus, a, b]; linarith)
  have l5 : 3 * L ≤ length3 (minus b.v0 a.v1) :=
    le (by linarith) (.inr rfl) (by simp only [minus, a, b]; linarith)
  have l6 : L ≤ length3 (minus a.v1 b.v1) :=
    le (by linarith) (.inl rfl) (by simp only [minus, a, b]; linarith)
  have l7 : 3 * L ≤ length3 (minus a.v1 b.v0) :=
    le (by linarith) (.inl rfl) (by simp only [minus, a, b]; linarith)
  have i1 : b.isInside a.v0 T = true := by
    rw [Segment.inside_iff, lb, l1, l2]
    rw [show 2 * L - (2 * L + T - δ) - δ = -T by ring, abs_neg, abs_of_pos e0]
  have i2 : b.isInside a.v1 T = false := by
    rw [← Bool.not_eq_true, Segment.inside_iff, lb, abs_le]
    intro h; linarith [h.1]
  have i3 : a.isInside b.v0 T = false := by
    rw [← Bool.not_eq_true, Segment.inside_iff, la, abs_le]
    intro h; linarith [h.1]
  have i4 : a.isInside b.v1 T = false := by
    rw [← Bool.not_eq_true, Segment.inside_iff, la, l1', abs_le]
    intro h; linarith [h.1]
  have pa : a.v0 ≠ a.v1 := by
    intro h; have := congrArg V3.x h; simp only [a] at this; linarith
  have pb : b.v0 ≠ b.v1 := by
    intro h; have := congrArg V3.x h; simp only [b] at this; linarith
  have ua : a.toUnitVector = ⟨1, 0, 0⟩ := by
    rw [Segment.unit_eq, unit3]
    have : length3 (minus a.v1 a.v0) = L := by
      rw [← Real.sqrt_sq hLL]; simp only [length3, minus, a]; congr 1; ring
    rw [this]
    have : L ≠ 0 := by linarith
    simp only [minus, a]; congr 1 <;> field_simp <;> ring
  have ub : b.toUnitVector = ⟨1, 0, 0⟩ := by
    rw [Segment.unit_eq, unit3]
    have : length3 (minus b.v1 b.v0) = 2 * L := by
      rw [← Real.sqrt_sq (show 0 ≤ 2 * L by linarith)]; simp only [length3, minus, b]; congr 1; ring
    rw [this]
    have : L ≠ 0 := by linarith
    simp only [minus, b]; congr 1 <;> field_simp <;> ring
  have hc : Rel.colSegSeg a b T = true := by
    have : |δ| < T := by rw [abs_of_pos d0]; exact d2
    simp only [Rel.colSegSeg, ua, ub]
    simp [Rel.parV, Inter.isParallel, Scalar.isApprox, V3.real_cross, V3.real_sub, V3.norm_eq, length3, a, b,
      Real.sqrt_sq_eq_abs, this, e0]
  refine ⟨a, b, pa, pb, ?_, ?_, "exception not handled.", ?_⟩
  · exact la.ge
  · exact (show L ≤ 2 * L by linarith).trans lb.ge
  · rw [Inter.entity_onLine _ _ _ rfl rfl (by rw [hT]; exact hc)]
    simp only [Inter.onLine, Inter.segSegSeg, hc, i1, i2, i3, i4, if_true]
    rfl

example : ∃ x, Inter.entity (.ray ⟨⟨0, 0, 0⟩, ⟨1, 0, 0⟩⟩) (.segment ⟨⟨-1, 0, 0⟩, ⟨2, 0, 0⟩⟩) (1 / 8) = .ok x ∧
    ∀ p, Has x p ↔ Has (.ray ⟨⟨0, 0, 0⟩, ⟨1, 0, 0⟩⟩) p ∧ Has (.segment ⟨⟨-1, 0, 0⟩, ⟨2, 0, 0⟩⟩) p := by
  refine C76_overlap_partial _ _ (by simp [Proper, Unit3])
    (by simp only [Proper]; intro h; have := congrArg V3.x h; norm_num at this) (by simp [carrier])
    (by simp [carrier]) ?_ (fun h => by cases h.1) _ (by norm_num) (fun _ h => by cases h)
  refine ⟨⟨⟨0, 0, 0⟩, ⟨1, 0, 0⟩⟩, ?_⟩
  rintro p (⟨t, -, rfl⟩ | ⟨t, -, -, rfl⟩)
  · exact ⟨t, rfl⟩
  · exact ⟨-1 + t * 3, by simp only [along, minus]; congr 1 <;> ring⟩

end Enve
