import Verif.Props.MemberProps

/-! # C75: lines, rays and segments through planes, triangles and disks -/

namespace Enve
open Scalar Spec

theorem Spec.along_inj {o d : V3 ℝ} (hd : d ≠ ⟨0, 0, 0⟩) {s t : ℝ} (h : along o s d = along o t d) :
    s = t := by
  by_contra hst
  apply hd
  have hst : s - t ≠ 0 := sub_ne_zero.2 hst
  simp only [along, V3.mk.injEq] at h
  obtain ⟨h1, h2, h3⟩ := h
  ext
  · exact (mul_eq_zero.1 (by linear_combination h1 : (s - t) * d.x = 0)).resolve_left hst
  · exact (mul_eq_zero.1 (by linear_combination h2 : (s - t) * d.y = 0)).resolve_left hst
  · exact (mul_eq_zero.1 (by linear_combination h3 : (s - t) * d.z = 0)).resolve_left hst

/-- The one parameter at which a line that is not parallel to a plane meets it. -/
theorem Spec.onPlane_param {q : Plane ℝ} {o d : V3 ℝ} (h : dot3 d q.normal ≠ 0) (t : ℝ) :
    OnPlane q (along o t d) ↔ t = -(dot3 (minus o q.origin) q.normal) / dot3 d q.normal := by
  rw [eq_div_iff h]
  have : dot3 (minus (along o t d) q.origin) q.normal =
      dot3 (minus o q.origin) q.normal + t * dot3 d q.normal := by
    simp only [dot3, minus, along]; ring
  unfold OnPlane
  rw [this]
  constructor <;> intro h <;> linarith

theorem Inter.rayPlane_iff (r : Ray ℝ) (q : Plane ℝ) (tol : ℝ) (ht : 0 ≤ tol) (p : V3 ℝ) :
    Inter.rayPlane r q tol = some p ↔ tol < |dot3 r.direction q.normal| ∧
      OnPlane q p ∧ ∃ t, tol < t ∧ p = along r.origin t r.direction := by
  unfold Inter.rayPlane
  simp only [V3.dot_eq, V3.sub_eq3, real_lt, real_abs, real_neg, real_div, decide_eq_true_eq]
  by_cases h : tol < |dot3 r.direction q.normal|
  · have h0 : dot3 r.direction q.normal ≠ 0 := by
      intro h0; rw [h0, abs_zero] at h; linarith
    rw [if_pos h]
    by_cases h1 : tol < -(dot3 (minus r.origin q.origin) q.normal) / dot3 r.direction q.normal
    · rw [if_pos h1]
      constructor
      · intro e
        have e := (Option.some.inj e).symm
        rw [V3.add_smul3] at e
        exact ⟨h, e ▸ (onPlane_param h0 _).2 rfl, _, h1, e⟩
      · rintro ⟨-, h2, t, h3, rfl⟩
        rw [V3.add_smul3, (onPlane_param h0 t).1 h2]
    · rw [if_neg h1]
      refine ⟨fun e => (by cases e), ?_⟩
      rintro ⟨-, h2, t, h3, rfl⟩
      rw [(onPlane_param h0 t).1 h2] at h3
      exact absurd h3 h1
  · rw [if_neg h]
    exact ⟨fun e => (by cases e), fun e => absurd e.1 h⟩

theorem Inter.planeSeg_iff (q : Plane ℝ) (s : Segment ℝ) (tol : ℝ) (ht : 0 ≤ tol) (p : V3 ℝ) :
    Inter.planeSeg q s tol = some p ↔ tol < |dot3 (minus s.v1 s.v0) q.normal| ∧
      OnPlane q p ∧ ∃ t, (-tol ≤ t ∧ t ≤ 1 + tol) ∧ p = along s.v0 t (minus s.v1 s.v0) := by
  unfold Inter.planeSeg
  simp only [V3.dot_eq, V3.sub_eq3, real_lt, real_abs, real_neg, real_div, decide_eq_true_eq,
    Segment.toVector_eq3, real_le, real_sub, real_zero, zero_sub, real_add, real_one, Bool.and_eq_true]
  by_cases h : tol < |dot3 (minus s.v1 s.v0) q.normal|
  · have h0 : dot3 (minus s.v1 s.v0) q.normal ≠ 0 := by
      intro h0; rw [h0, abs_zero] at h; linarith
    rw [if_pos h]
    by_cases h1 : -tol ≤ -(dot3 (minus s.v0 q.origin) q.normal) / dot3 (minus s.v1 s.v0) q.normal ∧
        -(dot3 (minus s.v0 q.origin) q.normal) / dot3 (minus s.v1 s.v0) q.normal ≤ 1 + tol
    · rw [if_pos h1]
      constructor
      · intro e
        have e := (Option.some.inj e).symm
        rw [V3.add_smul3] at e
        exact ⟨h, e ▸ (onPlane_param h0 _).2 rfl, _, h1, e⟩
      · rintro ⟨-, h2, t, h3, rfl⟩
        rw [V3.add_smul3, (onPlane_param h0 t).1 h2]
    · rw [if_neg h1]
      refine ⟨fun e => (by cases e), ?_⟩
      rintro ⟨-, h2, t, h3, rfl⟩
      rw [(onPlane_param h0 t).1 h2] at h3
      exact absurd h3 h1
  · rw [if_neg h]
    exact ⟨fun e => (by cases e), fun e => absurd e.1 h⟩

theorem Inter.linePlane_iff (l : Line ℝ) (q : Plane ℝ) (tol : ℝ) (ht : 0 ≤ tol) (p : V3 ℝ) :
    Inter.linePlane l q tol = some p ↔ tol < |dot3 l.direction q.normal| ∧ OnPlane q p ∧ OnLine l p := by
  obtain ⟨h1, h2⟩ := C49_line_plane l q tol ht
  have hc : dot3 q.normal l.direction = dot3 l.direction q.normal := by simp only [dot3]; ring
  rw [hc] at h1
  constructor
  · intro h
    obtain ⟨a, b, -⟩ := h2 p h
    refine ⟨not_le.1 fun hn => ?_, b, a⟩
    rw [h1.2 hn] at h; cases h
  · rintro ⟨h, b, a⟩
    rcases hx : Inter.linePlane l q tol with _ | x
    · exact absurd (h1.1 hx) (not_le.2 h)
    · rw [(h2 x hx).2.2 p a b]

theorem Disk.isInside_onPlane {d : Disk ℝ} {p : V3 ℝ} {tol : ℝ} (ht : 0 < tol) (h : OnPlane d.plane p) :
    d.isInside p tol = true ↔ InDisk d p := by
  have := (Plane.isInside_all d.plane p).2 h tol ht
  unfold Disk.isInside InDisk
  rw [this, Bool.true_and]
  simp only [V3.norm_sub, real_le, decide_eq_true_eq, dist3_comm p, h, true_and]

theorem Inter.bindDisk {d : Disk ℝ} {tol : ℝ} (ht : 0 < tol) (x : Option (V3 ℝ))
    (hx : ∀ p, x = some p → OnPlane d.plane p) (p : V3 ℝ) :
    (x.bind fun p => if d.isInside p tol = true then some p else none) = some p ↔
      x = some p ∧ InDisk d p := by
  rcases x with _ | y
  · exact ⟨fun h => (by cases h), fun h => (by cases h.1)⟩
  · have hy := Disk.isInside_onPlane ht (hx y rfl)
    rw [Option.bind_some]
    split
    · rename_i h
      exact ⟨fun e => ⟨e, Option.some.inj e ▸ hy.1 h⟩, fun e => e.1⟩
    · rename_i h
      exact ⟨fun e => (by cases e), fun e => absurd (hy.2 ((Option.some.inj e.1).symm ▸ e.2)) h⟩

theorem Inter.lineDiskPoint_iff (l : Line ℝ) (d : Disk ℝ) (tol : ℝ) (ht : 0 < tol) (p : V3 ℝ) :
    Inter.lineDiskPoint l d tol = some p ↔ Inter.linePlane l d.plane tol = some p ∧ InDisk d p := by
  rw [← Inter.bindDisk ht _ (fun p h => ((Inter.linePlane_iff l d.plane tol ht.le p).1 h).2.1) p]
  unfold Inter.lineDiskPoint Disk.layingPlane
  cases Inter.linePlane l d.plane tol <;> rfl

theorem Inter.rayDiskPoint_iff (r : Ray ℝ) (d : Disk ℝ) (tol : ℝ) (ht : 0 < tol) (p : V3 ℝ) :
    Inter.rayDiskPoint r d tol = some p ↔ Inter.rayPlane r d.plane tol = some p ∧ InDisk d p := by
  rw [← Inter.bindDisk ht _ (fun p h => ((Inter.rayPlane_iff r d.plane tol ht.le p).1 h).2.1) p]
  unfold Inter.rayDiskPoint Disk.layingPlane
  cases Inter.rayPlane r d.plane tol <;> rfl

theorem Inter.segDiskPoint_iff (s : Segment ℝ) (d : Disk ℝ) (tol : ℝ) (ht : 0 < tol) (p : V3 ℝ) :
    Inter.segDiskPoint s d tol = some p ↔ Inter.planeSeg d.plane s tol = some p ∧ InDisk d p := by
  rw [← Inter.bindDisk ht _ (fun p h => ((Inter.planeSeg_iff d.plane s tol ht.le p).1 h).2.1) p]
  unfold Inter.segDiskPoint Disk.layingPlane
  cases Inter.planeSeg d.plane s tol <;> rfl

section
variable {α : Type} [Scalar α]

/-- The parameter computed last by the line/triangle overloads. -/
def Inter.hitParam (o d : V3 α) (t : Triangle α) : α :=
  one /. V3.dot (V3.sub t.v1 t.v0) (V3.cross d (V3.sub t.v2 t.v0)) *.
    V3.dot (V3.sub t.v2 t.v0) (V3.cross (V3.sub o t.v0) (V3.sub t.v1 t.v0))

theorem Inter.rayTriangle_some (r : Ray α) (t : Triangle α) (tol : α) (p : V3 α) :
    Inter.rayTriangle r t tol = some p ↔
      Inter.lineTriangle ⟨r.origin, r.direction⟩ t tol = some p ∧
        (zero -. tol <=. Inter.hitParam r.origin r.direction t) = true := by
  unfold Inter.rayTriangle Inter.lineTriangle Inter.hitParam
  dsimp only
  repeat' split
  all_goals simp_all

theorem Inter.segTriangle_some (s : Segment α) (t : Triangle α) (tol : α) (p : V3 α) :
    Inter.segTriangle s t tol = some p ↔
      Inter.lineTriangle ⟨s.v0, s.toVector⟩ t tol = some p ∧
        (zero -. tol <=. Inter.hitParam s.v0 s.toVector t &&
          Inter.hitParam s.v0 s.toVector t <=. one +. tol) = true := by
  unfold Inter.segTriangle Inter.lineTriangle Inter.hitParam
  dsimp only
  repeat' split
  all_goals simp_all

theorem Inter.lineTriangle_hit (l : Line α) (t : Triangle α) (tol : α) (p : V3 α)
    (h : Inter.lineTriangle l t tol = some p) :
    p = V3.add l.origin (V3.smul (Inter.hitParam l.origin l.direction t) l.direction) := by
  unfold Inter.lineTriangle at h
  dsimp only at h
  split at h
  · cases h
  split at h
  · cases h
  split at h
  · cases h
  exact (Option.some.inj h).symm
end

/-- What the line/triangle overload computes for a line in a given direction, seen from a ray or a
segment. -/
theorem Inter.lineTriangle_param {o d : V3 ℝ} {t : Triangle ℝ} {tol : ℝ} (ht : 0 < tol) (p : V3 ℝ) :
    (Inter.lineTriangle ⟨o, d⟩ t tol = some p →
      p = along o (Inter.hitParam o d t) d ∧ tol ≤ |box3 d t| ∧ NearTriangle tol t p) ∧
    (∀ r, p = along o r d → tol ≤ |box3 d t| → InTriangle t.v0 t.v1 t.v2 p →
      Inter.lineTriangle ⟨o, d⟩ t tol = some p ∧ Inter.hitParam o d t = r) := by
  obtain ⟨h1, h2⟩ := C50_line_triangle_tolerance ⟨o, d⟩ t tol ht
  have hit (h : Inter.lineTriangle ⟨o, d⟩ t tol = some p) : p = along o (Inter.hitParam o d t) d := by
    have := Inter.lineTriangle_hit _ _ _ _ h
    rwa [V3.add_smul3] at this
  constructor
  · intro h
    have hb : tol ≤ |box3 d t| := not_lt.1 fun hn => by rw [h1 hn] at h; cases h
    exact ⟨hit h, hb, ((h2 hb).2 p h).2⟩
  · intro r hr hb hin
    have hs := (h2 hb).1 p ⟨r, hr⟩ hin
    refine ⟨hs, along_inj (o := o) (d := d) ?_ ((hit hs).symm.trans hr)⟩
    rintro rfl
    simp only [box3, zero_mul, add_zero, abs_zero] at hb
    linarith

/-- The direction in which the overloads for a line, a ray or a segment travel. -/
def Spec.heading : Entity ℝ → Option (V3 ℝ)
  | .line l => some l.direction
  | .ray r => some r.direction
  | .segment s => some (minus s.v1 s.v0)
  | _ => none

/-- The entity `a` (a line, a ray or a segment) is steep enough with respect to `b` (a plane, a
triangle or a disk) for the tolerance. -/
def Spec.Steep (tol : ℝ) (a b : Entity ℝ) : Prop :=
  ∃ d, heading a = some d ∧
    match b with
    | .plane q => tol < |dot3 d q.normal|
    | .disk k => tol < |dot3 d k.plane.normal|
    | .triangle t => tol ≤ |box3 d t|
    | _ => False

/-- The points of a plane or disk, and those of a slightly enlarged triangle. -/
def Spec.NearFlat (tol : ℝ) : Entity ℝ → V3 ℝ → Prop
  | .plane q, p => OnPlane q p
  | .disk k, p => InDisk k p
  | .triangle t, p => NearTriangle tol t p
  | _, _ => False

/-- Kinds of entities that are flat. -/
def Spec.IsFlat : Entity ℝ → Prop
  | .plane _ => True
  | .disk _ => True
  | .triangle _ => True
  | _ => False

theorem Inter.out_point_some {x : Option (V3 ℝ)} {p : V3 ℝ} :
    (Res.ok (Inter.out .point x) : Res (Entity ℝ)) = .ok (.point p) ↔ x = some p := by
  cases x <;> simp [Inter.out]

theorem Spec.Steep.line_plane {tol : ℝ} {l : Line ℝ} {q : Plane ℝ} :
    Steep tol (.line l) (.plane q) ↔ tol < |dot3 l.direction q.normal| := by simp [Steep, heading]
theorem Spec.Steep.line_disk {tol : ℝ} {l : Line ℝ} {q : Disk ℝ} :
    Steep tol (.line l) (.disk q) ↔ tol < |dot3 l.direction q.plane.normal| := by simp [Steep, heading]
theorem Spec.Steep.line_triangle {tol : ℝ} {l : Line ℝ} {q : Triangle ℝ} :
    Steep tol (.line l) (.triangle q) ↔ tol ≤ |box3 l.direction q| := by simp [Steep, heading]
theorem Spec.Steep.ray_plane {tol : ℝ} {l : Ray ℝ} {q : Plane ℝ} :
    Steep tol (.ray l) (.plane q) ↔ tol < |dot3 l.direction q.normal| := by simp [Steep, heading]
theorem Spec.Steep.ray_disk {tol : ℝ} {l : Ray ℝ} {q : Disk ℝ} :
    Steep tol (.ray l) (.disk q) ↔ tol < |dot3 l.direction q.plane.normal| := by simp [Steep, heading]
theorem Spec.Steep.ray_triangle {tol : ℝ} {l : Ray ℝ} {q : Triangle ℝ} :
    Steep tol (.ray l) (.triangle q) ↔ tol ≤ |box3 l.direction q| := by simp [Steep, heading]
theorem Spec.Steep.segment_plane {tol : ℝ} {l : Segment ℝ} {q : Plane ℝ} :
    Steep tol (.segment l) (.plane q) ↔ tol < |dot3 (minus l.v1 l.v0) q.normal| := by
  simp [Steep, heading]
theorem Spec.Steep.segment_disk {tol : ℝ} {l : Segment ℝ} {q : Disk ℝ} :
    Steep tol (.segment l) (.disk q) ↔ tol < |dot3 (minus l.v1 l.v0) q.plane.normal| := by
  simp [Steep, heading]
theorem Spec.Steep.segment_triangle {tol : ℝ} {l : Segment ℝ} {q : Triangle ℝ} :
    Steep tol (.segment l) (.triangle q) ↔ tol ≤ |box3 (minus l.v1 l.v0) q| := by simp [Steep, heading]

/-- The dispatcher on a line, ray or segment and a plane, triangle or disk that are not coplanar. -/
theorem Inter.entity_general {α : Type} [Scalar α] (a b : Entity α) (tol : α) (ha : a.isPoint = false)
    (hb : b.isPoint = false) (hl : Rel.collinear a b eps = false) (hc : Rel.coplanar a b eps = false) :
    Inter.entity a b tol = Inter.general a b tol := by
  simp only [Inter.entity, ha, hb, hl, hc, Bool.or_self, Bool.false_eq_true, if_false]

/-- **C75.** A point reported for a line, ray or segment and a plane, triangle or disk that are not
coplanar belongs to both, up to the tolerance at the ends of the first and at the border of a triangle,
and the two are steep enough. -/
theorem C75_sound (a b : Entity ℝ) (ka : carrier a ≠ none) (kb : IsFlat b) (tol : ℝ) (ht : 0 < tol)
    (hc : Rel.coplanar a b eps = false) (p : V3 ℝ) (h : Inter.entity a b tol = .ok (.point p)) :
    Steep tol a b ∧ NearTrack tol a p ∧ NearFlat tol b p := by
  cases a <;> first | exact absurd rfl ka | skip
  all_goals cases b <;> first | exact False.elim kb | skip
  all_goals
    rw [Inter.entity_general _ _ _ rfl rfl rfl hc] at h
    simp only [Inter.general, Inter.out_point_some] at h
  · obtain ⟨h1, h2, h3⟩ := (Inter.linePlane_iff _ _ _ ht.le _).1 h
    exact ⟨Steep.line_plane.2 h1, NearTrack.line.2 h3, h2⟩
  · obtain ⟨h1, h2, h3⟩ := (Inter.lineTriangle_param ht p).1 h
    exact ⟨Steep.line_triangle.2 h2, NearTrack.line.2 ⟨_, h1⟩, h3⟩
  · obtain ⟨h0, hd⟩ := (Inter.lineDiskPoint_iff _ _ _ ht _).1 h
    obtain ⟨h1, h2, h3⟩ := (Inter.linePlane_iff _ _ _ ht.le _).1 h0
    exact ⟨Steep.line_disk.2 h1, NearTrack.line.2 h3, hd⟩
  · obtain ⟨h1, h2, t, h3, h4⟩ := (Inter.rayPlane_iff _ _ _ ht.le _).1 h
    exact ⟨Steep.ray_plane.2 h1, NearTrack.ray.2 ⟨t, by linarith, h4⟩, h2⟩
  · obtain ⟨h0, hr⟩ := (Inter.rayTriangle_some _ _ _ _).1 h
    obtain ⟨h1, h2, h3⟩ := (Inter.lineTriangle_param ht p).1 h0
    simp only [real_sub, real_zero, zero_sub, real_le, decide_eq_true_eq] at hr
    exact ⟨Steep.ray_triangle.2 h2, NearTrack.ray.2 ⟨_, hr, h1⟩, h3⟩
  · obtain ⟨h0, hd⟩ := (Inter.rayDiskPoint_iff _ _ _ ht _).1 h
    obtain ⟨h1, h2, t, h3, h4⟩ := (Inter.rayPlane_iff _ _ _ ht.le _).1 h0
    exact ⟨Steep.ray_disk.2 h1, NearTrack.ray.2 ⟨t, by linarith, h4⟩, hd⟩
  · obtain ⟨h1, h2, t, h3, h4⟩ := (Inter.planeSeg_iff _ _ _ ht.le _).1 h
    exact ⟨Steep.segment_plane.2 h1, NearTrack.segment.2 ⟨t, h3.1, h3.2, h4⟩, h2⟩
  · obtain ⟨h0, hr⟩ := (Inter.segTriangle_some _ _ _ _).1 h
    rw [Segment.toVector_eq3] at h0 hr
    obtain ⟨h1, h2, h3⟩ := (Inter.lineTriangle_param ht p).1 h0
    simp only [real_sub, real_zero, zero_sub, real_le, decide_eq_true_eq, Bool.and_eq_true, real_add,
      real_one] at hr
    exact ⟨Steep.segment_triangle.2 h2, NearTrack.segment.2 ⟨_, hr.1, hr.2, h1⟩, h3⟩
  · obtain ⟨h0, hd⟩ := (Inter.segDiskPoint_iff _ _ _ ht _).1 h
    obtain ⟨h1, h2, t, h3, h4⟩ := (Inter.planeSeg_iff _ _ _ ht.le _).1 h0
    exact ⟨Steep.segment_disk.2 h1, NearTrack.segment.2 ⟨t, h3.1, h3.2, h4⟩, hd⟩

/-- **C75 (partial).** A common point of a line, ray or segment and a plane, triangle or disk that are
not coplanar and steep enough is found.  Missing: rays that start within the tolerance of a plane or
disk, see `C75_ray_start_refuted`. -/
theorem C75_complete_partial (a b : Entity ℝ) (ka : carrier a ≠ none) (kb : IsFlat b) (tol : ℝ)
    (ht : 0 < tol) (hc : Rel.coplanar a b eps = false) (hs : Steep tol a b) (p : V3 ℝ) (h1 : Has a p)
    (h2 : Has b p)
    (h3 : ∀ r, a = .ray r → b.isTriangle = false → ∃ t, tol < t ∧ p = along r.origin t r.direction) :
    Inter.entity a b tol = .ok (.point p) := by
  cases a <;> first | exact absurd rfl ka | skip
  all_goals cases b <;> first | exact False.elim kb | skip
  all_goals
    rw [Inter.entity_general _ _ _ rfl rfl rfl hc]
    simp only [Inter.general, Inter.out_point_some]
  · exact (Inter.linePlane_iff _ _ _ ht.le _).2 ⟨Steep.line_plane.1 hs, h2, h1⟩
  · obtain ⟨t, h1⟩ := h1
    exact ((Inter.lineTriangle_param ht p).2 t h1 (Steep.line_triangle.1 hs) h2).1
  · exact (Inter.lineDiskPoint_iff _ _ _ ht _).2
      ⟨(Inter.linePlane_iff _ _ _ ht.le _).2 ⟨Steep.line_disk.1 hs, h2.1, h1⟩, h2⟩
  · exact (Inter.rayPlane_iff _ _ _ ht.le _).2 ⟨Steep.ray_plane.1 hs, h2, h3 _ rfl rfl⟩
  · obtain ⟨t, h0, h1⟩ := h1
    obtain ⟨e1, e2⟩ := (Inter.lineTriangle_param ht p).2 t h1 (Steep.ray_triangle.1 hs) h2
    refine (Inter.rayTriangle_some _ _ _ _).2 ⟨e1, ?_⟩
    rw [e2]
    simp only [real_sub, real_zero, zero_sub, real_le, decide_eq_true_eq]
    linarith
  · exact (Inter.rayDiskPoint_iff _ _ _ ht _).2
      ⟨(Inter.rayPlane_iff _ _ _ ht.le _).2 ⟨Steep.ray_disk.1 hs, h2.1, h3 _ rfl rfl⟩, h2⟩
  · obtain ⟨t, h0, h1', h1⟩ := h1
    exact (Inter.planeSeg_iff _ _ _ ht.le _).2
      ⟨Steep.segment_plane.1 hs, h2, t, ⟨by linarith, by linarith⟩, h1⟩
  · obtain ⟨t, h0, h1', h1⟩ := h1
    obtain ⟨e1, e2⟩ := (Inter.lineTriangle_param ht p).2 t h1 (Steep.segment_triangle.1 hs) h2
    refine (Inter.segTriangle_some _ _ _ _).2 ?_
    rw [Segment.toVector_eq3, e2]
    refine ⟨e1, ?_⟩
    simp only [real_sub, real_zero, zero_sub, real_le, decide_eq_true_eq, Bool.and_eq_true, real_add,
      real_one]
    exact ⟨by linarith, by linarith⟩
  · obtain ⟨t, h0, h1', h1⟩ := h1
    exact (Inter.segDiskPoint_iff _ _ _ ht _).2
      ⟨(Inter.planeSeg_iff _ _ _ ht.le _).2
        ⟨Steep.segment_disk.1 hs, h2.1, t, ⟨by linarith, by linarith⟩, h1⟩, h2⟩

/-- **C75.** If such a pair has no point in common, even enlarged by the tolerance, nothing is
reported. -/
theorem C75_none (a b : Entity ℝ) (ka : carrier a ≠ none) (kb : IsFlat b) (tol : ℝ) (ht : 0 < tol)
    (hc : Rel.coplanar a b eps = false) (h : ∀ p, NearTrack tol a p → ¬ NearFlat tol b p) :
    Inter.entity a b tol = .ok .none := by
  have hx : ∃ x, Inter.entity a b tol = .ok (Inter.out .point x) := by
    cases a <;> first | exact absurd rfl ka | skip
    all_goals cases b <;> first | exact False.elim kb | skip
    all_goals
      rw [Inter.entity_general _ _ _ rfl rfl rfl hc]
      exact ⟨_, rfl⟩
  obtain ⟨_ | p, hx⟩ := hx
  · exact hx
  · obtain ⟨-, h1, h2⟩ := C75_sound a b ka kb tol ht hc p hx
    exact absurd h2 (h p h1)

theorem Rel.ray_plane_not_coplanar {r : Ray ℝ} {q : Plane ℝ} (hq : r.direction = q.normal) (hu : Unit3 q.normal) :
    Rel.coplanar (.ray r) (.plane q) eps = false := by
  have : V3.isOrthogonal r.direction q.normal eps = false := by
    unfold V3.isOrthogonal
    have e : dot3 q.normal q.normal = 1 := hu.dot
    simp only [V3.sqNorm, V3.dot_eq, hq, e, real_le, real_mul, decide_eq_false_iff_not, not_le]
    have := real_eps_pos
    have := real_eps_lt_one
    norm_num
    nlinarith
  simp only [Rel.coplanar, Rel.copRayPlane, this, Bool.false_and]

/-- **C75 (refuted for rays and planes).** A ray that starts on a plane, in the direction of its normal,
is reported to miss it. -/
theorem C75_ray_start_refuted (tol : ℝ) (h0 : 0 < tol) (h1 : tol < 1) :
    let r : Entity ℝ := .ray ⟨⟨0, 0, 0⟩, ⟨0, 0, 1⟩⟩
    let q : Entity ℝ := .plane ⟨⟨0, 0, 0⟩, ⟨0, 0, 1⟩⟩
    (Has r ⟨0, 0, 0⟩ ∧ Has q ⟨0, 0, 0⟩ ∧ Steep tol r q) ∧ Inter.entity r q tol = .ok .none := by
  intro r q
  have hc : Rel.coplanar r q eps = false := Rel.ray_plane_not_coplanar rfl (by simp [Unit3])
  refine ⟨⟨⟨0, le_rfl, by simp [along]⟩, by simp [q, Has, OnPlane, minus, dot3], ?_⟩, ?_⟩
  · exact Steep.ray_plane.2 (by simpa [dot3] using h1)
  · rw [Inter.entity_general r q tol rfl rfl rfl hc]
    have : Inter.rayPlane (⟨⟨0, 0, 0⟩, ⟨0, 0, 1⟩⟩ : Ray ℝ) ⟨⟨0, 0, 0⟩, ⟨0, 0, 1⟩⟩ tol = none := by
      rcases hx : Inter.rayPlane (⟨⟨0, 0, 0⟩, ⟨0, 0, 1⟩⟩ : Ray ℝ) ⟨⟨0, 0, 0⟩, ⟨0, 0, 1⟩⟩ tol with _ | p
      · rfl
      · obtain ⟨-, h2, t, h3, rfl⟩ := (Inter.rayPlane_iff _ _ _ h0.le _).1 hx
        simp [OnPlane, minus, along, dot3] at h2
        linarith
    simp only [r, q, Inter.general, this, Inter.out]

/-- A ray from above through a plane. -/
example : Inter.entity (.ray ⟨⟨0, 0, 2⟩, ⟨0, 0, -1⟩⟩) (.plane ⟨⟨5, 5, 1⟩, ⟨0, 0, -1⟩⟩) (1 / 100 : ℝ) =
    .ok (.point ⟨0, 0, 1⟩) := by
  refine C75_complete_partial _ _ (by simp [carrier]) (by exact trivial) _ (by norm_num)
    (Rel.ray_plane_not_coplanar rfl (by simp [Unit3])) (Steep.ray_plane.2 (by norm_num [dot3])) _
    ⟨1, by norm_num, by norm_num [along]⟩ (by simp [Has, OnPlane, minus, dot3]) ?_
  rintro r hr -
  cases hr
  exact ⟨1, by norm_num, by norm_num [along]⟩

end Enve
