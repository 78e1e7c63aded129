import Verif.Props.PierceProps

/-! # C70: the dispatch of `Intersection` on two entities -/

namespace Enve
open Scalar Spec

section
variable {α : Type} [Scalar α]

theorem Rel.coplanar_swap (a b : Entity α) (tol : α) (h : a.level ≠ b.level) :
    Rel.coplanar a b tol = Rel.coplanar b a tol := by
  cases a <;> cases b <;> first | rfl | exact absurd rfl h

/-- **C70 (partial).** For two entities of different kinds the order of the arguments of `Intersection`
does not matter, whatever the arithmetic.  Missing: a plane and a triangle, a plane and a disk, see
`C70_plane_triangle_refuted` and `C70_plane_disk_refuted`. -/
theorem C70_swap_partial (a b : Entity α) (tol : α) (h : a.level ≠ b.level)
    (h1 : a.isPlane = true → b.isTriangle = false ∧ b.isDisk = false)
    (h2 : b.isPlane = true → a.isTriangle = false ∧ a.isDisk = false) :
    Inter.entity a b tol = Inter.entity b a tol := by
  unfold Inter.entity
  rw [C68_swap a b eps h, Rel.coplanar_swap a b eps h, Bool.or_comm a.isPoint]
  have e1 : Inter.punctual a b tol = Inter.punctual b a tol := by
    cases a <;> cases b <;> first | rfl | exact absurd rfl h
  have e2 : Inter.onLine a b tol = Inter.onLine b a tol := by
    cases a <;> cases b <;> first | rfl | exact absurd rfl h
  have e3 : Inter.onPlane a b tol = Inter.onPlane b a tol := by
    cases a <;> cases b <;> first | rfl | exact absurd rfl h | exact absurd (h1 rfl).1 Bool.noConfusion |
      exact absurd (h2 rfl).1 Bool.noConfusion
  have e4 : Inter.general a b tol = Inter.general b a tol := by
    cases a <;> cases b <;> first | rfl | exact absurd rfl h | exact absurd (h1 rfl).2 Bool.noConfusion |
      exact absurd (h2 rfl).2 Bool.noConfusion
  rw [e1, e2, e3, e4]

/-- **C70 (refuted for a plane and a disk).** For a plane and a disk that are not coplanar the call with
the plane first is undefined behaviour, for every tolerance and whatever the arithmetic; with the disk
first it returns. -/
theorem C70_plane_disk_refuted (q : Plane α) (d : Disk α) (tol : α)
    (h : Rel.coplanar (.plane q) (.disk d) eps = false) :
    (∃ why, Inter.entity (.plane q) (.disk d) tol = .ub why) ∧
    ∃ x, Inter.entity (.disk d) (.plane q) tol = .ok x := by
  have h' : Rel.coplanar (.disk d) (.plane q) eps = false := h
  rw [Inter.entity_general _ _ _ rfl rfl rfl h, Inter.entity_general _ _ _ rfl rfl rfl h']
  exact ⟨⟨_, rfl⟩, _, rfl⟩

/-- The dimension of an entity as a point set; the empty entity counts as a point. -/
def Spec.dim {β : Type} : Entity β → Nat
  | .none => 0
  | .point _ => 0
  | .line _ => 1
  | .ray _ => 1
  | .segment _ => 1
  | .plane _ => 2
  | .triangle _ => 2
  | .disk _ => 2
  | .ball _ => 3

omit [Scalar α] in
theorem Inter.out_dim {β : Type} {c : β → Entity α} {n : Nat} (hc : ∀ b, dim (c b) ≤ n) (x : Option β) :
    dim (Inter.out c x) ≤ n := by
  cases x
  · exact Nat.zero_le _
  · exact hc _

omit [Scalar α] in
theorem Inter.dim_ok {β : Type} {c : β → Entity α} {n : Nat} (hc : ∀ b, dim (c b) ≤ n) {o : Option β}
    {x : Entity α} (h : Res.ok (Inter.out c o) = .ok x) : dim x ≤ n := by
  rw [← Res.ok.inj h]; exact Inter.out_dim hc o

omit [Scalar α] in
theorem Inter.dim_bind {β : Type} {c : β → Entity α} {n : Nat} (hc : ∀ b, dim (c b) ≤ n)
    {r : Res (Option β)} {x : Entity α}
    (h : (do let s ← r; return Inter.out c s : Res (Entity α)) = .ok x) : dim x ≤ n := by
  obtain ⟨s, -, h⟩ := Res.bind_eq_ok.1 h
  exact Inter.dim_ok hc h

/-- **C70.** The result of `Intersection` never has a larger dimension than one of the arguments,
whatever the arithmetic. -/
theorem C70_dim (a b : Entity α) (tol : α) (x : Entity α) (h : Inter.entity a b tol = .ok x) :
    dim x ≤ dim a ∧ dim x ≤ dim b := by
  have key : dim x ≤ Min.min (dim a) (dim b) := by
    unfold Inter.entity at h
    split at h
    · cases a <;> cases b <;> first
        | exact Inter.dim_ok (h := h) (hc := fun _ => Nat.le_of_ble_eq_true rfl)
        | cases h
    split at h
    · cases a <;> cases b <;> first
        | exact Inter.dim_ok (h := h) (hc := fun _ => Nat.le_of_ble_eq_true rfl)
        | exact Inter.dim_bind (h := h) (hc := fun _ => Nat.le_of_ble_eq_true rfl)
        | cases h
        | skip
      unfold Inter.onLine at h
      dsimp only at h
      split at h
      · cases h; exact Nat.le_refl _
      · split at h
        · cases h; exact Nat.le_refl _
        · cases h
    split at h
    · cases a <;> cases b <;> first
        | exact Inter.dim_ok (h := h) (hc := fun _ => Nat.le_of_ble_eq_true rfl)
        | exact Inter.dim_bind (h := h) (hc := fun _ => Nat.le_of_ble_eq_true rfl)
        | cases h
        | skip
      unfold Inter.onPlane at h
      obtain ⟨s, -, h⟩ := Res.bind_eq_ok.1 h
      cases h
      exact Nat.zero_le _
    · cases a <;> cases b <;> first
        | exact Inter.dim_ok (h := h) (hc := fun _ => Nat.le_of_ble_eq_true rfl)
        | exact Inter.dim_bind (h := h) (hc := fun _ => Nat.le_of_ble_eq_true rfl)
        | cases h
  exact le_min_iff.1 key

/-- **C70.** A ball can be intersected with a line, a ray, a plane or a segment, in this order or the
other, without an exception; with any other entity, and for an empty entity, `Intersection` throws. -/
theorem C70_ball_none (a : Entity α) (b : Ball α) (tol : α) :
    ((a.isLine || a.isRay || a.isPlane || a.isSegment) = true →
      ∃ x, Inter.entity a (.ball b) tol = .ok x ∧ Inter.entity (.ball b) a tol = .ok x) ∧
    ((a.isLine || a.isRay || a.isPlane || a.isSegment) = false →
      (∃ w, Inter.entity a (.ball b) tol = .throw w) ∧ ∃ w, Inter.entity (.ball b) a tol = .throw w) ∧
    (∃ w, Inter.entity a .none tol = .throw w) ∧ (∃ w, Inter.entity .none a tol = .throw w) := by
  refine ⟨?_, ?_, ?_, ?_⟩
  · intro h
    cases a <;> first | (cases h; done) | exact ⟨_, rfl, rfl⟩
  · intro h
    cases a <;> first | (cases h; done) | exact ⟨⟨_, rfl⟩, _, rfl⟩
  · cases a <;> exact ⟨_, rfl⟩
  · cases a <;> exact ⟨_, rfl⟩

end

/-- **C70 (refuted for a plane and a triangle).** For a plane and a triangle in it, the call with the
plane first returns the triangle, the call with the triangle first an empty entity. -/
theorem C70_plane_triangle_refuted (tol : ℝ) (ht : 0 < tol) :
    let q : Entity ℝ := .plane ⟨⟨0, 0, 0⟩, ⟨0, 0, 1⟩⟩
    let t : Entity ℝ := .triangle ⟨⟨0, 0, 0⟩, ⟨1, 0, 0⟩, ⟨0, 1, 0⟩⟩
    Proper q ∧ Proper t ∧ Inter.entity q t tol = .ok t ∧ Inter.entity t q tol = .ok .none := by
  intro q t
  have hq : Proper q := by simp [q, Proper, Unit3]
  have htp : Proper t := by simp [t, Proper, cross3, minus]
  have hs : SamePlane q t := by
    refine ⟨⟨⟨0, 0, 0⟩, ⟨0, 0, 1⟩⟩, by simp, ?_⟩
    rintro p (h | ⟨x, y, z, -, -, -, -, rfl⟩)
    · exact h
    · simp [OnPlane, dot3, minus]
  have hc := (C69_coplanar q t hq htp (by simp [q, attitude]) (by simp [t, attitude])).2 hs
  have hc1 := hc eps real_eps_pos
  have hn : (⟨⟨0, 0, 0⟩, ⟨1, 0, 0⟩, ⟨0, 1, 0⟩⟩ : Triangle ℝ).normal = ⟨0, 0, 1⟩ := by
    rw [Triangle.normal_eq]; simp [cross3, minus, unit3, length3]
  refine ⟨hq, htp, ?_, ?_⟩
  · have h2 : Rel.copPlaneTri (⟨⟨0, 0, 0⟩, ⟨0, 0, 1⟩⟩ : Plane ℝ) ⟨⟨0, 0, 0⟩, ⟨1, 0, 0⟩, ⟨0, 1, 0⟩⟩ tol = true :=
      hc tol ht
    have hl : Rel.collinear q t eps = false := rfl
    simp only [Inter.entity, hl, hc1]
    simp only [q, t, Entity.isPoint, Bool.or_self, Bool.false_eq_true, if_false, if_true, Inter.onPlane,
      Inter.planeTriTri, h2, Inter.out]
  · have hl : Rel.collinear t q eps = false := rfl
    have hc2 : Rel.coplanar t q eps = true := hc1
    simp only [Inter.entity, hl, hc2]
    have hu : Unit3 (⟨0, 0, 1⟩ : V3 ℝ) := by simp [Unit3]
    have hpp : Inter.planePlane (⟨⟨0, 0, 0⟩, ⟨0, 0, 1⟩⟩ : Plane ℝ)
        (⟨⟨0, 0, 0⟩, ⟨1, 0, 0⟩, ⟨0, 1, 0⟩⟩ : Triangle ℝ).layingPlane tol = none := by
      unfold Triangle.layingPlane
      rw [hn]
      exact (C51_plane_plane _ _ hu hu tol ht).1.2 (by simpa [dot3] using ht)
    simp only [q, t, Entity.isPoint, Bool.or_self, Bool.false_eq_true, if_false, if_true, Inter.onPlane,
      Inter.planeTriangle, hpp, Inter.out]
    rfl

/-- A segment and a triangle, in both orders. -/
example (s : Segment ℝ) (t : Triangle ℝ) :
    Inter.entity (.segment s) (.triangle t) eps = Inter.entity (.triangle t) (.segment s) eps :=
  C70_swap_partial _ _ _ (by simp [Entity.level]) (fun h => by cases h) (fun h => by cases h)

/-- A plane and a disk across it. -/
example : Rel.coplanar (.plane ⟨⟨0, 0, 0⟩, ⟨0, 0, 1⟩⟩) (.disk ⟨1, ⟨⟨0, 0, 0⟩, ⟨1, 0, 0⟩⟩⟩) (eps : ℝ) =
    false := by
  have := real_eps_lt_one
  simp [Rel.coplanar, Rel.copPlaneDisk, Rel.copPlanePlane, Disk.layingPlane, Rel.parV, Inter.isParallel,
    Scalar.isApprox, V3.real_cross, V3.norm_eq, length3]
  intro h
  linarith

end Enve
