import Verif.Model.Entity
import Verif.Spec.Geometry
import Mathlib.Analysis.SpecialFunctions.Trigonometric.Inverse

/-! # Entities as point sets of real 3-space, and relations between them -/

namespace Enve.Spec

/-- `p` is on the half line from `r.origin` in direction `r.direction`. -/
def OnRay (r : Ray ℝ) (p : V3 ℝ) : Prop := ∃ t : ℝ, 0 ≤ t ∧ p = along r.origin t r.direction

/-- `p` is in the closed ball. -/
def InBall (b : Ball ℝ) (p : V3 ℝ) : Prop := dist3 p b.center ≤ b.radius

/-- The point set described by an entity. -/
def Has : Entity ℝ → V3 ℝ → Prop
  | .none, _ => False
  | .point q, p => p = q
  | .line l, p => OnLine l p
  | .ray r, p => OnRay r p
  | .plane q, p => OnPlane q p
  | .segment s, p => OnSegment s p
  | .triangle t, p => InTriangle t.v0 t.v1 t.v2 p
  | .disk d, p => InDisk d p
  | .ball b, p => InBall b p

/-- Vector product, coordinatewise. -/
def cross3 (a b : V3 ℝ) : V3 ℝ :=
  ⟨a.y * b.z - a.z * b.y, a.z * b.x - a.x * b.z, a.x * b.y - a.y * b.x⟩

/-- The vector divided by its length. -/
noncomputable def unit3 (a : V3 ℝ) : V3 ℝ := ⟨a.x / length3 a, a.y / length3 a, a.z / length3 a⟩

/-- The angle between two unit vectors, in `[0, π]`. -/
noncomputable def angle3 (a b : V3 ℝ) : ℝ := Real.arccos (dot3 a b)

/-- How an entity is oriented in space: a line, ray or segment runs along a vector, a plane, triangle
or disk is perpendicular to one. -/
inductive Attitude where
  | along (u : V3 ℝ)
  | across (n : V3 ℝ)

/-- The orientation of an entity; a point, a ball and the empty entity have none. -/
noncomputable def attitude : Entity ℝ → Option Attitude
  | .line l => some (.along l.direction)
  | .ray r => some (.along r.direction)
  | .segment s => some (.along (unit3 (minus s.v1 s.v0)))
  | .plane p => some (.across p.normal)
  | .triangle t => some (.across (unit3 (cross3 (minus t.v1 t.v0) (minus t.v2 t.v0))))
  | .disk d => some (.across d.plane.normal)
  | _ => none

/-- Directions and normals are unit vectors, segments have two different end points, the vertices of a
triangle are not aligned, radii are positive. -/
def Proper : Entity ℝ → Prop
  | .none => True
  | .point _ => True
  | .line l => Unit3 l.direction
  | .ray r => Unit3 r.direction
  | .plane p => Unit3 p.normal
  | .segment s => s.v0 ≠ s.v1
  | .triangle t => cross3 (minus t.v1 t.v0) (minus t.v2 t.v0) ≠ ⟨0, 0, 0⟩
  | .disk d => Unit3 d.plane.normal ∧ 0 < d.radius
  | .ball b => 0 < b.radius

/-- Two entities are parallel up to an angle whose sine is less than `e`. -/
def ParallelWithin (e : ℝ) (a b : Entity ℝ) : Prop :=
  match attitude a, attitude b with
  | some (.along u), some (.along v) => Real.sin (angle3 u v) < e
  | some (.across m), some (.across n) => Real.sin (angle3 m n) < e
  | some (.along u), some (.across n) => |Real.cos (angle3 u n)| < e
  | some (.across n), some (.along u) => |Real.cos (angle3 u n)| < e
  | _, _ => False

/-- Two entities are orthogonal up to an angle whose sine is less than `e`. -/
def OrthogonalWithin (e : ℝ) (a b : Entity ℝ) : Prop :=
  match attitude a, attitude b with
  | some (.along u), some (.along v) => |Real.cos (angle3 u v)| < e
  | some (.across m), some (.across n) => |Real.cos (angle3 m n)| < e
  | some (.along u), some (.across n) => Real.sin (angle3 u n) < e
  | some (.across n), some (.along u) => Real.sin (angle3 u n) < e
  | _, _ => False

/-- A point and the unit direction of a line, ray or segment. -/
noncomputable def carrier : Entity ℝ → Option (V3 ℝ × V3 ℝ)
  | .line l => some (l.origin, l.direction)
  | .ray r => some (r.origin, r.direction)
  | .segment s => some (s.v0, unit3 (minus s.v1 s.v0))
  | _ => none

/-- The second entity starts less than `e` away from the line carrying the first one, and their
directions differ by an angle whose sine is less than `e`. -/
def CollinearWithin (e : ℝ) (a b : Entity ℝ) : Prop :=
  match carrier a, carrier b with
  | some (o, u), some (p, v) => (∃ t, dist3 (along o t u) p < e) ∧ Real.sin (angle3 u v) < e
  | _, _ => False

/-- Some line contains both point sets. -/
def SameLine (a b : Entity ℝ) : Prop :=
  ∃ l : Line ℝ, ∀ p, Has a p ∨ Has b p → OnLine l p

/-- Some plane contains both point sets. -/
def SamePlane (a b : Entity ℝ) : Prop :=
  ∃ q : Plane ℝ, q.normal ≠ ⟨0, 0, 0⟩ ∧ ∀ p, Has a p ∨ Has b p → OnPlane q p

end Enve.Spec
