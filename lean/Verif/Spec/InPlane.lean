import Verif.Spec.Entity

/-! # Lines against flat bodies in the same plane -/

namespace Enve.Spec

/-- The distance of `c` from the line through `o` in the unit direction `u`. -/
noncomputable def offLine (o u c : V3 ℝ) : ℝ := length3 (cross3 (minus c o) u)

/-- In a plane with unit normal `n`: the distance of `v` from the line through `o` in the unit direction `u`, with a sign that tells
the two sides of the line apart. -/
def sideOf (o u n v : V3 ℝ) : ℝ := dot3 (minus v o) (cross3 n u)

/-- The unit normal of the plane through three points. -/
noncomputable def faceNormal (t : Triangle ℝ) : V3 ℝ := unit3 (cross3 (minus t.v1 t.v0) (minus t.v2 t.v0))

/-- `A` is strictly on one side of the zero set of `g`, `B` and `C` on the other: the edges from `A` are crossed at an angle that is
not too small, and `B` and `C` are not too close to the zero set in comparison with each other. -/
def Splits (tol : ℝ) (g : V3 ℝ → ℝ) (A B C : V3 ℝ) : Prop :=
  g A * g B < 0 ∧ g A * g C < 0 ∧ tol * dist3 A B ≤ |g A - g B| ∧ tol * dist3 A C ≤ |g A - g C| ∧
    tol * |g B - g C| < |g B| ∧ tol * |g B - g C| < |g C|

/-- `A`, `B` and `C` are on the same side of the zero set of `g`, and not too close to it in comparison with each other. -/
def Misses (tol : ℝ) (g : V3 ℝ → ℝ) (A B C : V3 ℝ) : Prop :=
  0 < g A * g B ∧ 0 < g B * g C ∧ tol * |g A - g B| < |g A| ∧ tol * |g A - g B| < |g B| ∧
    tol * |g B - g C| < |g B| ∧ tol * |g B - g C| < |g C| ∧ tol * |g C - g A| < |g C| ∧ tol * |g C - g A| < |g A|

/-- The zero set of `g` cuts one corner off the triangle or stays away from it, without touching a vertex or running along an edge. -/
def CutsCleanly (tol : ℝ) (g : V3 ℝ → ℝ) (t : Triangle ℝ) : Prop :=
  Splits tol g t.v0 t.v1 t.v2 ∨ Splits tol g t.v1 t.v2 t.v0 ∨ Splits tol g t.v2 t.v0 t.v1 ∨ Misses tol g t.v0 t.v1 t.v2

/-- The edge from `B` to `C` is in the zero set of `g`; the other edges leave it at an angle that is not too small. -/
def EdgeOn (tol : ℝ) (g : V3 ℝ → ℝ) (A B C : V3 ℝ) : Prop :=
  g B = 0 ∧ g C = 0 ∧ tol * dist3 A B ≤ |g A| ∧ tol * dist3 A C ≤ |g A|

/-- The zero set of `g` goes through `A` and between `B` and `C`: it crosses the edges at angles that are not too small, and `A` is not
too close to the opposite edge in comparison with its distance from the origin. -/
def Through (tol : ℝ) (g : V3 ℝ → ℝ) (A B C : V3 ℝ) : Prop :=
  g A = 0 ∧ g B * g C < 0 ∧ tol * dist3 A B ≤ |g B| ∧ tol * dist3 A C ≤ |g C| ∧ tol * dist3 B C ≤ |g B - g C| ∧
    ∀ p, OnSegment ⟨B, C⟩ p → tol * length3 A < dist3 A p

/-- The zero set of `g` cuts the triangle, also through a vertex, or runs along an edge, or stays away from it. -/
def Cuts (tol : ℝ) (g : V3 ℝ → ℝ) (t : Triangle ℝ) : Prop :=
  CutsCleanly tol g t ∨ ∃ A B C, (A = t.v0 ∧ B = t.v1 ∧ C = t.v2 ∨ A = t.v1 ∧ B = t.v2 ∧ C = t.v0 ∨ A = t.v2 ∧ B = t.v0 ∧ C = t.v1) ∧
    (EdgeOn tol g A B C ∨ Through tol g A B C)

/-- The zero set of `g` touches the triangle `A B C` in `A` only: the edges from `A` leave it at angles that are not too small, and `B` and
`C` are not too close to it in comparison with each other. -/
def VertexOn (tol : ℝ) (g : V3 ℝ → ℝ) (A B C : V3 ℝ) : Prop :=
  g A = 0 ∧ 0 < g B * g C ∧ tol * dist3 A B ≤ |g B| ∧ tol * dist3 A C ≤ |g C| ∧ tol * |g B - g C| < |g B| ∧ tol * |g B - g C| < |g C|

/-- A number that is at least `tol` or below `-tol`. -/
def Decided (tol x : ℝ) : Prop := tol ≤ x ∨ x < -tol

end Enve.Spec
