import Verif.Base.Vec

/-! # Rotations and rigid poses of real 3-space -/

namespace Enve.Spec

/-- The columns of `m` are orthonormal and right handed. -/
structure IsRotation (m : M3 ℝ) : Prop where
  unit0 : m.c0.x ^ 2 + m.c0.y ^ 2 + m.c0.z ^ 2 = 1
  unit1 : m.c1.x ^ 2 + m.c1.y ^ 2 + m.c1.z ^ 2 = 1
  unit2 : m.c2.x ^ 2 + m.c2.y ^ 2 + m.c2.z ^ 2 = 1
  orth01 : m.c0.x * m.c1.x + m.c0.y * m.c1.y + m.c0.z * m.c1.z = 0
  orth02 : m.c0.x * m.c2.x + m.c0.y * m.c2.y + m.c0.z * m.c2.z = 0
  orth12 : m.c1.x * m.c2.x + m.c1.y * m.c2.y + m.c1.z * m.c2.z = 0
  det : m.c0.x * (m.c1.y * m.c2.z - m.c1.z * m.c2.y) -
        m.c0.y * (m.c1.x * m.c2.z - m.c1.z * m.c2.x) +
        m.c0.z * (m.c1.x * m.c2.y - m.c1.y * m.c2.x) = 1

/-- A rigid pose: its linear part is a rotation. -/
def IsRigid (p : Affine ℝ) : Prop := IsRotation p.linear

/-- Euclidean distance. -/
noncomputable def dist3 (p q : V3 ℝ) : ℝ :=
  Real.sqrt ((p.x - q.x) ^ 2 + (p.y - q.y) ^ 2 + (p.z - q.z) ^ 2)

/-- Scalar product. -/
def dot3 (a b : V3 ℝ) : ℝ := a.x * b.x + a.y * b.y + a.z * b.z

/-- Euclidean length. -/
noncomputable def length3 (a : V3 ℝ) : ℝ := Real.sqrt (a.x ^ 2 + a.y ^ 2 + a.z ^ 2)

end Enve.Spec
