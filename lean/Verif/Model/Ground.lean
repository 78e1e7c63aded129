import Verif.Model.Geometry
import Verif.Model.Aabb

/-! # `enve::triangleground` (`src/triangleground.cc`) and `enve::ground::flat` (`src/flat.cc`) -/

namespace Enve
open Scalar

/-- `enve::triangleground`: base class `triangle`, members `m_id, m_friction, m_normal, m_bbox`. -/
@[ext] structure TriangleGround (α : Type) where
  tri : Triangle α
  id : Int
  friction : α
  normal : V3 α
  bbox : Box α

/-- `enve::ground::flat`: base class `plane`, member `m_friction`. -/
@[ext] structure Flat (α : Type) where
  plane : Plane α
  friction : α

variable {α : Type} [Scalar α]

namespace TriangleGround

/-- `triangleground::updateNormal`, `triangleground.cc:257-263`. -/
def updateNormal (t : TriangleGround α) : TriangleGround α :=
  let n := t.tri.normal
  { t with normal := if n.z <. zero then V3.smul (-. one) n else n }

/-- `triangleground::updateBBox`, `triangleground.cc:267-272`. -/
def updateBBox (t : TriangleGround α) : TriangleGround α :=
  { t with bbox := Box.clamp { t.bbox with id := t.id } t.tri.v0 t.tri.v1 t.tri.v2 }

/-- `triangleground::triangleground(void)`, `triangleground.cc:50-57`. -/
def default : TriangleGround α :=
  ⟨⟨V3.nan, V3.nan, V3.nan⟩, 0, Scalar.nan, V3.nan, Box.default⟩

/-- `triangleground::triangleground(id, friction, …)`, the three checked constructors
`triangleground.cc:61-141`, which differ only in how the vertices are passed. -/
def make (id : Int) (friction : α) (p0 p1 p2 : V3 α) : Res (TriangleGround α) := do
  Res.assert (zero <=. friction) "negative friction coefficient scaling factor detected."
  return updateBBox (updateNormal ⟨⟨p0, p1, p2⟩, id, friction, V3.nan, Box.default⟩)

/-- `triangleground::copy`, `triangleground.cc:145-154`: `m_id` keeps its old value. -/
def copy (this other : TriangleGround α) : TriangleGround α :=
  { this with tri := other.tri, friction := other.friction, normal := other.normal,
              bbox := other.bbox }

/-- `triangleground::isApprox`, `triangleground.cc:158-167`: the base comparison uses the default
tolerance. -/
def isApprox (t u : TriangleGround α) (tol : α) : Bool :=
  t.tri.isApprox u.tri Scalar.eps && Scalar.isApprox t.friction u.friction tol

end TriangleGround

namespace Flat

/-- `flat::flat(void)`, `flat.cc:55-59`. -/
def default : Flat α := ⟨⟨V3.nan, V3.nan⟩, Scalar.nan⟩

/-- `flat::flat(friction, …)`, the three checked constructors `flat.cc:63-126`. -/
def make (friction : α) (origin normal : V3 α) : Res (Flat α) := do
  Res.assert (zero <=. friction) "negative friction coefficient scaling factor detected."
  Res.assert (zero <. normal.z) "negative normal z-axis detected."
  return ⟨Plane.normalize ⟨origin, normal⟩, friction⟩

/-- `flat::copy`, `flat.cc:130-138`. -/
def copy (_this other : Flat α) : Flat α := ⟨Plane.normalize other.plane, other.friction⟩

/-- `flat::isApprox`, `flat.cc:142-151`: the plane comparison uses the default tolerance. -/
def isApprox (f g : Flat α) (tol : α) : Bool :=
  f.plane.isApprox g.plane Scalar.eps && Scalar.isApprox f.friction g.friction tol

/-- Assignment through the reference returned by `flat::friction()`, `flat.cc:164-168`: no check. -/
def setFriction (f : Flat α) (v : α) : Flat α := { f with friction := v }

/-- `flat::normal()`. -/
def normal (f : Flat α) : V3 α := f.plane.normal

end Flat
end Enve
