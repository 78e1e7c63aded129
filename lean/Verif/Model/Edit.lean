import Verif.Model.Access

/-! # Changing ground objects after construction

`triangleground` derives publicly from `triangle`, `flat` from `plane`, so the members of the base classes
that change the object are available to every user.  The members `m_normal` and `m_bbox` of a ground triangle
are written by its constructors and by `copy` only. -/

namespace Enve
open Scalar
variable {α : Type} [Scalar α]

namespace TriangleGround

/-- The public operations that change a `triangleground` (`enve/triangleground.hxx:49-163`,
`acme/triangle.hxx:57-230`). -/
inductive Edit (α : Type) where
  /-- `triangle::translate`, `triangle.cc:283-291` -/
  | translate (v : V3 α)
  /-- `triangle::transform`, `triangle.cc:295-303` -/
  | transform (m : Affine α)
  /-- `entity::rotate`, `entity.cc:62-71` -/
  | rotate (angle : α) (axis : V3 α)
  /-- `triangle::swap`, `triangle.cc:215-225` -/
  | swap (i j : Int)
  /-- `t.triangle::vertex(i) = p` and `t.triangle::operator[](i) = p`, `triangle.cc:126-137, 159-171` -/
  | write (i : Int) (p : V3 α)
  /-- `static_cast<triangle &>(t) = tri`, the implicit assignment of `acme/triangle.hxx:70` -/
  | assign (tri : Triangle α)
  /-- `triangleground::copy`, `triangleground.cc:145-154` -/
  | copy (other : TriangleGround α)

/-- The effect of one operation: except for `copy` only the vertices change. -/
def edit (t : TriangleGround α) : Edit α → Res (TriangleGround α)
  | .translate v => .ok { t with tri := t.tri.translate v }
  | .transform m => .ok { t with tri := t.tri.transform m }
  | .rotate a u => .ok { t with tri := t.tri.transform (Affine.id.rotate (M3.ofAngleAxis a u)) }
  | .swap i j => do return { t with tri := ← t.tri.swap i j }
  | .write i p => do return { t with tri := ← t.tri.setVertex i p }
  | .assign tri => .ok { t with tri := tri }
  | .copy other => .ok (t.copy other)

/-- A sequence of operations. -/
def edits (t : TriangleGround α) : List (Edit α) → Res (TriangleGround α)
  | [] => .ok t
  | e :: es => do (← t.edit e).edits es

end TriangleGround

namespace Flat

/-- The public operations that change a `flat` (`enve/flat.hxx:51-135`, `acme/plane.hxx`). -/
inductive Edit (α : Type) where
  /-- `g.friction() = f`, `flat.cc:164-168` -/
  | setFriction (f : α)
  /-- `g.origin() = p`, `plane.cc:104-108` -/
  | setOrigin (p : V3 α)
  /-- `g.normal() = n`, `plane.cc:121-125` -/
  | setNormal (n : V3 α)
  /-- `g.layingPlane() = q`, `flat.cc:181-185` -/
  | setPlane (q : Plane α)
  /-- `plane::normalize`, `plane.cc:138-142` -/
  | normalize
  /-- `plane::reverse`, `plane.cc:146-150` -/
  | reverse
  /-- `plane::translate`, `plane.cc:197-203` -/
  | translate (v : V3 α)
  /-- `plane::transform`, `plane.cc:207-214` -/
  | transform (m : Affine α)
  /-- `entity::rotate`, `entity.cc:62-71` -/
  | rotate (angle : α) (axis : V3 α)
  /-- `flat::copy`, `flat.cc:130-138` -/
  | copy (other : Flat α)

/-- The effect of one operation; none of them checks anything. -/
def edit (g : Flat α) : Edit α → Flat α
  | .setFriction f => g.setFriction f
  | .setOrigin p => { g with plane := { g.plane with origin := p } }
  | .setNormal n => { g with plane := { g.plane with normal := n } }
  | .setPlane q => { g with plane := q }
  | .normalize => { g with plane := g.plane.normalize }
  | .reverse => { g with plane := g.plane.reverse }
  | .translate v => { g with plane := g.plane.translate v }
  | .transform m => { g with plane := g.plane.transform m }
  | .rotate a u => { g with plane := g.plane.transform (Affine.id.rotate (M3.ofAngleAxis a u)) }
  | .copy other => g.copy other

/-- A sequence of operations. -/
def edits (g : Flat α) (es : List (Edit α)) : Flat α := es.foldl edit g

end Flat
end Enve
