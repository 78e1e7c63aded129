import Verif.Model.Intersection

/-! # ACME entities as one type: `entity` and its nine subclasses

`acme::entity` is an abstract class with the subclasses `none`, `point`, `line`, `ray`, `plane`,
`segment`, `triangle`, `disk` and `ball`.  A value of a subclass seen through an `entity const *` is a
value of the sum type `Entity`; the virtual members are functions by cases on it. -/

namespace Enve
open Scalar

/-- `acme::ray` (`ray.cc:71-78`). -/
@[ext] structure Ray (α : Type) where
  origin : V3 α
  direction : V3 α

/-- `acme::ball` (`ball.cc:71-78`). -/
@[ext] structure Ball (α : Type) where
  radius : α
  center : V3 α

variable {α : Type} [Scalar α]

namespace V3
/-- Eigen `a.isOrthogonal(b, prec)`: `abs2(a.dot(b)) <= prec*prec*a.squaredNorm()*b.squaredNorm()`. -/
def isOrthogonal (a b : V3 α) (prec : α) : Bool :=
  dot a b *. dot a b <=. prec *. prec *. sqNorm a *. sqNorm b
/-- `acme::Transform(vector, affine)`, `math.cc:62-69`. -/
def transform (a : V3 α) (m : Affine α) : V3 α := M3.mulVec m.linear a
end V3

namespace Line
/-- `line::isApprox`, `line.cc:82-91`. -/
def isApprox (l m : Line α) (tol : α) : Bool :=
  V3.isApprox l.origin m.origin tol && V3.isApprox l.direction m.direction tol
/-- `line::normalize`, `line.cc:129-133`. -/
def normalize (l : Line α) : Line α := { l with direction := V3.normalized l.direction }
/-- `line::toUnitVector`, `line.cc:146-151`. -/
def toUnitVector (l : Line α) : V3 α := V3.normalized l.direction
/-- `line::reverse`, `line.cc:155-159`. -/
def reverse (l : Line α) : Line α := { l with direction := V3.neg l.direction }
/-- `line::translate`, `line.cc:163-169`. -/
def translate (l : Line α) (v : V3 α) : Line α := { l with origin := V3.add v l.origin }
/-- `line::transform`, `line.cc:173-180`. -/
def transform (l : Line α) (m : Affine α) : Line α := ⟨m.apply l.origin, V3.transform l.direction m⟩
/-- `line::isInside`, `line.cc:184-192`: the offset from the origin is normalised, the direction is
not. -/
def isInside (l : Line α) (p : V3 α) (tol : α) : Bool :=
  Scalar.isApprox (V3.norm (V3.cross (V3.normalized (V3.sub p l.origin)) l.direction)) zero tol
/-- `line::isDegenerated`, `line.cc:196-203`. -/
def isDegenerated (l : Line α) (tol : α) : Bool := Scalar.isApprox (V3.norm l.direction) zero tol
end Line

namespace Ray
/-- `ray::isApprox`, `ray.cc:82-91`. -/
def isApprox (l m : Ray α) (tol : α) : Bool :=
  V3.isApprox l.origin m.origin tol && V3.isApprox l.direction m.direction tol
/-- `ray::normalize`, `ray.cc:129-133`. -/
def normalize (l : Ray α) : Ray α := { l with direction := V3.normalized l.direction }
/-- `ray::toUnitVector`, `ray.cc:146-151`. -/
def toUnitVector (l : Ray α) : V3 α := V3.normalized l.direction
/-- `ray::reverse`, `ray.cc:155-159`. -/
def reverse (l : Ray α) : Ray α := { l with direction := V3.neg l.direction }
/-- `ray::translate`, `ray.cc:163-169`. -/
def translate (l : Ray α) (v : V3 α) : Ray α := { l with origin := V3.add v l.origin }
/-- `ray::transform`, `ray.cc:173-180`. -/
def transform (l : Ray α) (m : Affine α) : Ray α := ⟨m.apply l.origin, V3.transform l.direction m⟩
/-- `ray::isInside`, `ray.cc:184-193`. -/
def isInside (l : Ray α) (p : V3 α) (tol : α) : Bool :=
  let q := V3.normalized (V3.sub p l.origin)
  Scalar.isApprox (V3.norm (V3.cross q l.direction)) zero tol && zero <=. V3.dot q l.direction
/-- `ray::isDegenerated`, `ray.cc:197-204`. -/
def isDegenerated (l : Ray α) (tol : α) : Bool := Scalar.isApprox (V3.norm l.direction) zero tol
end Ray

namespace Plane
/-- `plane::unitNormal`, `plane.cc:129-134`. -/
def unitNormal (p : Plane α) : V3 α := V3.normalized p.normal
/-- `plane::reverse`, `plane.cc:146-150`. -/
def reverse (p : Plane α) : Plane α := { p with normal := V3.neg p.normal }
/-- `plane::squaredDistance`, `plane.cc:174-182`. -/
def squaredDistance (p : Plane α) (q : V3 α) : α := p.signedDistance q *. p.signedDistance q
/-- `plane::translate`, `plane.cc:197-203`. -/
def translate (p : Plane α) (v : V3 α) : Plane α := { p with origin := V3.add v p.origin }
/-- `plane::transform`, `plane.cc:207-214`: the normal is multiplied by the linear part. -/
def transform (p : Plane α) (m : Affine α) : Plane α := ⟨m.apply p.origin, V3.transform p.normal m⟩
end Plane

namespace Segment
/-- `segment::isApprox`, `segment.cc:89-98`. -/
def isApprox (s t : Segment α) (tol : α) : Bool :=
  V3.isApprox s.v0 t.v0 tol && V3.isApprox s.v1 t.v1 tol
/-- `segment::swap`, `segment.cc:171-177`. -/
def swap (s : Segment α) : Segment α := ⟨s.v1, s.v0⟩
/-- `segment::translate`, `segment.cc:190-197`. -/
def translate (s : Segment α) (v : V3 α) : Segment α := ⟨V3.add v s.v0, V3.add v s.v1⟩
/-- `segment::transform`, `segment.cc:201-208`. -/
def transform (s : Segment α) (m : Affine α) : Segment α := ⟨m.apply s.v0, m.apply s.v1⟩
/-- `segment::clamp`, `segment.cc:238-274`. -/
def clamp (s : Segment α) : V3 α × V3 α :=
  (⟨Scalar.min s.v0.x s.v1.x, Scalar.min s.v0.y s.v1.y, Scalar.min s.v0.z s.v1.z⟩,
   ⟨Scalar.max s.v0.x s.v1.x, Scalar.max s.v0.y s.v1.y, Scalar.max s.v0.z s.v1.z⟩)
end Segment

namespace Triangle
/-- `triangle::translate`, `triangle.cc:283-291`. -/
def translate (t : Triangle α) (v : V3 α) : Triangle α :=
  ⟨V3.add v t.v0, V3.add v t.v1, V3.add v t.v2⟩
/-- `triangle::transform`, `triangle.cc:295-303`. -/
def transform (t : Triangle α) (m : Affine α) : Triangle α :=
  ⟨m.apply t.v0, m.apply t.v1, m.apply t.v2⟩
/-- `triangle::clamp`, `triangle.cc:343-379`. -/
def clamp (t : Triangle α) : V3 α × V3 α :=
  (⟨Scalar.min t.v0.x (Scalar.min t.v1.x t.v2.x), Scalar.min t.v0.y (Scalar.min t.v1.y t.v2.y),
    Scalar.min t.v0.z (Scalar.min t.v1.z t.v2.z)⟩,
   ⟨Scalar.max t.v0.x (Scalar.max t.v1.x t.v2.x), Scalar.max t.v0.y (Scalar.max t.v1.y t.v2.y),
    Scalar.max t.v0.z (Scalar.max t.v1.z t.v2.z)⟩)
end Triangle

namespace Disk
/-- `disk::translate`, `disk.cc:210-216`. -/
def translate (d : Disk α) (v : V3 α) : Disk α := { d with plane := d.plane.translate v }
/-- `disk::transform`, `disk.cc:220-226`: the radius is kept. -/
def transform (d : Disk α) (m : Affine α) : Disk α := { d with plane := d.plane.transform m }
/-- `disk::clamp`, `disk.cc:255-293`: the cube of half side `radius` around the centre. -/
def clamp (d : Disk α) : V3 α × V3 α :=
  let o := d.plane.origin
  let r := d.radius
  (⟨(-. r) +. o.x, (-. r) +. o.y, (-. r) +. o.z⟩, ⟨r +. o.x, r +. o.y, r +. o.z⟩)
end Disk

namespace Ball
/-- `ball::isApprox`, `ball.cc:82-91`. -/
def isApprox (b c : Ball α) (tol : α) : Bool :=
  Scalar.isApprox b.radius c.radius tol && V3.isApprox b.center c.center tol
/-- `ball::area`, `ball.cc:129-134`. -/
def area (b : Ball α) : α := lit 4 1 *. Scalar.pi *. b.radius *. b.radius
/-- `ball::volume`, `ball.cc:138-143`. -/
def volume (b : Ball α) : α :=
  lit 4 1 /. lit 3 1 *. Scalar.pi *. b.radius *. b.radius *. b.radius
/-- `ball::translate`, `ball.cc:147-153` (`point::translate`, `point.cc:57-63`, is `*this += v`). -/
def translate (b : Ball α) (v : V3 α) : Ball α := { b with center := V3.add b.center v }
/-- `ball::transform`, `ball.cc:157-162`: the radius is kept. -/
def transform (b : Ball α) (m : Affine α) : Ball α := { b with center := m.apply b.center }
/-- `ball::isInside`, `ball.cc:166-174` (the tolerance argument is ignored by the code). -/
def isInside (b : Ball α) (p : V3 α) : Bool := V3.norm (V3.sub b.center p) <=. b.radius
/-- `ball::isDegenerated`, `ball.cc:178-185`. -/
def isDegenerated (b : Ball α) (tol : α) : Bool := Scalar.isApprox b.radius zero tol
/-- `ball::clamp`, `ball.cc:189-226`. -/
def clamp (b : Ball α) : V3 α × V3 α :=
  let o := b.center
  let r := b.radius
  (⟨(-. r) +. o.x, (-. r) +. o.y, (-. r) +. o.z⟩, ⟨r +. o.x, r +. o.y, r +. o.z⟩)
end Ball

/-- A value of one of the subclasses of `acme::entity` (`acme/entity.hxx:50-250`). -/
inductive Entity (α : Type) where
  | none
  | point (p : V3 α)
  | line (l : Line α)
  | ray (r : Ray α)
  | plane (p : Plane α)
  | segment (s : Segment α)
  | triangle (t : Triangle α)
  | disk (d : Disk α)
  | ball (b : Ball α)

namespace Entity
omit [Scalar α] in
/-- `level()` (`none.hxx:97-103`, `point.hxx:105-111`, `line.hxx:165-171`, `ray.hxx:165-171`,
`plane.hxx:182-188`, `segment.hxx:181-187`, `triangle.hxx:210-216`, `disk.hxx:192-198`,
`ball.hxx:155-161`). -/
def level : Entity α → Int
  | none => 0
  | point _ => 1
  | line _ => 3
  | ray _ => 4
  | plane _ => 5
  | segment _ => 6
  | triangle _ => 7
  | disk _ => 8
  | ball _ => 9

/-- `isNone()` in the class headers. -/
def isNone : Entity α → Bool
  | none => true
  | _ => false
/-- `isPoint()` in the class headers. -/
def isPoint : Entity α → Bool
  | point _ => true
  | _ => false
/-- `isLine()` in the class headers. -/
def isLine : Entity α → Bool
  | line _ => true
  | _ => false
/-- `isRay()` in the class headers. -/
def isRay : Entity α → Bool
  | ray _ => true
  | _ => false
/-- `isPlane()` in the class headers. -/
def isPlane : Entity α → Bool
  | plane _ => true
  | _ => false
/-- `isSegment()` in the class headers. -/
def isSegment : Entity α → Bool
  | segment _ => true
  | _ => false
/-- `isTriangle()` in the class headers. -/
def isTriangle : Entity α → Bool
  | triangle _ => true
  | _ => false
/-- `isDisk()` in the class headers. -/
def isDisk : Entity α → Bool
  | disk _ => true
  | _ => false
/-- `isBall()` in the class headers. -/
def isBall : Entity α → Bool
  | ball _ => true
  | _ => false

/-- `isClampable()`: true for point, segment, triangle, disk and ball, false for none, line, ray and
plane (class headers). -/
def isClampable : Entity α → Bool
  | point _ => true
  | segment _ => true
  | triangle _ => true
  | disk _ => true
  | ball _ => true
  | _ => false

/-- `isNonClampable()`: true for line, ray and plane only (class headers; false for `none`). -/
def isNonClampable : Entity α → Bool
  | line _ => true
  | ray _ => true
  | plane _ => true
  | _ => false

/-- `isDegenerated(tolerance)`: `none.hxx:87-94`, `point.cc:77-84` and the members above. -/
def isDegenerated (tol : α) : Entity α → Bool
  | none => true
  | point _ => false
  | line l => l.isDegenerated tol
  | ray r => r.isDegenerated tol
  | plane p => p.isDegenerated tol
  | segment s => s.isDegenerated tol
  | triangle t => t.isDegenerated tol
  | disk d => d.isDegenerated tol
  | ball b => b.isDegenerated tol

/-- `clamp(min, max)`: the corners written together with `true`, or `none` when the function returns
`false` without writing (`none.cc:74-95`, `line.cc:207-216`, `ray.cc:208-216`, `plane.cc:241-249`,
`point.cc:88-98` and the members above). -/
def clamp : Entity α → Option (V3 α × V3 α)
  | point p => some (p, p)
  | segment s => some s.clamp
  | triangle t => some t.clamp
  | disk d => some d.clamp
  | ball b => some b.clamp
  | _ => Option.none

/-- `translate(vector)` (`none.cc:56-61`, `point.cc:57-63` and the members above). -/
def translate (v : V3 α) : Entity α → Entity α
  | none => none
  | point p => point (V3.add p v)
  | line l => line (l.translate v)
  | ray r => ray (r.translate v)
  | plane p => plane (p.translate v)
  | segment s => segment (s.translate v)
  | triangle t => triangle (t.translate v)
  | disk d => disk (d.translate v)
  | ball b => ball (b.translate v)

/-- `transform(affine)` (`none.cc:65-70`, `point.cc:67-73` and the members above). -/
def transform (m : Affine α) : Entity α → Entity α
  | none => none
  | point p => point (m.apply p)
  | line l => line (l.transform m)
  | ray r => ray (r.transform m)
  | plane p => plane (p.transform m)
  | segment s => segment (s.transform m)
  | triangle t => triangle (t.transform m)
  | disk d => disk (d.transform m)
  | ball b => ball (b.transform m)

/-- `entity::rotate(angle, axis)`, `entity.cc:62-71`. -/
def rotate (angle : α) (axis : V3 α) (e : Entity α) : Entity α :=
  e.transform (Affine.id.rotate (M3.ofAngleAxis angle axis))

end Entity
end Enve
