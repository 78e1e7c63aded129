import Verif.Base.Vec
import Verif.Base.Res

/-! # `acme::aabb` (`toolbox/src/aabb.cc`) -/

namespace Enve
open Scalar

/-- `acme::aabb`, members `m_min, m_max, m_id, m_pos` (`acme/aabb.hxx:63-66`). -/
@[ext] structure Box (α : Type) where
  min : V3 α
  max : V3 α
  id : Int
  pos : Int

variable {α : Type} [Scalar α]

namespace Box

/-- One iteration of the loop of `aabb::updateMaxMin` (`aabb.cc:146-156`) on one coordinate:
the pair (min, max) is swapped when `max < min`. -/
def order1 (lo hi : α) : α × α := if hi <. lo then (hi, lo) else (lo, hi)

/-- `aabb::updateMaxMin`, `aabb.cc:141-158` (the returned flag is `checkOrder`). -/
def updateMaxMin (b : Box α) : Box α :=
  let x := order1 b.min.x b.max.x
  let y := order1 b.min.y b.max.y
  let z := order1 b.min.z b.max.z
  { b with min := ⟨x.1, y.1, z.1⟩, max := ⟨x.2, y.2, z.2⟩ }

/-- The value returned by `aabb::updateMaxMin`, `aabb.cc:141-158`: no coordinate was swapped. -/
def updateMaxMinFlag (b : Box α) : Bool :=
  !(b.max.x <. b.min.x) && !(b.max.y <. b.min.y) && !(b.max.z <. b.min.z)

/-- `aabb::aabb(void)`, `aabb.cc:50` with the member initialisers of `aabb.hxx:63-66`. -/
def default : Box α := ⟨V3.nan, V3.nan, 0, 0⟩

/-- `aabb::aabb(point, point, id, ipos)`, `aabb.cc:78-90` (the constructor from six reals,
`aabb.cc:56-74`, is the same). -/
def mk' (lo hi : V3 α) (id pos : Int) : Box α := updateMaxMin ⟨lo, hi, id, pos⟩

/-- `aabb::clear`, `aabb.cc:109-114`. -/
def clear (b : Box α) : Box α := { b with min := V3.nan, max := V3.nan }

/-- `aabb::min(x, y, z)`, `aabb.cc:200-210`, and assignment through the reference `aabb::min()` returns,
`aabb.cc:171-175`: the corners are not put in order. -/
def setMin (b : Box α) (p : V3 α) : Box α := { b with min := p }

/-- `aabb::max(x, y, z)`, `aabb.cc:252-262`, and assignment through the reference `aabb::max()` returns,
`aabb.cc:223-227`. -/
def setMax (b : Box α) (p : V3 α) : Box α := { b with max := p }

/-- `aabb::isApprox`, `aabb.cc:118-127`. -/
def isApprox (b c : Box α) (tol : α) : Bool :=
  V3.isApprox b.min c.min tol && V3.isApprox b.max c.max tol

/-- `aabb::checkMaxMin`, `aabb.cc:131-138`. -/
def checkMaxMin (b : Box α) : Bool :=
  b.min.x <=. b.max.x && b.min.y <=. b.max.y && b.min.z <=. b.max.z

/-- `aabb::intersects`, `aabb.cc:266-275`. -/
def intersects (b c : Box α) : Bool :=
  b.min.x <=. c.max.x && c.min.x <=. b.max.x &&
  b.min.y <=. c.max.y && c.min.y <=. b.max.y &&
  b.min.z <=. c.max.z && c.min.z <=. b.max.z

/-- Body of the loop of `aabb::merged`, `aabb.cc:296-311`. -/
def mergeStep (b cur : Box α) : Box α :=
  { b with
    min := ⟨if cur.min.x <. b.min.x then cur.min.x else b.min.x,
            if cur.min.y <. b.min.y then cur.min.y else b.min.y,
            if cur.min.z <. b.min.z then cur.min.z else b.min.z⟩
    max := ⟨if b.max.x <. cur.max.x then cur.max.x else b.max.x,
            if b.max.y <. cur.max.y then cur.max.y else b.max.y,
            if b.max.z <. cur.max.z then cur.max.z else b.max.z⟩ }

/-- `aabb::merged`, `aabb.cc:279-314`: the receiver keeps its id and rank, its corners are
overwritten. -/
def merged (this : Box α) : List (Box α) → Box α
  | [] => { this with min := V3.zeros, max := V3.zeros }
  | b :: bs => bs.foldl mergeStep { this with min := b.min, max := b.max }

/-- `aabb::aabb(std::vector<aabb::ptr>, id, ipos)`, `aabb.cc:94-106`. -/
def ofBoxes (bs : List (Box α)) (id pos : Int) : Box α :=
  updateMaxMin (merged ⟨V3.nan, V3.nan, id, pos⟩ bs)

/-- `aabb::centerDistance`, `aabb.cc:318-333`. -/
def centerDistance (b : Box α) (p : V3 α) : α :=
  let center := V3.sdiv (V3.add b.max b.min) two
  let m := V3.sub b.max center
  let c := V3.sub p center
  let sx := Scalar.abs (one /. m.x)
  let sy := Scalar.abs (one /. m.y)
  let sz := Scalar.abs (one /. m.z)
  let dx := Scalar.max zero (Scalar.abs c.x *. sx -. one) /. sx
  let dy := Scalar.max zero (Scalar.abs c.y *. sy -. one) /. sy
  let dz := Scalar.max zero (Scalar.abs c.z *. sz -. one) /. sz
  Scalar.sqrt (dx *. dx +. dy *. dy +. dz *. dz)

/-- `aabb::exteriorDistance`, `aabb.cc:337-347`. -/
def exteriorDistance (b : Box α) (p : V3 α) : α :=
  let dx := Scalar.max (Scalar.abs (p.x -. b.min.x)) (Scalar.abs (p.x -. b.max.x))
  let dy := Scalar.max (Scalar.abs (p.y -. b.min.y)) (Scalar.abs (p.y -. b.max.y))
  let dz := Scalar.max (Scalar.abs (p.z -. b.min.z)) (Scalar.abs (p.z -. b.max.z))
  Scalar.sqrt (dx *. dx +. dy *. dy +. dz *. dz)

/-- `aabb::clamp(point[3])` and `aabb::clamp(point,point,point)`, `aabb.cc:351-379`. -/
def clamp (b : Box α) (p0 p1 p2 : V3 α) : Box α :=
  { b with
    min := ⟨Scalar.min p0.x (Scalar.min p1.x p2.x), Scalar.min p0.y (Scalar.min p1.y p2.y),
            Scalar.min p0.z (Scalar.min p1.z p2.z)⟩
    max := ⟨Scalar.max p0.x (Scalar.max p1.x p2.x), Scalar.max p0.y (Scalar.max p1.y p2.y),
            Scalar.max p0.z (Scalar.max p1.z p2.z)⟩ }

/-- `aabb::translate`, `aabb.cc:417-424`. -/
def translate (b : Box α) (v : V3 α) : Box α := { b with min := V3.add v b.min, max := V3.add v b.max }

/-- `aabb::isInside`, `aabb.cc:428-441`; the code has no use for the tolerance. -/
def isInside (b : Box α) (p : V3 α) (_tol : α) : Bool :=
  b.min.x <=. p.x && b.min.y <=. p.y && b.min.z <=. p.z &&
  p.x <=. b.max.x && p.y <=. b.max.y && p.z <=. b.max.z

end Box
end Enve
