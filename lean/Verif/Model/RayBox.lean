import Verif.Model.AABB
import Verif.Model.Shapes

/-
Model of `Intersect/IntersectAABBHelper.hpp` and the ray part of `Intersect/IntersectAABB.hpp`.
-/
namespace Verif

/-- A floating point number that may be infinite (`std::numeric_limits<T>::infinity()`). -/
inductive Ext (T : Type u)
  | negInf
  | fin (t : T)
  | posInf
  deriving DecidableEq

namespace Ext
variable {T : Type u}

/-- IEEE `<`. -/
def ltb [LT T] [DecidableLT T] : Ext T → Ext T → Bool
  | negInf, negInf => false
  | negInf, _ => true
  | fin _, negInf => false
  | fin a, fin b => decide (a < b)
  | fin _, posInf => true
  | posInf, _ => false

/-- `std::min` (`(b < a) ? b : a`) on possibly infinite values. -/
def min [LT T] [DecidableLT T] (a b : Ext T) : Ext T := if ltb b a then b else a
/-- `std::max` (`(a < b) ? b : a`) on possibly infinite values. -/
def max [LT T] [DecidableLT T] (a b : Ext T) : Ext T := if ltb a b then b else a

/-- `linal::isLessEq` on possibly infinite values.  Simplification: for an infinite argument the tolerance plays no
role and the mathematical order is used (the only calls with an infinite argument come from a zero direction). -/
def isLessEq [Tol T] : Ext T → Ext T → Bool
  | fin a, fin b => Verif.isLessEq a b
  | negInf, _ => true
  | _, posInf => true
  | _, _ => false

/-- `linal::isGreaterEq` on possibly infinite values, with the same simplification. -/
def isGreaterEq [Tol T] : Ext T → Ext T → Bool
  | fin a, fin b => Verif.isGreaterEq a b
  | posInf, _ => true
  | _, negInf => true
  | _, _ => false
end Ext

section
variable {T : Type u} [Zero T] [One T] [Add T] [Sub T] [Mul T] [Div T] [LT T] [DecidableLT T] [Tol T]

/-- One turn of the loop (`IntersectAABBHelper.hpp:67-97`): the parameters at which the ray enters and leaves the slab
`[lo, hi]` of one axis; `none` is the early `return {}`. -/
def raySlab (o d lo hi : T) : Option (Ext T × Ext T) :=
  if isZero d then
    if isLess o lo || isGreater o hi then none else some (.negInf, .posInf)
  else
    let invDir := 1 / d
    let t1 := (lo - o) * invDir
    let t2 := (hi - o) * invDir
    some (.fin (stdMin t1 t2), .fin (stdMax t1 t2))

/-- `aabb_ray_intersection_interval` (`IntersectAABBHelper.hpp:29-106`), the loop over the three axes written out.
The early return is `{max(), lowest()}` (lines 17-22). -/
def aabbRayInterval [HasLimits T] (ray : Ray T 3) (box : AABB T 3) : Ext T × Ext T :=
  let slab := fun i : Fin 3 => raySlab (ray.origin i) (ray.direction i) (box.min i) (box.max i)
  match slab 0, slab 1, slab 2 with
  | some a, some b, some c => (Ext.max a.1 (Ext.max b.1 c.1), Ext.min a.2 (Ext.min b.2 c.2))
  | _, _, _ => (.fin HasLimits.maxVal, .fin HasLimits.lowest)

/-- `is_intersecting(ray, aabb)` and `is_intersecting(aabb, ray)` (`IntersectAABB.hpp:110-133`). -/
def isIntersectingRayBox [HasLimits T] (ray : Ray T 3) (box : AABB T 3) : Bool :=
  let res := aabbRayInterval ray box
  res.1.isLessEq res.2 && res.2.isGreaterEq (.fin 0)

/-- `ordinate_to_point` (`IntersectAABBHelper.hpp:108-113`). -/
def ordinateToPoint (dbg : Bool) (ray : Ray T 3) (t : Ext T) : Res (Vec T 3) := do
  geoAssert dbg (t.isGreaterEq (.fin 0))
  match t with
  | .fin t => return vadd ray.origin (vscale ray.direction t)
  | _ => .error .notFinite

/-- `AABBIntersectionResult` (`IntersectAABB.hpp:135-170`): a point and its `has_…` flag are one `Option`. -/
structure AABBIntersectionResult (T : Type u) where
  enter : Option (Vec T 3) := none
  exit : Option (Vec T 3) := none

/-- `intersect(ray, aabb)` and `intersect(aabb, ray)` (`IntersectAABB.hpp:172-200`). -/
def intersectRayBox [HasLimits T] (dbg : Bool) (ray : Ray T 3) (box : AABB T 3) : Res (AABBIntersectionResult T) := do
  let res := aabbRayInterval ray box
  if res.1.isGreaterEq res.2 then return {}
  else
    let enter ← if res.1.isGreaterEq (.fin 0) then some <$> ordinateToPoint dbg ray res.1 else pure none
    let exit ← if res.2.isGreaterEq (.fin 0) then some <$> ordinateToPoint dbg ray res.2 else pure none
    return ⟨enter, exit⟩
end
end Verif
