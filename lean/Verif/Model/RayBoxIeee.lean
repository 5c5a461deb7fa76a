import Verif.Model.RayBox
import Verif.Model.Ieee

/-
Second model of `aabb_ray_intersection_interval` and its callers: the parameters along the ray are plain `TFloat` values, infinities
included, as in the code.  (`Model/RayBox.lean` keeps the infinities apart, so that it can be used with exact numbers.)
-/
namespace Verif

/-- `std::numeric_limits<T>::infinity()`. -/
class HasInf (T : Type u) where
  infinity : T

instance {F : IeeeFormat} : HasInf (Ieee F) := ⟨.inf false⟩

section
variable {T : Type u} [Zero T] [One T] [Add T] [Sub T] [Mul T] [Div T] [Neg T] [LT T] [DecidableLT T] [Tol T] [HasInf T]

/-- One turn of both loops (`IntersectAABBHelper.hpp:44-57, 68-97`); `none` is the early `return {}`. -/
def raySlabRaw (o d lo hi : T) : Option (T × T) :=
  let invDir := if isZero d then HasInf.infinity else 1 / d
  if isZero d then
    if isLess o lo || isGreater o hi then none else some (-HasInf.infinity, HasInf.infinity)
  else
    let t1 := (lo - o) * invDir
    let t2 := (hi - o) * invDir
    some (stdMin t1 t2, stdMax t1 t2)

/-- `aabb_ray_intersection_interval` (`IntersectAABBHelper.hpp:29-106`), the loop over the three axes written out.
The early return is `{max(), lowest()}` (lines 17-22). -/
def aabbRayIntervalRaw [HasLimits T] (ray : Ray T 3) (box : AABB T 3) : T × T :=
  let slab := fun i : Fin 3 => raySlabRaw (ray.origin i) (ray.direction i) (box.min i) (box.max i)
  match slab 0, slab 1, slab 2 with
  | some a, some b, some c => (stdMax a.1 (stdMax b.1 c.1), stdMin a.2 (stdMin b.2 c.2))
  | _, _, _ => (HasLimits.maxVal, HasLimits.lowest)

/-- `is_intersecting(ray, aabb)` and `is_intersecting(aabb, ray)` (`IntersectAABB.hpp:111-133`). -/
def isIntersectingRayBoxRaw [HasLimits T] (ray : Ray T 3) (box : AABB T 3) : Bool :=
  let res := aabbRayIntervalRaw ray box
  isLessEq res.1 res.2 && isGreaterEq res.2 0

/-- `ordinate_to_point` (`IntersectAABBHelper.hpp:108-113`). -/
def ordinateToPointRaw (dbg : Bool) (ray : Ray T 3) (t : T) : Res (Vec T 3) := do
  geoAssert dbg (isGreaterEq t 0)
  return vadd ray.origin (vscale ray.direction t)

/-- `intersect(ray, aabb)` and `intersect(aabb, ray)` (`IntersectAABB.hpp:172-200`). -/
def intersectRayBoxRaw [HasLimits T] (dbg : Bool) (ray : Ray T 3) (box : AABB T 3) : Res (AABBIntersectionResult T) := do
  let res := aabbRayIntervalRaw ray box
  if isGreaterEq res.1 res.2 then return {}
  else
    let enter ← if isGreaterEq res.1 0 then some <$> ordinateToPointRaw dbg ray res.1 else pure none
    let exit ← if isGreaterEq res.2 0 then some <$> ordinateToPointRaw dbg ray res.2 else pure none
    return ⟨enter, exit⟩
end
end Verif
