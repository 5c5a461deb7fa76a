import Verif.Model.Linal

/-
Model of `AABB.hpp`, `ExtremePointsInDirection.hpp` and the box/box part of `Intersect/IntersectAABB.hpp`.
-/
namespace Verif

/-- `class AABB` (`AABB.hpp:17-23`). -/
structure AABB (T : Type u) (D : Nat) where
  min : Vec T D
  max : Vec T D

namespace AABB
variable {T : Type u} {D : Nat}

/-- `AABB()` (`AABB.hpp:27-31`); `linal::vec{1.0}` is read as "all components 1". -/
def default [One T] [Neg T] : AABB T D := ⟨fun _ => 1, fun _ => -1⟩

section
variable [Tol T]

/-- `is_valid` (`AABB.hpp:69-79`). -/
def isValid (b : AABB T D) : Bool := forallFin D (fun i => !isGreaterEq (b.min i) (b.max i))

/-- `is_empty` (`AABB.hpp:84-94`). -/
def isEmpty (b : AABB T D) : Bool := !forallFin D (fun i => !isGreater (b.min i) (b.max i))

/-- `AABB(min, max)` (`AABB.hpp:33-38`): asserts validity in debug builds. -/
def mk? (dbg : Bool) (min max : Vec T D) : Res (AABB T D) := do
  let b : AABB T D := ⟨min, max⟩
  geoAssert dbg b.isValid
  return b

/-- `AABB(min, extend)` (`AABB.hpp:47-55`). -/
def ofExtend [Zero T] [Add T] [LE T] [DecidableLE T] (dbg : Bool) (min : Vec T D) (extend : T) : Res (AABB T D) := do
  geoAssert dbg (decide (0 ≤ extend))
  return ⟨min, fun i => min i + extend⟩

/-- `add(vec)` (`AABB.hpp:101-114`).  The loop treats each coordinate independently, so it is written per coordinate. -/
def add (b : AABB T D) (v : Vec T D) : AABB T D where
  min i := if isLess (v i) (b.min i) then v i else b.min i
  max i := if isGreater (v i) (b.max i) then v i else b.max i

/-- `add(AABB)` (`AABB.hpp:120-133`). -/
def addBox (b other : AABB T D) : AABB T D where
  min i := if isLess (other.min i) (b.min i) then other.min i else b.min i
  max i := if isGreater (other.max i) (b.max i) then other.max i else b.max i

/-- `operator==` (`AABB.hpp:135-138`). -/
def beq (l r : AABB T D) : Bool := isEqualVec l.min r.min && isEqualVec l.max r.max
end

/-- `center` (`AABB.hpp:63`). -/
def center [Add T] [Sub T] [Div T] [OfNat T 2] (b : AABB T D) : Vec T D :=
  vadd b.min (vdiv (vsub b.max b.min) 2)

end AABB

section
variable {T : Type u} {D : Nat}

/-- `is_intersecting(AABB, AABB)` (`Intersect/IntersectAABB.hpp:25-43`). -/
def aabbIsIntersecting [Tol T] (lhs rhs : AABB T D) : Bool :=
  forallFin D (fun i => !(isLessEq (lhs.max i) (rhs.min i) || isGreaterEq (lhs.min i) (rhs.max i)))

/-- `intersect(AABB, AABB)` (`Intersect/IntersectAABB.hpp:53-77`).  The loop returns the default box at the first
separated axis, otherwise fills both corners; the constructor of the result asserts validity. -/
def aabbIntersect [Tol T] [One T] [Neg T] [LT T] [DecidableLT T] (dbg : Bool) (lhs rhs : AABB T D) : Res (AABB T D) :=
  if forallFin D (fun i => !(isLessEq (lhs.max i) (rhs.min i) || isGreaterEq (lhs.min i) (rhs.max i))) then
    AABB.mk? dbg (fun i => stdMax (lhs.min i) (rhs.min i)) (fun i => stdMin (lhs.max i) (rhs.max i))
  else .ok AABB.default

/-- `struct MinMax` (`ExtremePointsInDirection.hpp:14-19`). -/
structure MinMax (T : Type u) where
  min : T
  max : T

/-- The loop of `extreme_points_along_direction` (`ExtremePointsInDirection.hpp:34-50`). -/
def extremeLoop [Zero T] [Add T] [Mul T] [LT T] [DecidableLT T] (dir : Vec T D) (acc : MinMax T) :
    List (Vec T D) → MinMax T
  | [] => acc
  | v :: rest =>
    let dist := dot v dir
    let minDist := if dist < acc.min then dist else acc.min
    let maxDist := if acc.max < dist then dist else acc.max
    extremeLoop dir ⟨minDist, maxDist⟩ rest

/-- `extreme_points_along_direction` (`ExtremePointsInDirection.hpp:27-51`). -/
def extremePointsAlongDirection [Tol T] [Zero T] [One T] [Add T] [Mul T] [LT T] [DecidableLT T] [HasSqrt T] [HasLimits T]
    (dbg : Bool) (dir : Vec T D) (points : List (Vec T D)) : Res (MinMax T) := do
  geoAssert dbg (!points.isEmpty)
  geoAssert dbg (isEq (length dir) 1)
  return extremeLoop dir ⟨HasLimits.maxVal, HasLimits.lowest⟩ points

/-- `make_aabb` (`AABB.hpp:143-165`), for `D = 3` (the code indexes `minMaxes[0..2]`).  `axis[i]` is zero except for
a one at `i` (lines 151-155; value-initialisation of `linal::vec` to zero is assumed). -/
def makeAABB [Tol T] [Zero T] [One T] [Add T] [Mul T] [LT T] [DecidableLT T] [HasSqrt T] [HasLimits T]
    (dbg : Bool) (points : List (Vec T 3)) : Res (AABB T 3) := do
  geoAssert dbg (!points.isEmpty)
  let m0 ← extremePointsAlongDirection dbg (fun j => if j = 0 then 1 else 0) points
  let m1 ← extremePointsAlongDirection dbg (fun j => if j = 1 then 1 else 0) points
  let m2 ← extremePointsAlongDirection dbg (fun j => if j = 2 then 1 else 0) points
  AABB.mk? dbg (fun i => if i = 0 then m0.min else if i = 1 then m1.min else m2.min)
    (fun i => if i = 0 then m0.max else if i = 1 then m1.max else m2.max)
end
end Verif
