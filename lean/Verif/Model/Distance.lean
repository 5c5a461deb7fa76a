import Verif.Model.Shapes

/-
Model of `ClosetPointOnLine.hpp` and `Distance/*.hpp`.
`distance(Line, Segment)` and `distance(Segment, Segment)` (`DistanceSegment.hpp:82-109`) are left out: they call
`distance(Segment, Line)` and `Segment::get_origin`, which do not exist, so they cannot be instantiated.
-/
namespace Verif
variable {T : Type u} {D : Nat}

/-- `struct CPOLParameters` (`ClosetPointOnLine.hpp:18-23`). -/
structure CPOLParameters (T : Type u) where
  t : T
  s : T
  deriving DecidableEq, Repr

/-- `closest_point_on_line_parameters` (`ClosetPointOnLine.hpp:38-64`). The C++ takes `vec3`; the text does not depend
on the dimension. -/
def closestPointOnLineParameters [Zero T] [Add T] [Sub T] [Mul T] [Div T] [Tol T]
    (lhsSource lhsDir rhsSource rhsDir : Vec T D) (eps : T := Tol.eps) : Option (CPOLParameters T) :=
  let w0 := vsub lhsSource rhsSource
  let a := dot lhsDir lhsDir
  let b := dot lhsDir rhsDir
  let c := dot rhsDir rhsDir
  let d := dot lhsDir w0
  let e := dot rhsDir w0
  let denom := a * c - b * b
  if Tol.isZero denom eps then none
  else some ⟨(b * e - c * d) / denom, (a * e - b * d) / denom⟩

section
variable [Zero T] [Add T] [Sub T] [Mul T] [Div T] [HasSqrt T]

/-- `distance(vec, Line)` and `distance(Line, vec)` (`DistanceLine.hpp:14-24`). -/
def distVecLine (v : Vec T D) (line : Line T D) : T :=
  length (rejection (vsub line.origin v) line.direction)

/-- `distance(Line, Line)` (`DistanceLine.hpp:26-39`); `linal::cross` exists for `D = 3`. -/
def distLineLine [One T] [Tol T] (dbg : Bool) (lhs rhs : Line T 3) : Res T := do
  geoAssert dbg (isEq (length lhs.direction) 1)
  geoAssert dbg (isEq (length rhs.direction) 1)
  let cr := cross lhs.direction rhs.direction
  let crossLen := length cr
  if isZero crossLen then return distVecLine lhs.origin rhs
  else return dot (vsub lhs.origin rhs.origin) cr / crossLen

/-- `distance(Plane, vec)` and `distance(vec, Plane)` (`DistancePlane.hpp:12-23`). -/
def distPlaneVec [LT T] [DecidableLT T] [Neg T] (plane : Plane T) (v : Vec T 3) : T :=
  stdAbs (dot (vsub plane.origin v) plane.normal)

/-- `distance(Ray, vec)` and `distance(vec, Ray)` (`DistanceRay.hpp:16-40`). -/
def distRayVec [Tol T] (ray : Ray T D) (v : Vec T D) : T :=
  let vecO := vsub v ray.origin
  let dotProduct := dot vecO ray.direction
  let distanceVec := if isGreater dotProduct 0 then rejection vecO ray.direction else vsub ray.origin v
  length distanceVec

/-- `distance(Line, Ray)` and `distance(Ray, Line)` (`DistanceRay.hpp:42-70`); `closest_point_on_line_parameters`
restricts the C++ to `D = 3`. -/
def distLineRay [Tol T] [LT T] [DecidableLT T] (line : Line T D) (ray : Ray T D) : T :=
  match closestPointOnLineParameters line.origin line.direction ray.origin ray.direction with
  | some params =>
    if params.s < 0 then distVecLine ray.origin line
    else
      let linePoint := vadd line.origin (vscale line.direction params.t)
      let rayPoint := vadd ray.origin (vscale ray.direction params.s)
      length (vsub linePoint rayPoint)
  | none => distVecLine ray.origin line

/-- `signedDistance(vec, Sphere)` (`DistanceSphere.hpp:12-16`). -/
def signedDistSphere (v : Vec T 3) (s : Sphere T) : T := length (vsub v s.origin) - s.radius

/-- `distance(vec, Sphere)` (`DistanceSphere.hpp:18-22`). -/
def distSphere [LT T] [DecidableLT T] [Neg T] (v : Vec T 3) (s : Sphere T) : T := stdAbs (signedDistSphere v s)

/-- `calc_segment_point` (`DistanceSegment.hpp:27-42`). -/
def calcSegmentPoint [One T] [LT T] [DecidableLT T] (seg : Segment T D) (parameter : T) : Vec T D :=
  if parameter < 0 then seg.source
  else if 1 < parameter then seg.target
  else vadd seg.source (vscale (vsub seg.target seg.source) parameter)

/-- `calc_ray_point` (`DistanceSegment.hpp:49-60`). -/
def calcRayPoint [LT T] [DecidableLT T] (ray : Ray T D) (parameter : T) : Vec T D :=
  if parameter < 0 then ray.origin else vadd ray.origin (vscale ray.direction parameter)

/-- `distance(Segment, vec)` and `distance(vec, Segment)` (`DistanceSegment.hpp:64-80`). -/
def distSegmentVec [One T] [LT T] [DecidableLT T] (seg : Segment T D) (v : Vec T D) : T :=
  let ps := vsub v seg.source
  let dir := vsub seg.target seg.source
  let parameter := dot ps dir / length dir
  let projParameter := stdMin (stdMax parameter 0) 1
  let projVec := vadd seg.source (vscale dir projParameter)
  length (vsub projVec v)

/-- `distance(Segment, Ray)` and `distance(Ray, Segment)` (`DistanceSegment.hpp:111-199`).
Falling through the parallel branch dereferences the empty `params` (lines 189-190). -/
def distSegmentRay [One T] [Tol T] [LT T] [DecidableLT T] (seg : Segment T D) (ray : Ray T D) : Res T :=
  let segDir := vsub seg.target seg.source
  match closestPointOnLineParameters seg.source segDir ray.origin ray.direction with
  | none =>
    let diffVec := vsub ray.origin seg.source
    let parameter := dot diffVec segDir / length segDir
    let lineDist := distVecLine ray.origin (Line.make seg.source segDir)
    let inside := isGreaterEq parameter 0 && isLessEq parameter 1
    if !isEq lineDist 0 && inside then .ok lineDist
    else if !isEq lineDist 0 && isLess parameter 0 then
      if dot ray.direction segDir < 0 then .ok (length diffVec) else .ok lineDist
    else if !isEq lineDist 0 && isGreater parameter 1 then
      if 0 < dot ray.direction segDir then .ok (length (vsub ray.origin seg.target)) else .ok lineDist
    else if inside then .ok 0
    else if isLess parameter 0 then
      if dot ray.direction segDir < 0 then .ok (length diffVec) else .ok 0
    else if isGreater parameter 1 then
      if 0 < dot ray.direction segDir then .ok (length (vsub ray.origin seg.target)) else .ok 0
    else .error .emptyOptional
  | some params =>
    .ok (length (vsub (calcSegmentPoint seg params.t) (calcRayPoint ray params.s)))
end
end Verif
