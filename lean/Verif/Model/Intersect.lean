import Verif.Model.Distance

/-
Model of `Intersect/IntersectLine.hpp`, `IntersectPlane.hpp`, `IntersectSegment.hpp`, `IntersectSphere.hpp`.
Every function takes the tolerance as its last argument (default `linal::eps`).
-/
namespace Verif
variable {T : Type u}

section
variable [Zero T] [Add T] [Sub T] [Mul T] [Div T] [Tol T]

/-- `intersect(Line2, Line2)` (`IntersectLine.hpp:19-40`). -/
def intersectLine2 [LT T] [DecidableLT T] [Neg T] (lhs rhs : Line T 2) (eps : T := Tol.eps) : Option (Vec T 2) :=
  let lhsDir := lhs.direction
  let rhsDir := rhs.direction
  let detA := lhsDir 0 * rhsDir 1 - rhsDir 0 * lhsDir 1
  if Tol.isZero (stdAbs detA) eps then none
  else
    let dist := vsub rhs.origin lhs.origin
    let t := (dist 0 * rhsDir 1 - dist 1 * rhsDir 0) / detA
    some (vadd lhs.origin (vscale lhsDir t))

/-- `intersect(Line3, Line3)` (`IntersectLine.hpp:46-68`).  The closest parameters are computed with the default
tolerance, only the final length test uses `eps`. -/
def intersectLine3 [HasSqrt T] (lhs rhs : Line T 3) (eps : T := Tol.eps) : Option (Vec T 3) :=
  match closestPointOnLineParameters lhs.origin lhs.direction rhs.origin rhs.direction with
  | none => none
  | some params =>
    let lhsPoint := vadd lhs.origin (vscale lhs.direction params.t)
    let rhsPoint := vadd rhs.origin (vscale rhs.direction params.s)
    if Tol.isZero (length (vsub lhsPoint rhsPoint)) eps then some lhsPoint else none

/-- `calc_intersection_parameter` (`IntersectPlane.hpp:19-32`). -/
def calcIntersectionParameter (planeOrigin planeNormal lineOrigin lineDir : Vec T 3) (eps : T) : Option T :=
  if Tol.isZero (dot lineDir planeNormal) eps then none
  else some (dot (vsub planeOrigin lineOrigin) planeNormal / dot lineDir planeNormal)

/-- `intersect(Plane, Line3)` (`IntersectPlane.hpp:36-53`). -/
def intersectPlaneLine (plane : Plane T) (line : Line T 3) (eps : T := Tol.eps) : Option (Vec T 3) :=
  let dirDot := dot line.direction plane.normal
  if Tol.isZero dirDot eps then none
  else
    let paramD := dot (vsub plane.origin line.origin) plane.normal / dirDot
    some (vadd line.origin (vscale line.direction paramD))

/-- `intersect(Plane, Ray3)` (`IntersectPlane.hpp:55-71`). -/
def intersectPlaneRay (plane : Plane T) (ray : Ray T 3) (eps : T := Tol.eps) : Option (Vec T 3) :=
  match calcIntersectionParameter plane.origin plane.normal ray.origin ray.direction eps with
  | none => none
  | some paramD =>
    if Tol.isGreater paramD 0 eps then some (vadd ray.origin (vscale ray.direction paramD)) else none

/-- `intersect(Plane, Segment3)` (`IntersectPlane.hpp:73-89`). -/
def intersectPlaneSegment [One T] (plane : Plane T) (seg : Segment T 3) (eps : T := Tol.eps) : Option (Vec T 3) :=
  let segDir := vsub seg.target seg.source
  match calcIntersectionParameter plane.origin plane.normal seg.source segDir eps with
  | none => none
  | some paramD =>
    if Tol.isGreater paramD 0 eps && Tol.isLessEq paramD 1 eps then some (vadd seg.source (vscale segDir paramD)) else none

/-- `intersect(Segment2, Segment2)` (`IntersectSegment.hpp:21-52`).  The assertion of line 50 compares the two
computed points with `vec::operator==`, read as exact equality of the components. -/
def intersectSegment2 [One T] [Neg T] [DecidableEq T] (dbg : Bool) (first second : Segment T 2) (eps : T := Tol.eps) :
    Res (Option (Vec T 2)) :=
  let fSource := first.source
  let sSource := second.source
  let fDir := vsub first.target fSource
  let sDir := vsub second.target sSource
  let detA := fDir 0 * sDir 1 - sDir 0 * fDir 1
  if Tol.isZero detA eps then .ok none
  else
    let fDist := vsub sSource fSource
    let t := (fDist 0 * sDir 1 - fDist 1 * sDir 0) / detA
    let s := (fDir 0 * -fDist 1 - fDir 1 * -fDist 0) / detA
    if Tol.isLess s 0 eps || Tol.isGreater s 1 eps || Tol.isLess t 0 eps || Tol.isGreater t 1 eps then .ok none
    else do
      let p := vadd fSource (vscale fDir t)
      let q := vadd sSource (vscale sDir s)
      geoAssert dbg (decide (p 0 = q 0) && decide (p 1 = q 1))
      return some (vadd fSource (vscale fDir t))

/-- `intersect(Segment3, Segment3)` (`IntersectSegment.hpp:59-82`). -/
def intersectSegment3 [One T] (first second : Segment T 3) (eps : T := Tol.eps) : Option (Vec T 3) :=
  let fDir := vsub first.target first.source
  let sDir := vsub second.target second.source
  match closestPointOnLineParameters first.source fDir second.source sDir eps with
  | none => none
  | some params =>
    if Tol.isLess params.s 0 eps || Tol.isGreater params.s 1 eps || Tol.isLess params.t 0 eps ||
        Tol.isGreater params.t 1 eps then none
    else some (vadd first.source (vscale fDir params.t))

/-- `intersect(Segment3, Ray3)` and `intersect(Ray3, Segment3)` (`IntersectSegment.hpp:84-113`). -/
def intersectSegmentRay [One T] (seg : Segment T 3) (ray : Ray T 3) (eps : T := Tol.eps) : Option (Vec T 3) :=
  let segDir := vsub seg.target seg.source
  match closestPointOnLineParameters seg.source segDir ray.origin ray.direction eps with
  | none => none
  | some params =>
    if Tol.isLess params.t 0 eps || Tol.isGreater params.t 1 eps || Tol.isLess params.s 0 eps then none
    else some (vadd ray.origin (vscale ray.direction params.s))
end

/-- `struct SphereIntersection` (`IntersectSphere.hpp:15-33`). -/
structure SphereIntersection (T : Type u) where
  first : Option (Vec T 3) := none
  second : Option (Vec T 3) := none

/-- `hasIntersection` (`IntersectSphere.hpp:32`). -/
def SphereIntersection.hasIntersection (r : SphereIntersection T) : Bool := r.first.isSome || r.second.isSome

section
variable [Zero T] [One T] [OfNat T 2] [OfNat T 4] [Add T] [Sub T] [Mul T] [Div T] [Neg T] [HasSqrt T] [Tol T]

/-- `intersect(Sphere, Line3)` (`IntersectSphere.hpp:35-65`).  `-b / 2 * a` parses as `((-b) / 2) * a`. -/
def intersectSphereLine (sphere : Sphere T) (line : Line T 3) (eps : T := Tol.eps) : SphereIntersection T :=
  let deltaOrigin := vsub line.origin sphere.origin
  let a := dot line.direction line.direction
  let b := 2 * dot line.direction deltaOrigin
  let c := dot deltaOrigin deltaOrigin - sphere.radius * sphere.radius
  let discriminant := b * b - 4 * a * c
  if Tol.isGreater discriminant 0 eps then
    let sqrtDiscr := HasSqrt.sqrt discriminant
    let twoA := 2 * a
    let t1 := (-b + sqrtDiscr) / twoA
    let t2 := (-b - sqrtDiscr) / twoA
    ⟨some (vadd line.origin (vscale line.direction t1)), some (vadd line.origin (vscale line.direction t2))⟩
  else if Tol.isZero discriminant eps then
    let t := -b / 2 * a
    ⟨some (vadd line.origin (vscale line.direction t)), none⟩
  else ⟨none, none⟩

/-- `intersect(Sphere, Ray3)` (`IntersectSphere.hpp:67-109`). -/
def intersectSphereRay (sphere : Sphere T) (ray : Ray T 3) (eps : T := Tol.eps) : SphereIntersection T :=
  let deltaOrigin := vsub ray.origin sphere.origin
  let a := dot ray.direction ray.direction
  let b := 2 * dot ray.direction deltaOrigin
  let c := dot deltaOrigin deltaOrigin - sphere.radius * sphere.radius
  let discriminant := b * b - 4 * a * c
  if Tol.isGreater discriminant 0 eps then
    let sqrtDiscr := HasSqrt.sqrt discriminant
    let twoA := 2 * a
    let t1 := (-b + sqrtDiscr) / twoA
    let t2 := (-b - sqrtDiscr) / twoA
    ⟨if Tol.isGreaterEq t1 0 eps then some (vadd ray.origin (vscale ray.direction t1)) else none,
     if Tol.isGreaterEq t2 0 eps then some (vadd ray.origin (vscale ray.direction t2)) else none⟩
  else if Tol.isZero discriminant eps then
    let t := -b / 2 * a
    if Tol.isGreaterEq t 0 eps then ⟨some (vadd ray.origin (vscale ray.direction t)), none⟩ else ⟨none, none⟩
  else ⟨none, none⟩

/-- `intersect(Sphere, Segment3)` (`IntersectSphere.hpp:111-160`). -/
def intersectSphereSegment (sphere : Sphere T) (seg : Segment T 3) (eps : T := Tol.eps) : SphereIntersection T :=
  let deltaOrigin := vsub seg.source sphere.origin
  let segDir := vsub seg.target seg.source
  let a := dot segDir segDir
  let b := 2 * dot segDir deltaOrigin
  let c := dot deltaOrigin deltaOrigin - sphere.radius * sphere.radius
  let discriminant := b * b - 4 * a * c
  if Tol.isGreater discriminant 0 eps then
    let sqrtDiscr := HasSqrt.sqrt discriminant
    let twoA := 2 * a
    let t1 := (-b + sqrtDiscr) / twoA
    let t2 := (-b - sqrtDiscr) / twoA
    let result : SphereIntersection T :=
      ⟨if Tol.isGreaterEq t1 0 eps && Tol.isLessEq t1 1 eps then some (vadd seg.source (vscale segDir t1)) else none,
       if Tol.isGreaterEq t2 0 eps && Tol.isLessEq t2 1 eps then some (vadd seg.source (vscale segDir t2)) else none⟩
    if !result.first.isSome && !result.second.isSome then ⟨none, none⟩ else result
  else if Tol.isZero discriminant eps then
    let t := -b / 2 * a
    if Tol.isGreaterEq t 0 eps && Tol.isLessEq t 1 eps then ⟨some (vadd seg.source (vscale segDir t)), none⟩
    else ⟨none, none⟩
  else ⟨none, none⟩
end
end Verif
