import Verif.Model.Linal

/-
Model of the geometric primitives `Line.hpp`, `Ray.hpp`, `Plane.hpp`, `Segment.hpp`, `Sphere.hpp`.
-/
namespace Verif
variable {T : Type u} {D : Nat}

/-- `class Line` (`Line.hpp:12-15`). -/
structure Line (T : Type u) (D : Nat) where
  origin : Vec T D
  direction : Vec T D

/-- `Line(origin, direction)` (`Line.hpp:18-22`). -/
def Line.make [Zero T] [Add T] [Mul T] [Div T] [HasSqrt T] (origin direction : Vec T D) : Line T D :=
  ⟨origin, normalize direction⟩

/-- `Line::operator==` (`Line.hpp:27-30`). -/
def Line.beq [Tol T] (l r : Line T D) : Bool := isEqualVec l.origin r.origin && isEqualVec l.direction r.direction

/-- `class Ray` (`Ray.hpp:14-17`). -/
structure Ray (T : Type u) (D : Nat) where
  origin : Vec T D
  direction : Vec T D

/-- `Ray(origin, direction)` (`Ray.hpp:20-25`). -/
def Ray.make [Zero T] [Add T] [Mul T] [Div T] [HasSqrt T] [Tol T] [LT T] [DecidableLT T] (dbg : Bool)
    (origin direction : Vec T D) : Res (Ray T D) := do
  geoAssert dbg (decide (Tol.eps < length direction))
  return ⟨origin, normalize direction⟩

/-- `Ray::set_origin` (`Ray.hpp:30`). -/
def Ray.setOrigin (r : Ray T D) (o : Vec T D) : Ray T D := { r with origin := o }
/-- `Ray::set_direction` (`Ray.hpp:31`): stores the vector as it is. -/
def Ray.setDirection (r : Ray T D) (d : Vec T D) : Ray T D := { r with direction := d }

/-- `Ray::operator==` (`Ray.hpp:33-36`). -/
def Ray.beq [Tol T] (l r : Ray T D) : Bool := isEqualVec l.origin r.origin && isEqualVec l.direction r.direction

/-- `class Plane` (`Plane.hpp:12-16`). -/
structure Plane (T : Type u) where
  origin : Vec T 3
  normal : Vec T 3

/-- `Plane(origin, normal)` (`Plane.hpp:20-24`). -/
def Plane.make [Zero T] [Add T] [Mul T] [Div T] [HasSqrt T] (origin normal : Vec T 3) : Plane T :=
  ⟨origin, normalize normal⟩

/-- `Plane::operator==` (`Plane.hpp:29-32`). -/
def Plane.beq [Tol T] (l r : Plane T) : Bool := isEqualVec l.origin r.origin && isEqualVec l.normal r.normal

/-- `class Segment` (`Segment.hpp:14-26`). -/
structure Segment (T : Type u) (D : Nat) where
  source : Vec T D
  target : Vec T D

/-- `Segment::length` (`Segment.hpp:34`). -/
def Segment.length [Zero T] [Add T] [Sub T] [Mul T] [HasSqrt T] (s : Segment T D) : T :=
  Verif.length (vsub s.target s.source)

/-- `Segment::direction` (`Segment.hpp:35`). -/
def Segment.direction [Zero T] [Add T] [Sub T] [Mul T] [Div T] [HasSqrt T] (s : Segment T D) : Vec T D :=
  normalize (vsub s.target s.source)

/-- `Segment::operator==` (`Segment.hpp:37-40`). -/
def Segment.beq [Tol T] (l r : Segment T D) : Bool := isEqualVec l.source r.source && isEqualVec l.target r.target

/-- `class Sphere` (`Sphere.hpp:13-23`). -/
structure Sphere (T : Type u) where
  origin : Vec T 3
  radius : T

/-- `Sphere::operator==` (`Sphere.hpp:36-39`). -/
def Sphere.beq [Tol T] (l r : Sphere T) : Bool := isEqualVec l.origin r.origin && isEq l.radius r.radius

/-- `Sphere::contains` (`Sphere.hpp:31-34`). -/
def Sphere.contains [Zero T] [Add T] [Sub T] [Mul T] [HasSqrt T] [Tol T] (s : Sphere T) (v : Vec T 3) : Bool :=
  !isGreater (length (vsub v s.origin)) s.radius

end Verif
