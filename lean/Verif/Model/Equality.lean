import Verif.Model.Interval
import Verif.Model.Transform

/-
The `operator!=` of the shapes; the `operator==` are next to the shapes.
-/
namespace Verif
variable {T : Type u} {D : Nat} [Tol T]

/-- `Interval::operator!=` (`Interval.hpp:33`): `!(rhs == *this)`. -/
def Interval.bne (l r : Interval T) : Bool := !r.beq l
/-- `AABB::operator!=` (`AABB.hpp:139`): `!(*this == rhs)`. -/
def AABB.bne (l r : AABB T D) : Bool := !l.beq r
/-- `Line::operator!=` (`Line.hpp:31`). -/
def Line.bne (l r : Line T D) : Bool := !r.beq l
/-- `Ray::operator!=` (`Ray.hpp:37`). -/
def Ray.bne (l r : Ray T D) : Bool := !r.beq l
/-- `Plane::operator!=` (`Plane.hpp:33`). -/
def Plane.bne (l r : Plane T) : Bool := !r.beq l
/-- `Segment::operator!=` (`Segment.hpp:41`). -/
def Segment.bne (l r : Segment T D) : Bool := !r.beq l
/-- `Sphere::operator!=` (`Sphere.hpp:40`). -/
def Sphere.bne (l r : Sphere T) : Bool := !r.beq l
/-- `Circle2::operator!=` (`Circle.hpp:42`). -/
def Circle2.bne (l r : Circle2 T) : Bool := !r.beq l
/-- `Circle3::operator!=` (`Circle.hpp:82`). -/
def Circle3.bne (l r : Circle3 T) : Bool := !r.beq l
/-- `Cone::operator!=` (`Cone.hpp:43`). -/
def Cone.bne (l r : Cone T) : Bool := !r.beq l
/-- `Cylinder::operator!=` (`Cylinder.hpp:31`). -/
def Cylinder.bne (l r : Cylinder T) : Bool := !r.beq l
/-- `Cuboid::operator!=` (`Cuboid.hpp:48`). -/
def Cuboid.bne (l r : Cuboid T) : Bool := !r.beq l

end Verif
