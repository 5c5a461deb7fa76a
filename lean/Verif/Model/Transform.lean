import Verif.Model.Shapes
import Verif.Model.AABB

/-
Model of `Cone.hpp`, `Cylinder.hpp`, `Cuboid.hpp`, `Circle.hpp` and of `Transform/*.hpp`, with the parts of `linal`
they use.

Not modelled: `transform(Cuboid, hmat)` (`TransformCuboid.hpp:11-16`) does not compile when used (it refers to a
template parameter `D` that does not exist).
-/
namespace Verif
variable {T : Type u} {D : Nat}

/-! ### linal: homogeneous matrices -/

/-- `linal::hmat<T>`: 4×4, row `i`, column `j`. -/
abbrev HMat (T : Type u) := Fin 4 → Fin 4 → T

/-- `hmat * hvec` (external). -/
def hmatVec [Zero T] [Add T] [Mul T] (m : HMat T) (v : Vec T 4) : Vec T 4 := fun i => dot (m i) v

/-- `hmat * hmat` (external). -/
def hmatMul [Zero T] [Add T] [Mul T] (m n : HMat T) : HMat T := fun i j => dot (m i) (fun k => n k j)

/-- `hmat::identity()` (external). -/
def hmatIdentity [Zero T] [One T] : HMat T := fun i j => if i = j then 1 else 0

/-- `hmat::set_translation(v)` (external): writes the last column. -/
def hmatSetTranslation (m : HMat T) (v : Vec T 3) : HMat T := fun i j =>
  if j = 3 then (if h : i.val < 3 then v ⟨i.val, h⟩ else m i j) else m i j

/-- `linal::to_hvec<T, D>(v)` (external): missing coordinates 0, last component 1. -/
def toHvec [Zero T] [One T] (v : Vec T D) : Vec T 4 := fun i =>
  if i = 3 then 1 else if h : i.val < D then v ⟨i.val, h⟩ else 0

/-- `linal::to_vec<T, 3>(h)` (external): the first three components. -/
def toVec3 (h : Vec T 4) : Vec T 3 := fun i => h i.castSucc

/-- `linal::to_vec<T, 2>(h)` (external): the first two components. -/
def toVec2 (h : Vec T 4) : Vec T 2 := fun i => h (i.castLE (by decide))

section
variable [Zero T] [One T] [Add T] [Mul T]

/-- `transform(vec3, hmat)` (`TransformVec.hpp:12-17`). -/
def transformVec (v : Vec T 3) (m : HMat T) : Vec T 3 := toVec3 (hmatVec m (toHvec v))

/-- `transform(vec2, hmat)` (`TransformVec.hpp:12-17`). -/
def transformVec2 (v : Vec T 2) (m : HMat T) : Vec T 2 := toVec2 (hmatVec m (toHvec v))

/-- `transform(AABB, hmat)` (`TransformAABB.hpp:13-19`), `D = 3`. -/
def transformAABB [Tol T] (dbg : Bool) (b : AABB T 3) (m : HMat T) : Res (AABB T 3) :=
  AABB.mk? dbg (transformVec b.min m) (transformVec b.max m)

/-- `transform(Segment3, hmat)` (`TransformSegment.hpp:13-19`). -/
def transformSegment (s : Segment T 3) (m : HMat T) : Segment T 3 := ⟨transformVec s.source m, transformVec s.target m⟩

/-- `transform(Sphere, hmat)` (`TransformSphere.hpp:12-16`). -/
def transformSphere (s : Sphere T) (m : HMat T) : Sphere T := ⟨transformVec s.origin m, s.radius⟩
end

/-! ### Circles -/

/-- `class Circle2` (`Circle.hpp:16-28`). -/
structure Circle2 (T : Type u) where
  origin : Vec T 2
  radius : T

/-- `class Circle3` (`Circle.hpp:49-60`). -/
structure Circle3 (T : Type u) where
  origin : Vec T 3
  radius : T
  normal : Vec T 3

/-- `Circle2(origin, radius)` (`Circle.hpp:21-26`). -/
def Circle2.make [Zero T] [LE T] [DecidableLE T] (dbg : Bool) (origin : Vec T 2) (radius : T) : Res (Circle2 T) := do
  geoAssert dbg (decide (0 ≤ radius))
  return ⟨origin, radius⟩

/-- `transform(Circle2, hmat)` (`TransformCircle.hpp:12-18`). -/
def transformCircle2 [Zero T] [One T] [Add T] [Mul T] [LE T] [DecidableLE T] (dbg : Bool) (c : Circle2 T) (m : HMat T) :
    Res (Circle2 T) :=
  let v := transformVec (fun i => if h : i.val < 2 then c.origin ⟨i.val, h⟩ else 0) m
  Circle2.make dbg (fun i => v (i.castLE (by decide))) c.radius

/-- `transform(Circle3, hmat)` (`TransformCircle.hpp:20-24`): the normal is kept. -/
def transformCircle3 [Zero T] [One T] [Add T] [Mul T] (c : Circle3 T) (m : HMat T) : Circle3 T :=
  ⟨transformVec c.origin m, c.radius, c.normal⟩

/-- `Circle2::set_radius` (`Circle.hpp:32-36`). -/
def Circle2.setRadius [Zero T] [LE T] [DecidableLE T] (dbg : Bool) (c : Circle2 T) (radius : T) : Res (Circle2 T) := do
  geoAssert dbg (decide (0 ≤ radius))
  return { c with radius := radius }

/-- `Circle3::set_radius` (`Circle.hpp:67-71`). -/
def Circle3.setRadius [Zero T] [LE T] [DecidableLE T] (dbg : Bool) (c : Circle3 T) (radius : T) : Res (Circle3 T) := do
  geoAssert dbg (decide (0 ≤ radius))
  return { c with radius := radius }

/-- `Circle3::set_normal` (`Circle.hpp:72-76`). -/
def Circle3.setNormal [Zero T] [One T] [Add T] [Mul T] [HasSqrt T] [Tol T] (dbg : Bool) (c : Circle3 T) (normal : Vec T 3) :
    Res (Circle3 T) := do
  geoAssert dbg (isEq (length normal) 1)
  return { c with normal := normal }

/-- `Circle2::operator==` (`Circle.hpp:38-41`). -/
def Circle2.beq [Tol T] (l r : Circle2 T) : Bool := isEqualVec l.origin r.origin && isEq l.radius r.radius

/-- `Circle3::operator==` (`Circle.hpp:78-81`). -/
def Circle3.beq [Tol T] (l r : Circle3 T) : Bool :=
  isEqualVec l.origin r.origin && isEq l.radius r.radius && isEqualVec l.normal r.normal

/-! ### Cone, cylinder -/

/-- `class Cone` (`Cone.hpp:11-26`); the segment runs from the base centre to the apex. -/
structure Cone (T : Type u) where
  segment : Segment T 3
  radius : T

section
variable [Zero T] [Add T] [Sub T] [Mul T] [HasSqrt T]

/-- `Cone::get_height` (`Cone.hpp:34`). -/
def Cone.height (c : Cone T) : T := c.segment.length

/-- `Cone::get_slant_height` (`Cone.hpp:35-39`). -/
def Cone.slantHeight (c : Cone T) : T := HasSqrt.sqrt (c.radius * c.radius + c.height * c.height)

/-- `Cone::get_opening_angle` (`Cone.hpp:40`). -/
def Cone.openingAngle [Div T] [HasTrig T] [OfNat T 2] (c : Cone T) : T := HasTrig.atan (c.radius / c.height) * 2
end

/-- `Cone::operator==` (`Cone.hpp:42`). -/
def Cone.beq [Tol T] (l r : Cone T) : Bool := l.segment.beq r.segment && isEq l.radius r.radius

/-- `class Cylinder` (`Cylinder.hpp:12-21`). -/
structure Cylinder (T : Type u) where
  segment : Segment T 3
  radius : T

/-- `Cylinder::height` (`Cylinder.hpp:25`). -/
def Cylinder.height [Zero T] [Add T] [Sub T] [Mul T] [HasSqrt T] (c : Cylinder T) : T := c.segment.length

/-- `Cylinder::operator==` (`Cylinder.hpp:27-30`). -/
def Cylinder.beq [Tol T] (l r : Cylinder T) : Bool := l.segment.beq r.segment && isEq l.radius r.radius

section
variable [Zero T] [One T] [Add T] [Mul T]

/-- `transform(Cone, hmat)` (`TransformCone.hpp:12-16`). -/
def transformCone (c : Cone T) (m : HMat T) : Cone T := ⟨transformSegment c.segment m, c.radius⟩

/-- `transform(Cylinder, hmat)` (`TransformCylinder.hpp:12-16`). -/
def transformCylinder (c : Cylinder T) (m : HMat T) : Cylinder T := ⟨transformSegment c.segment m, c.radius⟩
end

/-! ### Cuboid -/

/-- `class Cuboid` (`Cuboid.hpp:14-20,50-52`). -/
structure Cuboid (T : Type u) where
  origin : Vec T 3
  sides : Fin 3 → Vec T 3

/-- `linal::vec3X`, `vec3Y`, `vec3Z` (external). -/
def unitVector [Zero T] [One T] (i : Fin 3) : Vec T 3 := fun j => if j = i then 1 else 0

/-- `Cuboid(origin, diagonal)` (`Cuboid.hpp:22-30`). -/
def Cuboid.ofDiagonal [Zero T] [One T] [Add T] [Mul T] [Div T] (origin diagonal : Vec T 3) : Cuboid T :=
  ⟨origin, fun i => projection diagonal (unitVector i)⟩

/-- `Cuboid(diagonal)` (`Cuboid.hpp:32-35`). -/
def Cuboid.ofDiagonal0 [Zero T] [One T] [Add T] [Mul T] [Div T] (diagonal : Vec T 3) : Cuboid T :=
  Cuboid.ofDiagonal (fun _ => 0) diagonal

/-- `calc_cuboid_vertices` (`Cuboid.hpp:55-73`). -/
def Cuboid.vertices [Add T] (c : Cuboid T) : List (Vec T 3) :=
  let o := c.origin
  let x := c.sides 0
  let y := c.sides 1
  let z := c.sides 2
  [o, vadd o x, vadd (vadd o x) y, vadd o y, vadd o z, vadd (vadd o x) z, vadd (vadd (vadd o x) y) z, vadd (vadd o y) z]

/-- `Cuboid::operator==` (`Cuboid.hpp:43-47`). -/
def Cuboid.beq [Tol T] (l r : Cuboid T) : Bool :=
  isEqualVec l.origin r.origin && isEqualVec (l.sides 0) (r.sides 0) && isEqualVec (l.sides 1) (r.sides 1) &&
    isEqualVec (l.sides 2) (r.sides 2)

end Verif
