import Verif.Model.MeshBuilder

/-
Model of repeated use of the mesh builders and of `HalfedgeMeshBuilder/MeshBuilder.hpp`.
A session is a list of member calls on one builder object; its result is the list of the meshes built.
-/
namespace Verif
variable {T : Type}

section
variable [Zero T] [One T] [Add T] [Sub T] [Mul T] [Div T] [Neg T] [OfNat T 2] [NatCast T] [HasSqrt T] [HasTrig T] [LT T]
  [DecidableLT T] [BEq (HMat T)] [BEq (Vec T 3)]

/-! ### SphereMeshBuilder -/

/-- A call on a `SphereMeshBuilder` (`SphereMeshBuilder.hpp:34-89`). -/
inductive SphereCall (T : Type)
  | setPolarCount (n : Nat)
  | setAzimuthCount (n : Nat)
  | setSphere (s : Sphere T)
  | setOrigin (o : Vec T 3)
  | setRadius (r : T)
  | build

/-- `set_polar_count` (`SphereMeshBuilder.hpp:34-38`): the `uint32_t` is converted to the index type. -/
def SphereBuilder.setPolarCount (M : Nat) (b : SphereBuilder T) (n : Nat) : SphereBuilder T := { b with polarCount := n % M }
/-- `set_azimuth_count` (`SphereMeshBuilder.hpp:40-44`). -/
def SphereBuilder.setAzimuthCount (M : Nat) (b : SphereBuilder T) (n : Nat) : SphereBuilder T := { b with azimuthCount := n % M }
/-- `set_sphere` (`SphereMeshBuilder.hpp:46-50`). -/
def SphereBuilder.setSphere (b : SphereBuilder T) (s : Sphere T) : SphereBuilder T := { b with sphere := some s }

/-- A session with a `SphereMeshBuilder`. -/
def SphereBuilder.session (dbg : Bool) (M w : Nat) : List (SphereCall T) → SphereBuilder T → Res (List (HalfedgeMesh (Vec T 3)))
  | [], _ => .ok []
  | .setPolarCount n :: cs, b => session dbg M w cs (b.setPolarCount M n)
  | .setAzimuthCount n :: cs, b => session dbg M w cs (b.setAzimuthCount M n)
  | .setSphere s :: cs, b => session dbg M w cs (b.setSphere s)
  | .setOrigin o :: cs, b => session dbg M w cs (b.setOrigin o)
  | .setRadius r :: cs, b => session dbg M w cs (b.setRadius r)
  | .build :: cs, b => do
    let r ← b.build dbg M w
    let ms ← session dbg M w cs r.2
    .ok (r.1 :: ms)

/-! ### CuboidMeshBuilder -/

/-- A call on a `CuboidMeshBuilder` (`CuboidMeshBuilder.hpp:39-77`). -/
inductive CuboidCall (T : Type)
  | setOrigin (o : Vec T 3)
  | setDiagonal (d : Vec T 3)
  | setCuboid (c : Cuboid T)
  | build

/-- A session with a `CuboidMeshBuilder`. -/
def CuboidBuilder.session (dbg : Bool) (M w : Nat) : List (CuboidCall T) → CuboidBuilder T → Res (List (HalfedgeMesh (Vec T 3)))
  | [], _ => .ok []
  | .setOrigin o :: cs, b => session dbg M w cs (b.setOrigin o)
  | .setDiagonal d :: cs, b => session dbg M w cs (b.setDiagonal d)
  | .setCuboid c :: cs, b => session dbg M w cs (b.setCuboid c)
  | .build :: cs, b => do
    let r ← b.build dbg M w
    let ms ← session dbg M w cs r.2
    .ok (r.1 :: ms)

/-! ### ConeMeshBuilder and CylinderMeshBuilder -/

/-- The members of a `ConeMeshBuilder` (`ConeMeshBuilder.hpp:28-29`) and of its base class (`MeshBuilderBase.hpp:24`). -/
structure ConeBuilder (T : Type) where
  cone : Option (Cone T)
  azimuthCount : Nat
  transformation : HMat T

/-- `ConeMeshBuilder()` (`ConeMeshBuilder.hpp:32`). -/
def ConeBuilder.init : ConeBuilder T := ⟨none, 20, hmatIdentity⟩

/-- `ConeMeshBuilder::build` (`ConeMeshBuilder.hpp:46-71`) with everything it stores; the transformation is stored before the mesh is built from
it. -/
def ConeBuilder.build [Tol T] (dbg : Bool) (M w : Nat) (rotAlign : Vec T 4 → Vec T 4 → HMat T) (b : ConeBuilder T) :
    Res (Option (HalfedgeMesh (Vec T 3)) × ConeBuilder T) := do
  let _ ← geoAssert dbg b.cone.isSome
  match b.cone with
  | none => .ok (none, b)
  | some cone =>
    let coneSeg := cone.segment
    let _ ← geoAssert dbg (!isZero coneSeg.length)
    let dir := coneSeg.direction
    let _ ← geoAssert dbg (isEq (length dir) 1)
    let b' := { b with transformation := hmatSetTranslation (rotAlign (hvec4 0 0 1 1) (hvec4 (dir 0) (dir 1) (dir 2) 1)) coneSeg.source }
    let c ← calcConeTriangles M cone.radius cone.segment.length b'.azimuthCount
    let m ← buildTriangleHalfedgeMesh dbg M w b'.transformation c.1 c.2
    .ok (some m, b')

/-- A call on a `ConeMeshBuilder` (`ConeMeshBuilder.hpp:34-71`); the count is a value of the index type. -/
inductive ConeCall (T : Type)
  | setCone (c : Cone T)
  | setAzimuthCount (n : Nat)
  | build

/-- A session with a `ConeMeshBuilder`. -/
def ConeBuilder.session [Tol T] (dbg : Bool) (M w : Nat) (rotAlign : Vec T 4 → Vec T 4 → HMat T) :
    List (ConeCall T) → ConeBuilder T → Res (List (Option (HalfedgeMesh (Vec T 3))))
  | [], _ => .ok []
  | .setCone c :: cs, b => session dbg M w rotAlign cs { b with cone := some c }
  | .setAzimuthCount n :: cs, b => session dbg M w rotAlign cs { b with azimuthCount := n }
  | .build :: cs, b => do
    let r ← b.build dbg M w rotAlign
    let ms ← session dbg M w rotAlign cs r.2
    .ok (r.1 :: ms)

/-- The members of a `CylinderMeshBuilder` (`CylinderMeshBuilder.hpp:27-28`) and of its base class (`MeshBuilderBase.hpp:24`). -/
structure CylinderBuilder (T : Type) where
  cylinder : Option (Cylinder T)
  azimuthCount : Nat
  transformation : HMat T

/-- `CylinderMeshBuilder()` (`CylinderMeshBuilder.hpp:31`). -/
def CylinderBuilder.init : CylinderBuilder T := ⟨none, 20, hmatIdentity⟩

/-- `CylinderMeshBuilder::build` (`CylinderMeshBuilder.hpp:45-67`) with everything it stores. -/
def CylinderBuilder.build (dbg : Bool) (M w : Nat) (rotAlign : Vec T 4 → Vec T 4 → HMat T) (b : CylinderBuilder T) :
    Res (Option (HalfedgeMesh (Vec T 3)) × CylinderBuilder T) := do
  let _ ← geoAssert dbg b.cylinder.isSome
  match b.cylinder with
  | none => .ok (none, b)
  | some cylinder =>
    let cylinderSeg := cylinder.segment
    let b' := { b with transformation := hmatSetTranslation (rotAlign (hvec4 0 0 1 1) (toHvec cylinderSeg.direction)) cylinderSeg.source }
    let c ← calcCylinderTriangles dbg M cylinder.radius cylinder.segment.length b'.azimuthCount
    let m ← buildTriangleHalfedgeMesh dbg M w b'.transformation c.1 c.2
    .ok (some m, b')

/-- A call on a `CylinderMeshBuilder` (`CylinderMeshBuilder.hpp:33-67`). -/
inductive CylinderCall (T : Type)
  | setCylinder (c : Cylinder T)
  | setAzimuthCount (n : Nat)
  | build

/-- A session with a `CylinderMeshBuilder`. -/
def CylinderBuilder.session (dbg : Bool) (M w : Nat) (rotAlign : Vec T 4 → Vec T 4 → HMat T) :
    List (CylinderCall T) → CylinderBuilder T → Res (List (Option (HalfedgeMesh (Vec T 3))))
  | [], _ => .ok []
  | .setCylinder c :: cs, b => session dbg M w rotAlign cs { b with cylinder := some c }
  | .setAzimuthCount n :: cs, b => session dbg M w rotAlign cs { b with azimuthCount := n }
  | .build :: cs, b => do
    let r ← b.build dbg M w rotAlign
    let ms ← session dbg M w rotAlign cs r.2
    .ok (r.1 :: ms)

/-! ### MeshBuilder -/

/-- `MeshBuilder::build(Sphere)` (`MeshBuilder.hpp:49-56`).  `b0` is the freshly constructed `SphereMeshBuilder`. -/
def meshBuilderSphere (dbg : Bool) (M w : Nat) (b0 : SphereBuilder T) (cfg : MeshBuilderConfig) (s : Sphere T) :
    Res (HalfedgeMesh (Vec T 3)) := do
  let r ← (((b0.setPolarCount M cfg.polarCount).setAzimuthCount M cfg.azimuthCount).setSphere s).build dbg M w
  .ok r.1

/-- `MeshBuilder::build(Cone)` (`MeshBuilder.hpp:58-61`); the count is converted to the index type. -/
def meshBuilderCone [Tol T] (dbg : Bool) (M w : Nat) (rotAlign : Vec T 4 → Vec T 4 → HMat T) (cfg : MeshBuilderConfig) (c : Cone T) :
    Res (Option (HalfedgeMesh (Vec T 3))) :=
  coneBuild dbg M w rotAlign (some c) (cfg.azimuthCount % M)

/-- `MeshBuilder::build(Cylinder)` (`MeshBuilder.hpp:63-66`). -/
def meshBuilderCylinder (dbg : Bool) (M w : Nat) (rotAlign : Vec T 4 → Vec T 4 → HMat T) (cfg : MeshBuilderConfig) (c : Cylinder T) :
    Res (Option (HalfedgeMesh (Vec T 3))) :=
  cylinderBuild dbg M w rotAlign (some c) (cfg.azimuthCount % M)

/-- `MeshBuilder::build(Cuboid)` (`MeshBuilder.hpp:68-71`).  `b0` is the freshly constructed `CuboidMeshBuilder`. -/
def meshBuilderCuboid (dbg : Bool) (M w : Nat) (b0 : CuboidBuilder T) (c : Cuboid T) : Res (HalfedgeMesh (Vec T 3)) := do
  let r ← (b0.setCuboid c).build dbg M w
  .ok r.1
end
end Verif
