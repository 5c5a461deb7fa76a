import Verif.Model.Mesh
import Verif.Model.Transform

/-
Model of `src/include/Geometry/HalfedgeMeshBuilder/*.hpp` (the triangle adder is in `Mesh.lean`).

`index_type` has `M` values; every arithmetic operation on it is reduced modulo `M`.  The counts passed to the builders
are values of `index_type`, so smaller than `M`.

`calc_cylinder_points`, `calc_circle_buffer_indices` and `calc_cylinder_triangle_indices` (`CylinderMeshBuilder.hpp:136-221`),
private members that nothing calls, are in `CylinderUnused.lean`.
-/
namespace Verif

/-- `linal::vec3<T>{x, y, z}`. -/
def vec3 {T : Type u} (x y z : T) : Vec T 3 := fun i => if i = 0 then x else if i = 1 then y else z

/-- `linal::hvec<T>{x, y, z, w}`. -/
def hvec4 {T : Type u} (x y z w : T) : Vec T 4 := fun i => if i = 0 then x else if i = 1 then y else if i = 2 then z else w

/-- `a - b` in an unsigned type with `M` values (`b < M`). -/
def subM (M a b : Nat) : Nat := (a + (M - b)) % M

/-- The values of `i` in `for (index_type i{a}; i <= b; ++i)`: if `b` is the largest value the condition never fails. -/
def loopIncl (M a b : Nat) : Res (List Nat) :=
  if b + 1 < M then .ok (List.range' a (b + 1 - a)) else .error .diverges

/-! ### MeshBuilderBase -/
section
variable {T : Type}

/-- One round of the inner loop of `build_triangle_halfedge_mesh` (`MeshBuilderBase.hpp:41-51`): the (transformed) point
of index `idx`. -/
def builderPoint [Zero T] [One T] [Add T] [Mul T] [BEq (HMat T)] (trafo : HMat T) (points : List (Vec T 3)) (idx : Nat) :
    Res (Vec T 3) := do
  let point ← vecGet points idx
  if trafo != hmatIdentity then
    let tPoint := hmatVec trafo (hvec4 (point 0) (point 1) (point 2) 1)
    .ok (vec3 (tPoint 0) (tPoint 1) (tPoint 2))
  else .ok point

/-- One round of the outer loop of `build_triangle_halfedge_mesh` (`MeshBuilderBase.hpp:35-55`), `i = 3 k + 2`. -/
def builderRound [Zero T] [One T] [Add T] [Mul T] [BEq (HMat T)] [BEq (Vec T 3)] (dbg : Bool) (M : Nat) (trafo : HMat T)
    (points : List (Vec T 3)) (triangleIndices : List Nat) (m : HalfedgeMesh (Vec T 3)) (k : Nat) :
    Res (HalfedgeMesh (Vec T 3)) := do
  let i := 3 * k + 2
  let i0 ← vecGet triangleIndices (i - 0)
  let p0 ← builderPoint trafo points i0
  let i1 ← vecGet triangleIndices (i - 1)
  let p1 ← builderPoint trafo points i1
  let i2 ← vecGet triangleIndices (i - 2)
  let p2 ← builderPoint trafo points i2
  addTriangle dbg M m (p0, p1, p2)

/-- `build_triangle_halfedge_mesh` (`MeshBuilderBase.hpp:26-58`).  The loop `for (i = 2; i < size; i += 3)` has
`size / 3` rounds. -/
def buildTriangleHalfedgeMesh [Zero T] [One T] [Add T] [Sub T] [Mul T] [Neg T] [HasSqrt T] [LT T] [DecidableLT T]
    [BEq (HMat T)] [BEq (Vec T 3)] (dbg : Bool) (M w : Nat) (trafo : HMat T) (points : List (Vec T 3))
    (triangleIndices : List Nat) : Res (HalfedgeMesh (Vec T 3)) := do
  let _ ← geoAssert dbg (decide (points.length > 0))
  let _ ← geoAssert dbg (triangleIndices.length % 3 == 0)
  let m ← (List.range (triangleIndices.length / 3)).foldlM (builderRound dbg M trafo points triangleIndices) HalfedgeMesh.empty
  setOppositeHalfedges dbg w m

/-! ### DiscretizeCircle -/
section
variable [Zero T] [Add T] [Mul T] [Div T] [Neg T] [OfNat T 2] [NatCast T] [HasTrig T]

/-- `discretize_circle(points, radius, azimuthCount)` (`DiscretizeCircle.hpp:19-28`). -/
def discretizeCircleXY (points : List (Vec T 3)) (circleRadius : T) (azimuthCount : Nat) : List (Vec T 3) :=
  let azimuthStep := 2 * HasTrig.pi / (azimuthCount : T)
  points ++ (List.range azimuthCount).map fun (i : Nat) =>
    let azimuthAngle := (i : T) * azimuthStep
    vec3 (HasTrig.cos azimuthAngle * circleRadius) (HasTrig.sin azimuthAngle * circleRadius) 0

/-- `enum class CircleDiscretizationDirection` (`DiscretizeCircle.hpp:30-34`). -/
inductive CircleDir
  | ccw
  | cw
  deriving DecidableEq

/-- `discretize_circle(center, radius, azimuthCount, direction, out)` (`DiscretizeCircle.hpp:41-63`); the points written. -/
def discretizeCircle (center : Vec T 3) (circleRadius : T) (azimuthCount : Nat) (dir : CircleDir) : List (Vec T 3) :=
  let step := 2 * HasTrig.pi / (azimuthCount : T)
  let azimuthStep := if dir = .cw then -step else step
  (List.range azimuthCount).map fun (i : Nat) =>
    let azimuthAngle := (i : T) * azimuthStep
    vadd center (vec3 (HasTrig.cos azimuthAngle * circleRadius) (HasTrig.sin azimuthAngle * circleRadius) 0)

/-- `calc_circle_triangles` (`DiscretizeCircle.hpp:72-95`): the points and the indices written. -/
def calcCircleTriangles (M : Nat) (center : Vec T 3) (circleRadius : T) (azimuthCount : Nat) (dir : CircleDir)
    (midPointIdx : Nat) : Res (List (Vec T 3) × List Nat) := do
  let points := center :: discretizeCircle center circleRadius azimuthCount dir
  let startIdx := (midPointIdx + 1) % M
  let endIdx := subM M ((startIdx + azimuthCount) % M) 1
  let is ← loopIncl M startIdx endIdx
  .ok (points, is.flatMap fun i => [midPointIdx, i, if i = endIdx then startIdx else (i + 1) % M])

/-! ### ConeMeshBuilder -/

/-- `ConeMeshBuilder::calc_cone_triangles` (`ConeMeshBuilder.hpp:74-101`) for a cone with the given radius and height. -/
def calcConeTriangles (M : Nat) (radius height : T) (azimuthCount : Nat) : Res (List (Vec T 3) × List Nat) := do
  let c ← calcCircleTriangles M (vec3 0 0 0) radius azimuthCount .ccw 0
  let conePoints := c.1 ++ [vec3 0 0 height]
  let circlePointsStartIdx := 1
  let circlePointsEndIdx := toIdx M (conePoints.length - 2)
  let peakIdx := toIdx M (conePoints.length - 1)
  let is ← loopIncl M circlePointsStartIdx circlePointsEndIdx
  .ok (conePoints, c.2 ++ is.flatMap fun i =>
    [peakIdx, if i = circlePointsEndIdx then circlePointsStartIdx else (i + 1) % M, i])

/-! ### CylinderMeshBuilder -/

/-- `tIdxMinusOne` (`CylinderMeshBuilder.hpp:109`). -/
def tIdxMinusOne (M topStartIdx topEndIdx idx : Nat) : Nat := if idx = topStartIdx then topEndIdx else subM M idx 1

/-- The `while (bIdx < bottomEndIdx)` loop (`CylinderMeshBuilder.hpp:113-125`) with `rounds = bottomEndIdx - bIdx` rounds
left. -/
def mantleLoop (M topStartIdx topEndIdx : Nat) : Nat → Nat → Nat → List Nat
  | 0, _, _ => []
  | rounds + 1, bIdx, tIdx =>
    [bIdx, tIdx, (bIdx + 1) % M, tIdx, tIdxMinusOne M topStartIdx topEndIdx tIdx, (bIdx + 1) % M] ++
      mantleLoop M topStartIdx topEndIdx rounds ((bIdx + 1) % M) (tIdxMinusOne M topStartIdx topEndIdx tIdx)

/-- `CylinderMeshBuilder::calc_cylinder_triangles` (`CylinderMeshBuilder.hpp:70-134`) for a cylinder with the given radius
and height. -/
def calcCylinderTriangles (dbg : Bool) (M : Nat) (radius height : T) (azimuthCount : Nat) :
    Res (List (Vec T 3) × List Nat) := do
  let b ← calcCircleTriangles M (vec3 0 0 0) radius azimuthCount .ccw 0
  let t ← calcCircleTriangles M (vec3 0 0 height) radius azimuthCount .cw (toIdx M b.1.length)
  let bottomStartIdx := 1
  let bottomEndIdx := azimuthCount
  let topStartIdx := (bottomEndIdx + 2) % M
  let topEndIdx := (2 * azimuthCount + 1) % M
  let _ ← geoAssert dbg (subM M bottomEndIdx bottomStartIdx == subM M azimuthCount 1)
  let _ ← geoAssert dbg (subM M topEndIdx topStartIdx == subM M azimuthCount 1)
  let _ ← geoAssert dbg (subM M bottomEndIdx bottomStartIdx == subM M topEndIdx topStartIdx)
  let mantle := mantleLoop M topStartIdx topEndIdx (bottomEndIdx - bottomStartIdx) bottomStartIdx topStartIdx
  .ok (b.1 ++ t.1, b.2 ++ t.2 ++ mantle ++
    [bottomEndIdx, (topStartIdx + 1) % M, bottomStartIdx, (topStartIdx + 1) % M, topStartIdx, bottomStartIdx])

/-! ### SphereMeshBuilder -/

/-- `SphereMeshBuilder::calc_sphere_points` (`SphereMeshBuilder.hpp:92-129`). -/
def calcSpherePoints [BEq (Vec T 3)] (sphere : Sphere T) (polarCount azimuthCount : Nat) : List (Vec T 3) :=
  let polarStep := HasTrig.pi / (polarCount : T)
  let azimuthStep := 2 * HasTrig.pi / (azimuthCount : T)
  let radius := sphere.radius
  let rows := (List.range' 1 (polarCount - 1)).flatMap fun (i : Nat) =>
    let polarAngle := (i : T) * polarStep
    let z := radius * HasTrig.cos polarAngle
    let projRadius := radius * HasTrig.sin polarAngle
    (List.range azimuthCount).map fun (j : Nat) =>
      let azimuthAngle := (j : T) * azimuthStep
      vec3 (projRadius * HasTrig.cos azimuthAngle) (projRadius * HasTrig.sin azimuthAngle) z
  let points := rows ++ [vec3 0 0 radius, vec3 0 0 (-radius)]
  if sphere.origin != vec3 0 0 0 then points.map fun p => vadd p sphere.origin else points
end

/-- `toIdx` (`SphereMeshBuilder.hpp:133-134`). -/
def sphereIdx (M azimuthCount i j : Nat) : Nat := (i * azimuthCount + j) % M

/-- The loops `for (j = 1; j < azimuthCount; ++j)` of the caps (`SphereMeshBuilder.hpp:154-169`), one round. -/
def sphereCapRound (M n bottomi top bottom j : Nat) : List Nat :=
  [top, sphereIdx M n 0 j, sphereIdx M n 0 (subM M j 1), sphereIdx M n bottomi j, bottom, sphereIdx M n bottomi (subM M j 1)]

/-- One round of the body loop over `j` (`SphereMeshBuilder.hpp:175-189`). -/
def sphereBodyRound (M n i j : Nat) : List Nat :=
  let iprev := subM M i 1
  let jprev := subM M j 1
  let iprevj := sphereIdx M n iprev j
  let ijprev := sphereIdx M n i jprev
  [iprevj, ijprev, sphereIdx M n iprev jprev, ijprev, iprevj, sphereIdx M n i j]

/-- The two triangles closing a ring (`SphereMeshBuilder.hpp:191-198`). -/
def sphereWrap (M n i : Nat) : List Nat :=
  let iprev := subM M i 1
  [sphereIdx M n i (subM M n 1), sphereIdx M n iprev (subM M n 1), sphereIdx M n iprev 0,
   sphereIdx M n i 0, sphereIdx M n i (subM M n 1), sphereIdx M n iprev 0]

/-- `SphereMeshBuilder::calc_sphere_triangle_indices` (`SphereMeshBuilder.hpp:131-201`), `p = m_polarCount`,
`n = m_azimuthCount`. -/
def calcSphereTriangleIndices (M p n spherePointsSize : Nat) : List Nat :=
  let topi := 0
  let top := subM M spherePointsSize 2
  let bottomi := subM M p 2
  let bottom := subM M spherePointsSize 1
  [sphereIdx M n topi (subM M n 1), top, sphereIdx M n topi 0] ++
  [sphereIdx M n bottomi 0, bottom, sphereIdx M n bottomi (subM M n 1)] ++
  (List.range' 1 (n - 1)).flatMap (sphereCapRound M n bottomi top bottom) ++
  (List.range' 1 (subM M p 1 - 1)).flatMap fun i =>
    (List.range' 1 (n - 1)).flatMap (sphereBodyRound M n i) ++ sphereWrap M n i

/-- The state of a `SphereMeshBuilder` (`SphereMeshBuilder.hpp:27-31`). -/
structure SphereBuilder (T : Type) where
  polarCount : Nat := 10
  azimuthCount : Nat := 20
  origin : Vec T 3
  radius : T
  sphere : Option (Sphere T) := none

/-- `SphereMeshBuilder::set_origin` (`SphereMeshBuilder.hpp:52-63`). -/
def SphereBuilder.setOrigin (b : SphereBuilder T) (o : Vec T 3) : SphereBuilder T :=
  match b.sphere with
  | some s => { b with sphere := some { s with origin := o } }
  | none => { b with origin := o }

/-- `SphereMeshBuilder::set_radius` (`SphereMeshBuilder.hpp:65-76`). -/
def SphereBuilder.setRadius (b : SphereBuilder T) (r : T) : SphereBuilder T :=
  match b.sphere with
  | some s => { b with sphere := some { s with radius := r } }
  | none => { b with radius := r }

/-- `SphereMeshBuilder::build` (`SphereMeshBuilder.hpp:78-89`): the mesh and the builder afterwards (`m_sphere` is set). -/
def SphereBuilder.build [Zero T] [One T] [Add T] [Sub T] [Mul T] [Div T] [Neg T] [OfNat T 2] [NatCast T] [HasSqrt T] [HasTrig T]
    [LT T] [DecidableLT T] [BEq (HMat T)] [BEq (Vec T 3)] (dbg : Bool) (M w : Nat) (b : SphereBuilder T) :
    Res (HalfedgeMesh (Vec T 3) × SphereBuilder T) := do
  let sphere := b.sphere.getD ⟨b.origin, b.radius⟩
  let spherePoints := calcSpherePoints sphere b.polarCount b.azimuthCount
  let triangleIndices := calcSphereTriangleIndices M b.polarCount b.azimuthCount (toIdx M spherePoints.length)
  let m ← buildTriangleHalfedgeMesh dbg M w hmatIdentity spherePoints triangleIndices
  .ok (m, { b with sphere := some sphere })

/-! ### Building cones and cylinders -/
section
variable [Zero T] [One T] [Add T] [Sub T] [Mul T] [Div T] [Neg T] [OfNat T 2] [NatCast T] [HasSqrt T] [HasTrig T] [LT T]
  [DecidableLT T] [BEq (HMat T)] [BEq (Vec T 3)]

/-- `ConeMeshBuilder::build` (`ConeMeshBuilder.hpp:46-71`); `none` is `nullptr`.  `rotAlign from to` is the matrix
`linal::rot_align` writes (external). -/
def coneBuild [Tol T] (dbg : Bool) (M w : Nat) (rotAlign : Vec T 4 → Vec T 4 → HMat T) (cone : Option (Cone T))
    (azimuthCount : Nat) : Res (Option (HalfedgeMesh (Vec T 3))) := do
  let _ ← geoAssert dbg cone.isSome
  match cone with
  | none => .ok none
  | some cone =>
    let coneSeg := cone.segment
    let _ ← geoAssert dbg (!isZero coneSeg.length)
    let dir := coneSeg.direction
    let _ ← geoAssert dbg (isEq (length dir) 1)
    let hTrafo := hmatSetTranslation (rotAlign (hvec4 0 0 1 1) (hvec4 (dir 0) (dir 1) (dir 2) 1)) coneSeg.source
    let c ← calcConeTriangles M cone.radius cone.segment.length azimuthCount
    let m ← buildTriangleHalfedgeMesh dbg M w hTrafo c.1 c.2
    .ok (some m)

/-- `CylinderMeshBuilder::build` (`CylinderMeshBuilder.hpp:45-67`); `none` is `nullptr`. -/
def cylinderBuild (dbg : Bool) (M w : Nat) (rotAlign : Vec T 4 → Vec T 4 → HMat T) (cylinder : Option (Cylinder T))
    (azimuthCount : Nat) : Res (Option (HalfedgeMesh (Vec T 3))) := do
  let _ ← geoAssert dbg cylinder.isSome
  match cylinder with
  | none => .ok none
  | some cylinder =>
    let cylinderSeg := cylinder.segment
    let hTrafo := hmatSetTranslation (rotAlign (hvec4 0 0 1 1) (toHvec cylinderSeg.direction)) cylinderSeg.source
    let c ← calcCylinderTriangles dbg M cylinder.radius cylinder.segment.length azimuthCount
    let m ← buildTriangleHalfedgeMesh dbg M w hTrafo c.1 c.2
    .ok (some m)
end

/-! ### CuboidMeshBuilder -/

/-- `calc_cuboid_face_triangles` (`CuboidMeshBuilder.hpp:104-123`): the four triangles written. -/
def cuboidFaceTriangles [Add T] (v0 v1 v2 v3 origin translationVec : Vec T 3) : List (Vec T 3 × Vec T 3 × Vec T 3) :=
  let a0 := vadd v0 origin
  let a1 := vadd v1 origin
  let a2 := vadd v2 origin
  let a3 := vadd v3 origin
  let b0 := vadd a0 translationVec
  let b1 := vadd a1 translationVec
  let b2 := vadd a2 translationVec
  let b3 := vadd a3 translationVec
  [(a0, a1, a2), (a2, a3, a0), (b2, b1, b0), (b0, b3, b2)]

/-- `calc_cuboid_triangles` (`CuboidMeshBuilder.hpp:80-102`).  Simplification: `linal::double3` is the vector type. -/
def cuboidTriangles [Zero T] [Add T] (c : Cuboid T) : List (Vec T 3 × Vec T 3 × Vec T 3) :=
  let defaultOrigin : Vec T 3 := vec3 0 0 0
  let vecX := c.sides 0
  let vecY := c.sides 1
  let vecZ := c.sides 2
  let diagYZ := vadd vecY vecZ
  let diagXZ := vadd vecX vecZ
  let diagXY := vadd vecX vecY
  cuboidFaceTriangles defaultOrigin vecZ diagYZ vecY c.origin vecX ++
  cuboidFaceTriangles defaultOrigin vecX diagXZ vecZ c.origin vecY ++
  cuboidFaceTriangles defaultOrigin vecY diagXY vecX c.origin vecZ

/-- The state of a `CuboidMeshBuilder` (`CuboidMeshBuilder.hpp:32-34`). -/
structure CuboidBuilder (T : Type) where
  cube : Option (Cuboid T) := none
  origin : Vec T 3
  diagonal : Vec T 3

/-- `CuboidMeshBuilder::set_origin` (`CuboidMeshBuilder.hpp:39-43`). -/
def CuboidBuilder.setOrigin (b : CuboidBuilder T) (o : Vec T 3) : CuboidBuilder T := { b with origin := o }

/-- `CuboidMeshBuilder::set_diagonal` (`CuboidMeshBuilder.hpp:45-49`). -/
def CuboidBuilder.setDiagonal (b : CuboidBuilder T) (d : Vec T 3) : CuboidBuilder T := { b with diagonal := d }

/-- `CuboidMeshBuilder::set_cuboid` (`CuboidMeshBuilder.hpp:51-55`). -/
def CuboidBuilder.setCuboid (b : CuboidBuilder T) (c : Cuboid T) : CuboidBuilder T := { b with cube := some c }

/-- `CuboidMeshBuilder::build` (`CuboidMeshBuilder.hpp:57-77`): the mesh and the builder afterwards (`m_cube` is set). -/
def CuboidBuilder.build [Zero T] [One T] [Add T] [Sub T] [Mul T] [Div T] [Neg T] [HasSqrt T] [LT T] [DecidableLT T]
    [BEq (Vec T 3)] (dbg : Bool) (M w : Nat) (b : CuboidBuilder T) : Res (HalfedgeMesh (Vec T 3) × CuboidBuilder T) := do
  let cube := b.cube.getD (Cuboid.ofDiagonal b.origin b.diagonal)
  let m ← buildMesh dbg M w (cuboidTriangles cube)
  let _ ← geoAssert dbg (m.vertices.length == 8)
  let _ ← geoAssert dbg (m.halfedges.length == 36)
  .ok (m, { b with cube := some cube })

/-! ### MeshBuilder -/

/-- `struct MeshBuilderConfig` (`MeshBuilderConfig.hpp`). -/
structure MeshBuilderConfig where
  polarCount : Nat := 10
  azimuthCount : Nat := 20

end
end Verif
