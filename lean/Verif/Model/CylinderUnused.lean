import Verif.Model.MeshBuilder

/-
The private members `calc_cylinder_points`, `calc_circle_buffer_indices` and `calc_cylinder_triangle_indices` of
`src/include/Geometry/HalfedgeMeshBuilder/CylinderMeshBuilder.hpp` (lines 136-221).  Nothing calls them; they are an alternative to
`calc_cylinder_triangles` (`calcCylinderTriangles` in `MeshBuilder.lean`).  `index_type` has `M` values, as there.
-/
namespace Verif

section
variable {T : Type} [Zero T] [Add T] [Mul T] [Div T] [Neg T] [OfNat T 2] [NatCast T] [HasTrig T]

/-- `calc_cylinder_points` (`CylinderMeshBuilder.hpp:136-163`) for a cylinder with the given radius and height.
`reserve` (line 139) does not change the size of the vector. -/
def calcCylinderPoints (M : Nat) (radius height : T) (azimuthCount : Nat) : Res (List (Vec T 3)) := do
  let points := discretizeCircleXY [] radius azimuthCount
  let circlePointsSize := toIdx M points.length
  let topStartIdx := circlePointsSize
  let topEndIdx := subM M ((2 * azimuthCount) % M) 1
  let is ← loopIncl M topStartIdx topEndIdx
  let points ← is.foldlM (fun (pts : List (Vec T 3)) idx => do
    let bottomPoint ← vecGet pts idx
    vecModify pts idx fun _ => vadd bottomPoint (vec3 0 0 height)) points
  .ok (points ++ [vec3 0 0 0] ++ [vec3 0 0 height])
end

/-- `calc_circle_buffer_indices` (`CylinderMeshBuilder.hpp:165-179`): the indices appended. -/
def calcCircleBufferIndices (M midPointIdx circleStartIdx circleEndIdx : Nat) : List Nat :=
  let first := (circleStartIdx + 1) % M
  ((List.range' first (circleEndIdx - first)).flatMap fun i => [midPointIdx, subM M i 1, i]) ++
    [midPointIdx, circleStartIdx, subM M circleEndIdx 1]

/-- `calc_cylinder_triangle_indices` (`CylinderMeshBuilder.hpp:181-221`); of the points only their number is used. -/
def calcCylinderTriangleIndices (M cylinderPointsSize azimuthCount : Nat) : List Nat :=
  let cylPointsSize := toIdx M cylinderPointsSize
  let bottom := calcCircleBufferIndices M (subM M cylPointsSize 2) 0 azimuthCount
  let outer := (List.range' 1 (azimuthCount - 1)).flatMap fun i =>
    let topIdx := (i + azimuthCount) % M
    let topIdxMOne := subM M ((i + azimuthCount) % M) 1
    [i, topIdx, topIdxMOne, i, topIdxMOne, subM M i 1]
  let topIdxStart := azimuthCount
  let topIdxEnd := subM M ((2 * azimuthCount) % M) 1
  let top := calcCircleBufferIndices M (subM M cylPointsSize 1) azimuthCount ((2 * azimuthCount) % M)
  bottom ++ outer ++ [topIdxEnd, subM M topIdxStart 1, 0, topIdxEnd, 0, topIdxStart] ++ top
end Verif
