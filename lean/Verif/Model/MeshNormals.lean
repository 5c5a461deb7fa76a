import Verif.Model.Mesh

/-
Model of `src/include/Geometry/HalfedgeMesh/CalcVertexNormals.hpp`.
-/
namespace Verif

/-- The comparison passed to `std::sort` (`CalcVertexNormals.hpp:37-38`). -/
def vecLexLt {T : Type} [LT T] [DecidableLT T] [BEq T] (a b : Vec T 3) : Bool :=
  decide (a 0 < b 0) || (a 0 == b 0 && decide (a 1 < b 1)) ||
    (a 0 == b 0 && a 1 == b 1 && decide (a 2 < b 2))

/-- The loop of `std::unique`: `last` is the element kept last. -/
def stdUniqueFrom {α : Type u} [BEq α] (last : α) : List α → List α
  | [] => []
  | x :: xs => if last == x then stdUniqueFrom last xs else x :: stdUniqueFrom x xs

/-- `std::unique` followed by `erase` (`CalcVertexNormals.hpp:39-40`). -/
def stdUnique {α : Type u} [BEq α] : List α → List α
  | [] => []
  | x :: xs => x :: stdUniqueFrom x xs

section
variable {T : Type} [Zero T] [Add T] [Sub T] [Mul T] [Div T] [HasSqrt T] [LT T] [DecidableLT T] [BEq T] [BEq (Vec T 3)]

/-- The normals of the facets at a vertex (`CalcVertexNormals.hpp:28-34`). -/
def facetNormals (m : HalfedgeMesh (Vec T 3)) (facets : List Facet) : Res (List (Vec T 3)) :=
  facets.foldlM (fun normals f => do
    let n ← calcFacetNormal m f
    .ok (normals ++ [normalize n])) []

/-- One round of the loop over the vertices (`CalcVertexNormals.hpp:26-49`).  `std::sort` is modelled by a stable merge
sort (without NaN the comparison is a strict total order up to the sign of zeros, so the result does not depend on the algorithm; with NaN
`std::sort` is undefined, see C119). -/
def calcVertexNormal (m : HalfedgeMesh (Vec T 3)) (v : MeshVertex) : Res (Vec T 3) := do
  let facets ← calcVertexFacets m v
  let normals ← facetNormals m facets
  let sorted := normals.mergeSort fun a b => !vecLexLt b a
  .ok (normalize ((stdUnique sorted).foldl vadd (fun _ => 0)))

/-- `calc_vertex_normals(mesh)` (`CalcVertexNormals.hpp:15-52`).
Simplification: `TResFloat` is the mesh's own `value_type`. -/
def calcVertexNormals (m : HalfedgeMesh (Vec T 3)) : Res (List (Vec T 3)) :=
  m.vertices.foldlM (fun normals v => do
    let n ← calcVertexNormal m v
    .ok (normals ++ [n])) []
end
end Verif
