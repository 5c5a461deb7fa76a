import Verif.Model.Linal
import Verif.Model.KdTree

/-
Model of `src/include/Geometry/HalfedgeMesh/*.hpp` and
`src/include/Geometry/HalfedgeMeshBuilder/MeshTriangleAdder.hpp`.

Indices: `index_type` is an unsigned type with `M` values (`M = 2^w`), modelled as `Nat` with an explicit `% M` at
every conversion.  Every element holds a pointer to its mesh; here the mesh is passed to the functions instead
(the pointer itself, and what moving a mesh does to it, is modelled in `MeshMove.lean`).
-/
namespace Verif

/-- `Handle<T>::invalidHandles` (`Handle.hpp:11-15`), the largest value of the index type. -/
def invalidHandle (M : Nat) : Nat := M - 1

/-- `Handle::is_valid` (`Handle.hpp:25`). -/
def handleValid (M i : Nat) : Bool := i != invalidHandle M

/-- `to_idx<index_type>(value)` (`ConversionHelper.hpp:7-11`), `static_cast<index_type>(value)`. -/
def toIdx (M n : Nat) : Nat := n % M

/-- `v[i] = f(v[i])` on a `std::vector`: undefined behaviour when out of range. -/
def vecModify {α : Type u} (l : List α) (i : Nat) (f : α → α) : Res (List α) :=
  if i < l.length then .ok (l.modify i f) else .error .outOfRange

/-- `class Vertex` (`Vertex.hpp:126-127`). -/
structure MeshVertex where
  idx : Nat
  hes : List Nat
  deriving DecidableEq, Repr

/-- `class Halfedge` (`Halfedge.hpp:113-118`). -/
structure Halfedge where
  idx : Nat
  facet : Nat
  vertex : Nat
  next : Nat
  prev : Nat
  opp : Nat
  deriving DecidableEq, Repr

/-- `class Facet` (`Facet.hpp:61`). -/
structure Facet where
  he : Nat
  deriving DecidableEq, Repr

/-- `class HalfedgeMesh` (`HalfedgeMesh.hpp:125-128`) with `MeshPoints::m_points` (`MeshPoints.hpp:72`). -/
structure HalfedgeMesh (V : Type) where
  points : List V
  vertices : List MeshVertex
  halfedges : List Halfedge
  facets : List Facet

/-- `HalfedgeMesh()` (`HalfedgeMesh.hpp:36`). -/
def HalfedgeMesh.empty {V : Type} : HalfedgeMesh V := ⟨[], [], [], []⟩

/-! ### MeshPoints -/

/-- `MeshPoints::contains(vector, index)` (`MeshPoints.hpp:51-63`): `none` is "not found".
The loop counter has `index_type`, so with `M` points or more it wraps and never reaches `size()`. -/
def pointsContains {V : Type} [BEq V] (M : Nat) (pts : List V) (v : V) : Res (Option Nat) :=
  match pts.findIdx? (· == v) with
  | some i => if i < M then .ok (some i) else .error .diverges
  | none => if pts.length < M then .ok none else .error .diverges

/-- The index returned by `MeshPoints::add` (`MeshPoints.hpp:38-42`) when there are `n` points after adding. -/
def pointsAddIndex (M n : Nat) : Nat := (toIdx M n + (M - 1)) % M

/-- `MeshPoints::transform` (`MeshPoints.hpp:65-69`). -/
def pointsTransform {V : Type} [Add V] (pts : List V) (translation : V) : List V :=
  pts.map fun v => v + translation

/-- `vectorsToComponents` (`MeshPoints.hpp:75-85`); `cast` is `static_cast<U>`. -/
def vectorsToComponents {T : Type} {U : Type} (cast : T → U) (vectors : List (Vec T 3)) : List U :=
  vectors.foldl (fun result vector => result ++ [cast (vector 0)] ++ [cast (vector 1)] ++ [cast (vector 2)]) []

/-! ### Vertex -/

/-- `Vertex::addHalfedgeIndex` (`Vertex.hpp:48-52`): `push_back`, then `std::sort`. -/
def MeshVertex.addHalfedgeIndex (v : MeshVertex) (h : Nat) : MeshVertex :=
  { v with hes := (v.hes ++ [h]).mergeSort }

/-! ### Navigation -/
section
variable {V : Type}

/-- `Halfedge::getVertex` (`Halfedge.hpp:47-48`). -/
def HalfedgeMesh.heVertex (m : HalfedgeMesh V) (h : Halfedge) : Res MeshVertex := vecGet m.vertices h.vertex

/-- `Halfedge::getNext` (`Halfedge.hpp:59-60`). -/
def HalfedgeMesh.heNext (m : HalfedgeMesh V) (h : Halfedge) : Res Halfedge := vecGet m.halfedges h.next

/-- `Halfedge::getPrevious` (`Halfedge.hpp:61-62`). -/
def HalfedgeMesh.hePrev (m : HalfedgeMesh V) (h : Halfedge) : Res Halfedge := vecGet m.halfedges h.prev

/-- `Halfedge::getOpposite` (`Halfedge.hpp:63`). -/
def HalfedgeMesh.heOpposite (m : HalfedgeMesh V) (h : Halfedge) : Res Halfedge := vecGet m.halfedges h.opp

/-- `Halfedge::getFacet` (`Halfedge.hpp:45`). -/
def HalfedgeMesh.heFacet (m : HalfedgeMesh V) (h : Halfedge) : Res Facet := vecGet m.facets h.facet

/-- `Halfedge::getNextVertex` (`Halfedge.hpp:50-51`). -/
def HalfedgeMesh.heNextVertex (m : HalfedgeMesh V) (h : Halfedge) : Res MeshVertex := do
  let n ← m.heNext h
  m.heVertex n

/-- `Vertex::getVector` (`Vertex.hpp:44`, `HalfedgeMesh.hpp:44`, `MeshPoints.hpp:33`). -/
def HalfedgeMesh.vector (m : HalfedgeMesh V) (v : MeshVertex) : Res V := vecGet m.points v.idx

/-- `he.getVertex().getVector()`. -/
def HalfedgeMesh.heVector (m : HalfedgeMesh V) (h : Halfedge) : Res V := do
  let v ← m.heVertex h
  m.vector v

/-- `he.getNextVertex().getVector()`. -/
def HalfedgeMesh.heNextVector (m : HalfedgeMesh V) (h : Halfedge) : Res V := do
  let v ← m.heNextVertex h
  m.vector v

/-- `Facet::getHalfedge` (`Facet.hpp:43-44`, `HalfedgeMesh.hpp:47,51`). -/
def HalfedgeMesh.facetHalfedge (m : HalfedgeMesh V) (f : Facet) : Res Halfedge := vecGet m.halfedges f.he

/-! ### MeshTriangleAdder -/

/-- One round of `create_or_find_vertex` (`MeshTriangleAdder.hpp:124-134`). -/
def createOrFindVertex [BEq V] (dbg : Bool) (M : Nat) (m : HalfedgeMesh V) (p : V) : Res (HalfedgeMesh V × Nat) := do
  let found ← pointsContains M m.points p
  let (m', i) := match found with
    | some i => (m, i)
    | none =>
      let points := m.points ++ [p]
      ({ m with points := points, vertices := m.vertices ++ [⟨toIdx M m.vertices.length, []⟩] },
        pointsAddIndex M points.length)
  let _ ← geoAssert dbg (handleValid M i)
  .ok (m', i)

/-- One round of the half-edge loop (`MeshTriangleAdder.hpp:59-80`); `first` is `i == 0`, the running value is the mesh
and `facetIdx`. -/
def addCorner (dbg : Bool) (M : Nat) (s : HalfedgeMesh V × Nat) (first : Bool) (v : Nat) : Res (HalfedgeMesh V × Nat) := do
  let m := s.1
  let h := toIdx M m.halfedges.length
  let _ ← geoAssert dbg (handleValid M h)
  let facetIdx := if first then toIdx M m.facets.length else s.2
  let facets := if first then m.facets ++ [⟨h⟩] else m.facets
  let _ ← geoAssert dbg (!first || handleValid M facetIdx)
  let _ ← geoAssert dbg (handleValid M v)
  let inv := invalidHandle M
  let halfedges := m.halfedges ++ [⟨h, inv, v, inv, inv, inv⟩]
  let _ ← geoAssert dbg (handleValid M h)
  let _ ← geoAssert dbg (v < m.vertices.length)
  let vertices ← vecModify m.vertices v (·.addHalfedgeIndex h)
  .ok ({ m with vertices := vertices, halfedges := halfedges, facets := facets }, facetIdx)

/-- One round of the linking loop (`MeshTriangleAdder.hpp:88-97`). -/
def linkOne (M start last facetIdx : Nat) (hes : List Halfedge) (i : Nat) : Res (List Halfedge) :=
  vecModify hes i fun h =>
    { h with
      facet := facetIdx
      next := if i = last then start else toIdx M (i + 1)
      prev := if i = start then last else (i + (M - 1)) % M }

/-- The linking loop (`MeshTriangleAdder.hpp:84-97`). -/
def linkTriangle (M facetIdx : Nat) (hes : List Halfedge) : Res (List Halfedge) :=
  let startIdx := toIdx M (hes.length - 3)
  let endIdx := toIdx M hes.length
  let lastElemIdx := (endIdx + (M - 1)) % M
  (List.range' startIdx (endIdx - startIdx)).foldlM (linkOne M startIdx lastElemIdx facetIdx) hes

/-- `MeshTriangleAdder::operator()` (`MeshTriangleAdder.hpp:47-98`). -/
def addTriangle [BEq V] (dbg : Bool) (M : Nat) (m : HalfedgeMesh V) (t : V × V × V) : Res (HalfedgeMesh V) := do
  let s0 ← createOrFindVertex dbg M m t.1
  let s1 ← createOrFindVertex dbg M s0.1 t.2.1
  let s2 ← createOrFindVertex dbg M s1.1 t.2.2
  let _ ← geoAssert dbg (handleValid M s0.2 && handleValid M s1.2 && handleValid M s2.2)
  let c0 ← addCorner dbg M (s2.1, invalidHandle M) true s0.2
  let c1 ← addCorner dbg M c0 false s1.2
  let c2 ← addCorner dbg M c1 false s2.2
  let _ ← geoAssert dbg (handleValid M c2.2)
  let _ ← geoAssert dbg (decide (3 ≤ c2.1.halfedges.length))
  let hes ← linkTriangle M c2.2 c2.1.halfedges
  .ok { c2.1 with halfedges := hes }

/-- Adding triangles one after the other with the same adder, starting from an empty mesh
(as `MeshBuilderBase.hpp:32-55` does). -/
def addTriangles [BEq V] (dbg : Bool) (M : Nat) (ts : List (V × V × V)) : Res (HalfedgeMesh V) :=
  ts.foldlM (addTriangle dbg M) HalfedgeMesh.empty

/-! ### Queries -/

/-- The `while` loop of `calc_halfedges` (`CalcFaceHalfedges.hpp:28-32`).  The loop state is the current half-edge, so
when it has not stopped after as many rounds as there are half-edges it never does (`fuel`). -/
def calcHalfedgesLoop (m : HalfedgeMesh V) (f : Facet) : Nat → Halfedge → List Halfedge → Res (List Halfedge)
  | 0, _, _ => .error .diverges
  | fuel + 1, he, result => do
    let first ← m.facetHalfedge f
    let n ← m.heNext he
    if first.idx != n.idx then calcHalfedgesLoop m f fuel n (result ++ [n]) else .ok result

/-- `calc_halfedges(facet)` (`CalcFaceHalfedges.hpp:17-35`). -/
def calcHalfedges (m : HalfedgeMesh V) (f : Facet) : Res (List Halfedge) := do
  let h ← m.facetHalfedge f
  let n ← m.heNext h
  calcHalfedgesLoop m f (m.halfedges.length + 1) n [h, n]

/-- `calc_triangle_indices<U>(facets)` (`CalcTriangleIndices.hpp:14-43`; lines 23-34 repeat `calc_halfedges`).
`U` has `MU` values. -/
def calcTriangleIndices (MU : Nat) (m : HalfedgeMesh V) : Res (List Nat) :=
  m.facets.foldlM (fun result f => do
    let hes ← calcHalfedges m f
    .ok (result ++ hes.map fun h => h.vertex % MU)) []

/-- `Edge::create` (`CalcTriangleIndices.hpp:56-68`). -/
def edgeCreate (dbg : Bool) (MU i j : Nat) : Res (Nat × Nat) := do
  let _ ← geoAssert dbg (decide (i ≤ MU - 1))
  let _ ← geoAssert dbg (decide (j ≤ MU - 1))
  let a := i % MU
  let b := j % MU
  .ok (if a > b then (b, a) else (a, b))

/-- `Edge::operator<` (`CalcTriangleIndices.hpp:70`). -/
def edgeLt (e f : Nat × Nat) : Bool := e.1 < f.1 || (e.1 == f.1 && e.2 < f.2)

/-- `Edge::operator==` (`CalcTriangleIndices.hpp:71`). -/
def edgeEq (e f : Nat × Nat) : Bool := (e.1 == f.1 && e.2 == f.2) || (e.1 == f.2 && e.2 == f.1)

/-- `std::lower_bound` and the conditional insertion (`CalcTriangleIndices.hpp:79-83`).
Simplification: on a sorted range (which the code asserts on line 84) `lower_bound` is the first element that is not
less; the model finds it by a linear scan. -/
def edgeInsert (edges : List (Nat × Nat)) (e : Nat × Nat) : List (Nat × Nat) :=
  match edges with
  | [] => [e]
  | f :: rest => if edgeLt f e then f :: edgeInsert rest e else if edgeEq f e then f :: rest else e :: f :: rest

/-- `std::is_sorted` with `Edge::operator<` (`CalcTriangleIndices.hpp:84`): no element is less than its predecessor. -/
def edgesSorted : List (Nat × Nat) → Bool
  | [] => true
  | [_] => true
  | e :: f :: rest => !edgeLt f e && edgesSorted (f :: rest)

/-- `calc_line_indices<U>(mesh)` (`CalcTriangleIndices.hpp:45-88`). -/
def calcLineIndices (dbg : Bool) (MU : Nat) (m : HalfedgeMesh V) : Res (List Nat) := do
  let edges ← m.halfedges.foldlM (fun edges h => do
    let n ← m.heNext h
    let e ← edgeCreate dbg MU h.vertex n.vertex
    let edges' := edgeInsert edges e
    let _ ← geoAssert dbg (edgesSorted edges')
    .ok edges') []
  .ok (edges.flatMap fun e => [e.1, e.2])

/-- `Vertex::calcHalfedges` (`Vertex.hpp:54-62`). -/
def vertexCalcHalfedges (m : HalfedgeMesh V) (v : MeshVertex) : Res (List Halfedge) :=
  v.hes.foldlM (fun r h => do
    let he ← vecGet m.halfedges h
    .ok (r ++ [he])) []

/-- `calc_vertex_facets(vertex)` (`CalcVertexFacets.hpp:13-27`). -/
def calcVertexFacets (m : HalfedgeMesh V) (v : MeshVertex) : Res (List Facet) := do
  let hes ← vertexCalcHalfedges m v
  hes.foldlM (fun r h => do
    let f ← m.heFacet h
    .ok (r ++ [f])) []

/-! ### Validity -/

/-- `Vertex::is_valid_impl` (`Vertex.hpp:75-101`), mesh pointer not null. -/
def vertexValidImpl (M : Nat) (v : MeshVertex) : Bool :=
  handleValid M v.idx && decide (v.hes.Pairwise (· ≤ ·)) && v.hes.all (handleValid M)

/-- `Halfedge::is_valid_halfedge_impl` (`Halfedge.hpp:82-111`), mesh pointer not null. -/
def halfedgeValidImpl (M : Nat) (m : HalfedgeMesh V) (h : Halfedge) : Res Bool :=
  if !(handleValid M h.idx && handleValid M h.vertex && handleValid M h.facet && handleValid M h.next &&
      handleValid M h.prev && handleValid M h.opp) then .ok false
  else do
    let v ← m.heVertex h
    if !v.hes.contains h.idx then .ok false
    else do
      let o ← m.heOpposite h
      if o.opp != h.idx then .ok false
      else do
        let n ← m.heNext h
        if n.prev != h.idx then .ok false
        else do
          let p ← m.hePrev h
          .ok (p.next == h.idx)

/-- `Facet::is_valid_impl` (`Facet.hpp:59`), mesh pointer not null. -/
def facetValidImpl (M : Nat) (f : Facet) : Bool := handleValid M f.he

/-- `is_valid` of an element: the result is asserted, then returned (`Vertex.hpp:64-69`, `Halfedge.hpp:74-79`,
`Facet.hpp:51-56`). -/
def assertedValid (dbg : Bool) (r : Res Bool) : Res Bool := do
  let b ← r
  let _ ← geoAssert dbg b
  .ok b

/-- A loop `for (x : xs) if (!x.is_valid()) return false;` (`HalfedgeMesh.hpp:71-93`). -/
def allValid {α : Type} (valid : α → Res Bool) : List α → Res Bool
  | [] => .ok true
  | x :: xs => do
    let b ← valid x
    if b then allValid valid xs else .ok false

/-- `HalfedgeMesh::is_valid` (`HalfedgeMesh.hpp:69-96`). -/
def HalfedgeMesh.isValid (dbg : Bool) (M : Nat) (m : HalfedgeMesh V) : Res Bool := do
  let bv ← allValid (fun v => assertedValid dbg (.ok (vertexValidImpl M v))) m.vertices
  if !bv then .ok false
  else do
    let bh ← allValid (fun h => assertedValid dbg (halfedgeValidImpl M m h)) m.halfedges
    if !bh then .ok false
    else allValid (fun f => assertedValid dbg (.ok (facetValidImpl M f))) m.facets
end

/-! ### Opposite half-edges -/
section
variable {T : Type}

/-- The first loop of `set_opposite_halfedges` (`MeshTriangleAdder.hpp:141-158`), one round. -/
def oppositeIndexRound {w : Nat} [Zero T] [Add T] [Sub T] [Mul T] [Neg T] [HasSqrt T] [LT T] [DecidableLT T] [BEq (Vec T 3)]
    (m : HalfedgeMesh (Vec T 3)) (kd : KdTree T 3 (List Nat) w) (i : Nat) : Res (KdTree T 3 (List Nat) w) := do
  let h ← vecGet m.halfedges i
  let start ← m.heVector h
  if kd.search start then kd.modifyNearest start (· ++ [i]) else .ok (kd.insert start [i]).1

/-- The inner loop of `set_opposite_halfedges` (`MeshTriangleAdder.hpp:167-177`): the first listed half-edge whose next
vertex is at `start`. -/
def findOpposite [BEq (Vec T 3)] (m : HalfedgeMesh (Vec T 3)) (start : Vec T 3) : List Nat → Res (Option Nat)
  | [] => .ok none
  | j :: js => do
    let c ← vecGet m.halfedges j
    let v ← m.heNextVector c
    if v == start then .ok (some j) else findOpposite m start js

/-- The second loop of `set_opposite_halfedges` (`MeshTriangleAdder.hpp:161-179`), one round. -/
def oppositeSetRound {w : Nat} [Zero T] [Add T] [Sub T] [Mul T] [Neg T] [HasSqrt T] [LT T] [DecidableLT T] [BEq (Vec T 3)]
    (dbg : Bool) (kd : KdTree T 3 (List Nat) w) (m : HalfedgeMesh (Vec T 3)) (k : Nat) :
    Res (HalfedgeMesh (Vec T 3)) := do
  let he ← vecGet m.halfedges k
  let start ← m.heNextVector he
  let «end» ← m.heVector he
  let result ← kd.nearest «end»
  let found ← findOpposite m start result.2
  match found with
  | none => do
    let _ ← geoAssert dbg false
    .ok m
  | some j => do
    let c ← vecGet m.halfedges j
    .ok { m with halfedges := (m.halfedges.modify k ({ · with opp := c.idx })).modify j ({ · with opp := he.idx }) }

/-- `set_opposite_halfedges` (`MeshTriangleAdder.hpp:100-105,137-180`).  `w` is the width of the tree's `size_type`. -/
def setOppositeHalfedges [Zero T] [Add T] [Sub T] [Mul T] [Neg T] [HasSqrt T] [LT T] [DecidableLT T] [BEq (Vec T 3)]
    (dbg : Bool) (w : Nat) (m : HalfedgeMesh (Vec T 3)) : Res (HalfedgeMesh (Vec T 3)) := do
  let kd ← (List.range m.halfedges.length).foldlM (oppositeIndexRound (w := w) m) KdTree.empty
  (List.range m.halfedges.length).foldlM (oppositeSetRound dbg kd) m

/-- Adding triangles to an empty mesh and then linking opposite half-edges
(`MeshBuilderBase.hpp:32-57`, without index buffer and transformation; those are in `MeshBuilder.lean`). -/
def buildMesh [Zero T] [Add T] [Sub T] [Mul T] [Neg T] [HasSqrt T] [LT T] [DecidableLT T] [BEq (Vec T 3)]
    (dbg : Bool) (M w : Nat) (ts : List (Vec T 3 × Vec T 3 × Vec T 3)) : Res (HalfedgeMesh (Vec T 3)) := do
  let m ← addTriangles dbg M ts
  setOppositeHalfedges dbg w m

/-! ### Normals -/

/-- `calc_facet_normal(facet)` (`CalcFacetNormal.hpp:11-27`). -/
def calcFacetNormal [Zero T] [Add T] [Sub T] [Mul T] [Div T] [HasSqrt T] (m : HalfedgeMesh (Vec T 3)) (f : Facet) :
    Res (Vec T 3) := do
  let he ← m.facetHalfedge f
  let next ← m.heNext he
  let v0 ← m.heVector he
  let v1 ← m.heVector next
  let v2 ← m.heNextVector next
  .ok (normalize (cross (vsub v1 v0) (vsub v2 v1)))
end
end Verif
