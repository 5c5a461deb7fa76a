import Verif.Model.Mesh

/-
Model of the comparison of mesh elements, of `HalfedgeMesh::contains`, and of moving a mesh.  Here the pointer `m_mesh`
of the elements (dropped in `Mesh.lean`) matters; a pointer is the address of a mesh object, a natural number.
-/
namespace Verif

/-! ### Element comparison -/

/-- A `Vertex` with its `m_mesh` (`Vertex.hpp:126-128`). -/
structure VertexRef where
  mesh : Nat
  v : MeshVertex

/-- A `Halfedge` with its `m_mesh` (`Halfedge.hpp:113-119`). -/
structure HalfedgeRef where
  mesh : Nat
  h : Halfedge

/-- A `Facet` with its `m_mesh` (`Facet.hpp:61-62`). -/
structure FacetRef where
  mesh : Nat
  f : Facet

/-- The loop of `Vertex::is_equal_impl` (`Vertex.hpp:115-121`) from position `i` on; the last argument is the rest of
the left-hand indices. -/
def heIndicesEqual (rhs : List Nat) : Nat → List Nat → Res Bool
  | _, [] => .ok true
  | i, h :: hs => do
    let r ← vecGet rhs i
    if h != r then .ok false else heIndicesEqual rhs (i + 1) hs

/-- `Vertex::operator==` (`Vertex.hpp:71,103-124`). -/
def vertexEqual (a b : VertexRef) : Res Bool :=
  if a.mesh != b.mesh then .ok false
  else if a.v.idx != b.v.idx then .ok false
  else heIndicesEqual b.v.hes 0 a.v.hes

/-- `Halfedge::operator==` (`Halfedge.hpp:71`). -/
def halfedgeEqual (a b : HalfedgeRef) : Bool := a.h.idx == b.h.idx

/-- `Facet::operator==` (`Facet.hpp:48`). -/
def facetEqual (a b : FacetRef) : Bool := a.f.he == b.f.he && a.mesh == b.mesh

/-- The loop of `HalfedgeMesh::contains(vertex)` (`HalfedgeMesh.hpp:98-104`); `own` is the `m_mesh` of the vertices. -/
def containsVertex (own : Nat) (x : VertexRef) : List MeshVertex → Res Bool
  | [] => .ok false
  | v :: vs => do
    let b ← vertexEqual x ⟨own, v⟩
    if b then .ok true else containsVertex own x vs

/-- `HalfedgeMesh::contains(halfedge)` (`HalfedgeMesh.hpp:106-112`). -/
def containsHalfedge {V : Type} (own : Nat) (m : HalfedgeMesh V) (x : HalfedgeRef) : Bool :=
  m.halfedges.any fun h => halfedgeEqual x ⟨own, h⟩

/-- `HalfedgeMesh::contains(facet)` (`HalfedgeMesh.hpp:114-120`). -/
def containsFacet {V : Type} (own : Nat) (m : HalfedgeMesh V) (x : FacetRef) : Bool :=
  m.facets.any fun f => facetEqual x ⟨own, f⟩

/-! ### Moving a mesh -/

/-- A mesh object in memory: its four vectors and the `m_mesh` pointer of its elements.
Simplification: one pointer for all elements; they are all created with the address of the mesh the adder works on
(`MeshTriangleAdder.hpp:66-75,131`) and are always moved together. -/
structure MeshObj (V : Type) where
  own : Nat
  mesh : HalfedgeMesh V

/-- The mesh objects that exist. -/
abbrev MeshHeap (V : Type) := Nat → Option (MeshObj V)

section
variable {V : Type}

/-- `HalfedgeMesh(HalfedgeMesh&&)` and `operator=(HalfedgeMesh&&)`, both defaulted (`HalfedgeMesh.hpp:40-41`), for
different objects: the vectors are moved one by one (and are empty afterwards in the source), the elements in them are
not touched. -/
def moveMesh (heap : MeshHeap V) (src dst : Nat) : Res (MeshHeap V) :=
  match heap src with
  | none => .error .dangling
  | some o => .ok fun a =>
      if a = dst then some o else if a = src then some ⟨o.own, HalfedgeMesh.empty⟩ else heap a

/-- The destructor: the object is gone. -/
def destroyMesh (heap : MeshHeap V) (a : Nat) : MeshHeap V := fun b => if b = a then none else heap b

/-- Any navigation `q` starting at an element of the mesh object at address `a`: elements find the mesh through their
`m_mesh` pointer (`Halfedge.hpp:45-63`, `Vertex.hpp:44,54-62`, `Facet.hpp:43-44`). -/
def navigate {α : Type} (heap : MeshHeap V) (a : Nat) (q : HalfedgeMesh V → Res α) : Res α :=
  match heap a with
  | none => .error .dangling
  | some o =>
    match heap o.own with
    | none => .error .dangling
    | some target => q target.mesh
end
end Verif
