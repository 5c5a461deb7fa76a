import Verif.Model.MeshMove
import Verif.Props.Mesh

set_option linter.unusedSectionVars false

/-
C53, C54: comparison and containment of mesh elements, moving a mesh.
-/
namespace Verif
open Spec

/-! ### C53 -/

theorem heIndicesEqual_eq (rhs : List Nat) (i : Nat) (hs : List Nat) :
    heIndicesEqual rhs i hs = if hs <+: rhs.drop i then .ok true
      else if rhs.drop i <+: hs then .error .outOfRange else .ok false := by
  induction hs generalizing i with
  | nil => simp [heIndicesEqual]
  | cons h hs ih =>
    unfold heIndicesEqual
    by_cases hi : i < rhs.length
    · rw [show vecGet rhs i = .ok rhs[i] by unfold vecGet; rw [List.getElem?_eq_getElem hi], ok_bind,
        List.drop_eq_getElem_cons hi]
      simp only [List.cons_prefix_cons, bne_iff_ne, ne_eq, ite_not]
      by_cases he : h = rhs[i]
      · rw [if_pos he, ih]
        simp [he]
      · rw [if_neg he, if_neg (fun hc => he hc.1), if_neg (fun hc => he hc.1.symm)]
    · rw [show vecGet rhs i = .error .outOfRange by unfold vecGet; rw [List.getElem?_eq_none (by omega)], error_bind,
        List.drop_of_length_le (by omega)]
      simp

/-- **C53** What `Vertex::operator==` computes: vertices of different meshes or with different index are different;
otherwise the left half-edge list must be a prefix of the right one, and if instead the right one is a proper prefix of
the left one, the right list is read out of range. -/
theorem C53_vertex_eq_exact (a b : VertexRef) :
    vertexEqual a b = if a.mesh ≠ b.mesh ∨ a.v.idx ≠ b.v.idx then .ok false
      else if a.v.hes <+: b.v.hes then .ok true
      else if b.v.hes <+: a.v.hes then .error .outOfRange else .ok false := by
  unfold vertexEqual
  rw [heIndicesEqual_eq, List.drop_zero]
  simp only [bne_iff_ne]
  by_cases h1 : a.mesh = b.mesh <;> by_cases h2 : a.v.idx = b.v.idx <;> simp [h1, h2]

/-- **C53** False in general: a vertex that was copied before a further triangle was added equals the current one, but
not the other way round (where in addition the copy is read out of range). -/
theorem C53_counterexample :
    ∃ a b : VertexRef, vertexEqual a b = .ok true ∧ vertexEqual b a = .error .outOfRange ∧
      (∃ m m' : HalfedgeMesh Nat, addTriangles true 16 [(10, 20, 30)] = .ok m ∧ a.v ∈ m.vertices ∧
        addTriangles true 16 quad = .ok m' ∧ b.v ∈ m'.vertices) := by
  have hM : 3 * [((10 : Nat), (20 : Nat), (30 : Nat))].length < 16 := by decide
  have hM' : 3 * quad.length < 16 := by decide
  refine ⟨⟨1, ⟨0, [0]⟩⟩, ⟨1, ⟨0, [0, 3]⟩⟩, rfl, rfl, _, _, addTriangles_eq true 16 _ hM, ?_, addTriangles_eq true 16 _ hM', ?_⟩
  · decide +kernel
  · decide +kernel

section
variable {V : Type}

/-- **C53** Among the vertices of one built mesh `==` is equality and reads nothing out of range.  (Missing for the full
claim: copies of vertices taken before the mesh was extended, see the counterexample.) -/
theorem C53_vertex_eq_partial [BEq V] (dbg : Bool) (M : Nat) (ts : List (V × V × V)) (hM : 3 * ts.length < M)
    (m : HalfedgeMesh V) (hb : BuiltFrom dbg M ts m) (own own' : Nat) :
    ∀ a ∈ m.vertices, ∀ b ∈ m.vertices,
      vertexEqual ⟨own, a⟩ ⟨own', b⟩ = .ok (decide (own = own' ∧ a = b)) := by
  obtain ⟨o, rfl⟩ := hb.eq hM
  intro a ha b hb
  simp only [meshOfO, vertsOf, List.mem_map, List.mem_range] at ha hb
  obtain ⟨i, hi, rfl⟩ := ha
  obtain ⟨j, hj, rfl⟩ := hb
  rw [C53_vertex_eq_exact]
  by_cases h1 : own = own' <;> by_cases h2 : i = j <;> simp [h1, h2]

theorem containsVertex_eq (own : Nat) (x : VertexRef) (l : List MeshVertex) (p : MeshVertex → Bool)
    (h : ∀ v ∈ l, vertexEqual x ⟨own, v⟩ = .ok (p v)) : containsVertex own x l = .ok (l.any p) := by
  induction l with
  | nil => rfl
  | cons v vs ih =>
    unfold containsVertex
    rw [h v (by simp), ok_bind, ih fun w hw => h w (by simp [hw])]
    cases hp : p v <;> simp [hp]

/-- **C53** `contains(vertex)` is true for the vertices of the mesh and false for vertices of any other mesh, without
reading out of range.  (Missing: vertices copied from this mesh before it was extended.) -/
theorem C53_contains_vertex_partial [BEq V] (dbg : Bool) (M : Nat) (ts : List (V × V × V)) (hM : 3 * ts.length < M)
    (m : HalfedgeMesh V) (hb : BuiltFrom dbg M ts m) (own : Nat) :
    (∀ v ∈ m.vertices, containsVertex own ⟨own, v⟩ m.vertices = .ok true) ∧
    ∀ x : VertexRef, x.mesh ≠ own → containsVertex own x m.vertices = .ok false := by
  constructor
  · intro v hv
    rw [containsVertex_eq own ⟨own, v⟩ m.vertices (fun w => decide (own = own ∧ v = w))
      (fun w hw => C53_vertex_eq_partial dbg M ts hM m hb own own v hv w hw)]
    simp only [Except.ok.injEq, List.any_eq_true]
    exact ⟨v, hv, by simp⟩
  · intro x hx
    rw [containsVertex_eq own x m.vertices (fun _ => false) (fun w _ => by rw [C53_vertex_eq_exact, if_pos (Or.inl hx)])]
    simp

/-- **C53** `contains(facet)` is true exactly for the facets of this mesh. -/
theorem C53_contains_facet (own : Nat) (m : HalfedgeMesh V) (x : FacetRef) :
    containsFacet own m x = true ↔ x.mesh = own ∧ x.f ∈ m.facets := by
  unfold containsFacet
  rw [List.any_eq_true]
  constructor
  · rintro ⟨f, hf, he⟩
    simp only [facetEqual, Bool.and_eq_true, beq_iff_eq] at he
    refine ⟨he.2, ?_⟩
    have : x.f = f := by cases hx : x.f; cases f; simp_all
    rwa [this]
  · rintro ⟨h1, h2⟩
    exact ⟨x.f, h2, by simp [facetEqual, h1]⟩

/-- **C53** `contains(halfedge)` only looks at the index: it is true exactly when the mesh has a half-edge of that
number, whatever mesh the half-edge belongs to. -/
theorem C53_contains_halfedge_partial [BEq V] (dbg : Bool) (M : Nat) (ts : List (V × V × V)) (hM : 3 * ts.length < M)
    (m : HalfedgeMesh V) (hb : BuiltFrom dbg M ts m) (own : Nat) (x : HalfedgeRef) :
    containsHalfedge own m x = true ↔ x.h.idx < m.halfedges.length := by
  obtain ⟨o, rfl⟩ := hb.eq hM
  simp only [containsHalfedge, halfedgeEqual, List.any_eq_true, beq_iff_eq, meshOfO, List.mem_map, List.mem_range,
    List.length_map, List.length_range]
  constructor
  · rintro ⟨h, ⟨k, hk, rfl⟩, he⟩
    rw [he]; exact hk
  · intro h
    exact ⟨_, ⟨_, h, rfl⟩, rfl⟩

/-- **C53** False for half-edges: every mesh with at least one triangle "contains" half-edges that point to another mesh
and start at a vertex it does not have. -/
theorem C53_counterexample_halfedge [BEq V] (dbg : Bool) (M : Nat) (ts : List (V × V × V)) (hM : 3 * ts.length < M)
    (m : HalfedgeMesh V) (hb : BuiltFrom dbg M ts m) (h0 : ts ≠ []) (own : Nat) :
    ∃ x : HalfedgeRef, x.mesh ≠ own ∧ x.h ∉ m.halfedges ∧ containsHalfedge own m x = true := by
  refine ⟨⟨own + 1, ⟨0, 0, m.vertices.length, 0, 0, 0⟩⟩, by simp, ?_, ?_⟩
  · intro hc
    obtain ⟨o, rfl⟩ := hb.eq hM
    have hw := weld_welded (corners ts)
    simp only [meshOfO, List.mem_map, List.mem_range] at hc
    obtain ⟨k, hk, he⟩ := hc
    have h1 := getD_lt _ _ hw hk
    have h2 := congrArg Halfedge.vertex he
    simp only [heOfO, vertsOf_length] at h2
    omega
  · rw [C53_contains_halfedge_partial dbg M ts hM m hb]
    obtain ⟨o, rfl⟩ := hb.eq hM
    have : 0 < ts.length := List.length_pos_iff.2 h0
    simp [meshOfO, weld_length, corners_length]
    omega

/-! ### C54 -/

/-- **C54** False: after moving a built mesh, navigating from any half-edge of the destination reads the empty vectors of
the source (out of range), and after destroying the source it uses a dangling pointer.  Before, it worked. -/
theorem C54_counterexample [BEq V] (dbg : Bool) (M : Nat) (ts : List (V × V × V)) (hM : 3 * ts.length < M)
    (m : HalfedgeMesh V) (hb : BuiltFrom dbg M ts m) (heap : MeshHeap V) (src dst : Nat) (hne : src ≠ dst)
    (hsrc : heap src = some ⟨src, m⟩) :
    ∃ heap', moveMesh heap src dst = .ok heap' ∧ ∀ h ∈ m.halfedges,
      (∃ n, navigate heap src (·.heNext h) = .ok n) ∧
      (∃ o, heap' dst = some o ∧ h ∈ o.mesh.halfedges) ∧
      navigate heap' dst (·.heNext h) = .error .outOfRange ∧
      navigate heap' dst (·.heVertex h) = .error .outOfRange ∧
      navigate (destroyMesh heap' src) dst (·.heNext h) = .error .dangling := by
  refine ⟨_, by unfold moveMesh; rw [hsrc], fun h hh => ?_⟩
  obtain ⟨n, p, hn, -⟩ := C44_next_prev dbg M ts hM m hb h hh
  refine ⟨⟨n, by simp [navigate, hsrc, hn]⟩, ⟨⟨src, m⟩, by simp, hh⟩, ?_, ?_, ?_⟩
  · simp [navigate, hne, HalfedgeMesh.empty, HalfedgeMesh.heNext, vecGet]
  · simp [navigate, hne, HalfedgeMesh.empty, HalfedgeMesh.heVertex, vecGet]
  · simp [navigate, destroyMesh, Ne.symm hne]

/-- **C54** What remains true: moving a mesh away and back to its original place restores every navigation.  (Missing:
navigation while the mesh is at the other place.) -/
theorem C54_round_trip_partial {α : Type} (heap : MeshHeap V) (src dst : Nat) (m : HalfedgeMesh V)
    (hsrc : heap src = some ⟨src, m⟩) (q : HalfedgeMesh V → Res α) :
    ∃ heap' heap'', moveMesh heap src dst = .ok heap' ∧ moveMesh heap' dst src = .ok heap'' ∧
      navigate heap'' src q = navigate heap src q := by
  refine ⟨_, _, by unfold moveMesh; rw [hsrc], by unfold moveMesh; simp; rfl, ?_⟩
  simp [navigate, hsrc]
end

section Examples
/-- The hypotheses of C53 are met, and a vertex of the mesh is found. -/
example : ∃ m v, BuiltFrom true 16 quad m ∧ v ∈ m.vertices ∧ containsVertex 7 ⟨7, v⟩ m.vertices = .ok true := by
  obtain ⟨m, hb, _, hp⟩ := quad_built
  obtain ⟨v, hv, _⟩ := C46_vertex_halfedges true 16 quad (by decide) m hb 0 (by rw [hp]; decide)
  have hv := List.mem_of_getElem? (vecGet_eq_ok.1 hv)
  exact ⟨m, v, hb, hv, (C53_contains_vertex_partial true 16 quad (by decide) m hb 7).1 v hv⟩

example : vertexEqual ⟨1, ⟨4, [0, 3]⟩⟩ ⟨1, ⟨4, [0, 5]⟩⟩ = .ok false := rfl

/-- A heap with a built mesh at address 1, moved to address 2. -/
example : ∃ m heap', BuiltFrom true 16 quad m ∧
    moveMesh (fun a => if a = 1 then some ⟨1, m⟩ else none) 1 2 = .ok heap' ∧
    ∀ h ∈ m.halfedges, navigate heap' 2 (·.heNext h) = .error .outOfRange := by
  obtain ⟨m, hb, _, hp⟩ := quad_built
  obtain ⟨heap', h1, h2⟩ := C54_counterexample true 16 quad (by decide) m hb (fun a => if a = 1 then some ⟨1, m⟩ else none)
    1 2 (by decide) rfl
  exact ⟨m, heap', hb, h1, fun h hh => (h2 h hh).2.2.1⟩
/-- C53, C54 on the same mesh: equality, membership of facets and half-edges, and a move there and back. -/
example : vertexEqual ⟨1, ⟨4, [0, 3]⟩⟩ ⟨1, ⟨4, [0]⟩⟩ = .error .outOfRange := by rw [C53_vertex_eq_exact]; simp
example : ∃ m, BuiltFrom true 16 quad m ∧ (∀ a ∈ m.vertices, ∀ b ∈ m.vertices, vertexEqual ⟨1, a⟩ ⟨1, b⟩ = .ok (decide (a = b))) ∧
    (∀ f ∈ m.facets, containsFacet 1 m ⟨1, f⟩ = true) ∧ containsHalfedge 1 m ⟨1, ⟨5, 0, 0, 0, 0, 0⟩⟩ = true ∧
    ∃ x : HalfedgeRef, x.h ∉ m.halfedges ∧ containsHalfedge 1 m x = true := by
  obtain ⟨m, hb, hf, hp⟩ := quad_built
  refine ⟨m, hb, fun a ha b hb' => ?_, fun f hf => (C53_contains_facet 1 m ⟨1, f⟩).2 ⟨rfl, hf⟩, ?_, ?_⟩
  · simpa using C53_vertex_eq_partial true 16 quad (by decide) m hb 1 1 a ha b hb'
  · rw [C53_contains_halfedge_partial true 16 quad (by decide) m hb]
    obtain ⟨h, hh, -⟩ := (C43_vertices true 16 quad (by decide) m hb).2.2.2 5 (by decide)
    exact (List.getElem?_eq_some_iff.1 (vecGet_eq_ok.1 hh)).1
  · obtain ⟨x, -, h1, h2⟩ := C53_counterexample_halfedge true 16 quad (by decide) m hb (by decide) 1
    exact ⟨x, h1, h2⟩
example (m : HalfedgeMesh Nat) (f : Facet) : ∃ heap' heap'', moveMesh (fun a => if a = 1 then some ⟨1, m⟩ else none) 1 2 = .ok heap' ∧
    moveMesh heap' 2 1 = .ok heap'' ∧ navigate heap'' 1 (calcHalfedges · f) = navigate (fun a => if a = 1 then some ⟨1, m⟩ else none) 1 (calcHalfedges · f) :=
  C54_round_trip_partial _ 1 2 m rfl _
end Examples
end Verif
