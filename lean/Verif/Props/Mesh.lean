import Verif.Proofs.Mesh

set_option linter.unusedSectionVars false

/-
C42–C46, C49, C50: the half-edge mesh built from any list of triangles.
-/
namespace Verif
open Spec

section
variable {V : Type}

/-! ### C42 -/

/-- **C42** Adding any triangles (degenerate ones included, any point equality) to an empty mesh raises no fault in a
debug or release build as long as the half-edge indices fit, and gives one facet and three half-edges per triangle;
every stored index is valid and in range. -/
theorem C42_add_triangles [BEq V] (dbg : Bool) (M : Nat) (ts : List (V × V × V)) (hM : 3 * ts.length < M) :
    ∃ m, addTriangles dbg M ts = .ok m ∧
      m.facets.length = ts.length ∧ m.halfedges.length = 3 * ts.length ∧ m.vertices.length = m.points.length ∧
      (∀ h ∈ m.halfedges, h.vertex < m.vertices.length ∧ h.facet < m.facets.length ∧
        h.next < m.halfedges.length ∧ h.prev < m.halfedges.length) ∧
      (∀ f ∈ m.facets, f.he < m.halfedges.length) ∧
      (∀ v ∈ m.vertices, v.idx < m.points.length ∧ ∀ k ∈ v.hes, k < m.halfedges.length) := by
  refine ⟨_, addTriangles_eq dbg M ts hM, ?_⟩
  have hw := weld_welded (corners ts)
  have hl : (weld (corners ts)).2.length = 3 * ts.length := by rw [weld_length, corners_length]
  generalize weld (corners ts) = s at hw hl ⊢
  rw [meshOf_eq]
  refine ⟨by simp [meshOfO, facetsOf, hl], by simp [meshOfO, hl], by simp [meshOfO, vertsOf], ?_, ?_, ?_⟩
  · intro h hh
    simp only [meshOfO, List.mem_map, List.mem_range] at hh
    obtain ⟨k, hk, rfl⟩ := hh
    refine ⟨by simpa [meshOfO, vertsOf, heOfO] using getD_lt s.1 s.2 hw hk, ?_, ?_, ?_⟩
    · simp [meshOfO, facetsOf, heOfO]; omega
    · simp only [meshOfO, List.length_map, List.length_range, heOfO]
      rw [hl] at hk ⊢; exact nextCorner_lt hk
    · simp only [meshOfO, List.length_map, List.length_range, heOfO]
      rw [hl] at hk ⊢; exact prevCorner_lt hk
  · intro f hf
    simp only [meshOfO, facetsOf, List.mem_map, List.mem_range] at hf
    obtain ⟨k, hk, rfl⟩ := hf
    simp [meshOfO]; omega
  · intro v hv
    simp only [meshOfO, vertsOf, List.mem_map, List.mem_range] at hv
    obtain ⟨i, hi, rfl⟩ := hv
    refine ⟨hi, fun k hk => ?_⟩
    simp only [meshOfO, List.length_map, List.length_range]
    exact (List.getElem?_eq_some_iff.1 ((mem_hesOf _ _ _).1 hk)).1

theorem geoAssert_debug_ok {β : Type} {c : Bool} {f : PUnit → Res β} {b : β}
    (h : (geoAssert true c >>= f) = .ok b) : c = true ∧ f ⟨⟩ = .ok b := by
  rw [geoAssert_bind] at h
  cases c
  · simp at h
  · exact ⟨rfl, by simpa using h⟩

theorem bind_ok {α β : Type} {r : Res α} {f : α → Res β} {b : β} (h : (r >>= f) = .ok b) :
    ∃ a, r = .ok a ∧ f a = .ok b := by
  cases r with
  | error e => simp [error_bind] at h
  | ok a => exact ⟨a, rfl, h⟩

theorem createOrFind_halfedges [BEq V] {dbg : Bool} {M : Nat} {m : HalfedgeMesh V} {p : V} {r : HalfedgeMesh V × Nat}
    (h : createOrFindVertex dbg M m p = .ok r) : r.1.halfedges = m.halfedges := by
  unfold createOrFindVertex at h
  obtain ⟨found, _, h⟩ := bind_ok h
  cases found with
  | some i =>
    obtain ⟨_, _, h⟩ := bind_ok h
    simp only [Except.ok.injEq] at h; rw [← h]
  | none =>
    obtain ⟨_, _, h⟩ := bind_ok h
    simp only [Except.ok.injEq] at h; rw [← h]

theorem addCorner_debug_ok {M : Nat} {s r : HalfedgeMesh V × Nat} {first : Bool} {v : Nat}
    (h : addCorner true M s first v = .ok r) :
    s.1.halfedges.length % M ≠ M - 1 ∧ r.1.halfedges.length = s.1.halfedges.length + 1 := by
  unfold addCorner at h
  dsimp only at h
  obtain ⟨h1, h⟩ := geoAssert_debug_ok h
  obtain ⟨_, h⟩ := geoAssert_debug_ok h
  obtain ⟨_, h⟩ := geoAssert_debug_ok h
  obtain ⟨_, h⟩ := geoAssert_debug_ok h
  obtain ⟨_, h⟩ := geoAssert_debug_ok h
  obtain ⟨_, _, h⟩ := bind_ok h
  simp only [Except.ok.injEq] at h
  subst h
  exact ⟨by simpa [handleValid, invalidHandle, toIdx] using h1, by simp⟩

/-- **C42** The capacity bound is exact: a debug build accepts a list of triangles exactly when three half-edges per
triangle fit below the reserved index. -/
theorem C42_capacity_exact [BEq V] (M : Nat) (h0 : 0 < M) (ts : List (V × V × V)) :
    (∃ m, addTriangles true M ts = .ok m) ↔ 3 * ts.length < M := by
  constructor
  · intro ⟨m, hm⟩
    by_contra hM
    -- the first triangle that does not fit
    have hk : ts.take ((M - 1) / 3) ++ ts.drop ((M - 1) / 3) = ts := List.take_append_drop _ _
    have hlt : (M - 1) / 3 < ts.length := by omega
    rw [List.drop_eq_getElem_cons hlt] at hk
    unfold addTriangles at hm
    rw [← hk, List.foldlM_append] at hm
    have hlen : (ts.take ((M - 1) / 3)).length = (M - 1) / 3 := by simp; omega
    have hpre := addTriangles_eq true M (ts.take ((M - 1) / 3)) (by rw [hlen]; omega)
    unfold addTriangles at hpre
    rw [hpre, ok_bind, List.foldlM_cons] at hm
    obtain ⟨m1, hm1, _⟩ := bind_ok hm
    have hN : (meshOf M (weld (corners (ts.take ((M - 1) / 3)))).1
        (weld (corners (ts.take ((M - 1) / 3)))).2).halfedges.length = 3 * ((M - 1) / 3) := by
      simp only [meshOf, hesListOf, List.length_map, List.length_range]
      rw [weld_length, corners_length, hlen]
    generalize meshOf M (weld (corners (ts.take ((M - 1) / 3)))).1
        (weld (corners (ts.take ((M - 1) / 3)))).2 = m0 at hm1 hN
    unfold addTriangle at hm1
    obtain ⟨s0, e0, hm1⟩ := bind_ok hm1
    obtain ⟨s1, e1, hm1⟩ := bind_ok hm1
    obtain ⟨s2, e2, hm1⟩ := bind_ok hm1
    obtain ⟨_, hm1⟩ := geoAssert_debug_ok hm1
    obtain ⟨c0, f0, hm1⟩ := bind_ok hm1
    obtain ⟨c1, f1, hm1⟩ := bind_ok hm1
    obtain ⟨c2, f2, hm1⟩ := bind_ok hm1
    have g0 := createOrFind_halfedges e0
    have g1 := createOrFind_halfedges e1
    have g2 := createOrFind_halfedges e2
    have k0 := addCorner_debug_ok f0
    have k1 := addCorner_debug_ok f1
    have k2 := addCorner_debug_ok f2
    dsimp only at k0
    rw [g2, g1, g0, hN] at k0
    have r0 := k0.1
    rw [Nat.mod_eq_of_lt (by omega)] at r0
    have r1 := k1.1
    rw [k0.2, Nat.mod_eq_of_lt (by omega)] at r1
    have r2 := k2.1
    rw [k1.2, k0.2, Nat.mod_eq_of_lt (by omega)] at r2
    omega
  · intro hM
    exact ⟨_, addTriangles_eq true M ts hM⟩

/-! ### C43 -/

/-- **C43** With exact point equality the mesh has one vertex per distinct corner point, in order of first appearance,
vertex `i` refers to point `i`, and half-edge `k` starts at corner point `k`. -/
theorem C43_vertices [BEq V] [LawfulBEq V] (dbg : Bool) (M : Nat) (ts : List (V × V × V)) (hM : 3 * ts.length < M)
    (m : HalfedgeMesh V) (hb : BuiltFrom dbg M ts m) :
    m.points = (corners ts).eraseDups ∧ m.points.Nodup ∧
    m.vertices.map MeshVertex.idx = List.range m.points.length ∧
    ∀ k (hk : k < (corners ts).length), ∃ h, vecGet m.halfedges k = .ok h ∧ h.idx = k ∧
      m.heVector h = .ok (corners ts)[k] := by
  obtain ⟨o, rfl⟩ := hb.eq hM
  refine ⟨weld_fst _, by rw [show (meshOfO o (weld (corners ts)).1 (weld (corners ts)).2).points = _ from weld_fst _];
                         exact nodup_eraseDups _, ?_, ?_⟩
  · simp [meshOfO, vertsOf, Function.comp_def]
  · intro k hk
    have hk' : k < (weld (corners ts)).2.length := by rw [weld_length]; exact hk
    refine ⟨_, meshOfO_he _ _ _ hk', rfl, ?_⟩
    rw [meshOfO_heVector _ _ _ (weld_welded _) hk']
    exact vecGet_of_getElem? (weld_get _ _ hk)

/-! ### C44 -/

/-- **C44** Next and previous are total, inverse to each other, stay in the facet, and next has period three (and not
one). -/
theorem C44_next_prev [BEq V] (dbg : Bool) (M : Nat) (ts : List (V × V × V)) (hM : 3 * ts.length < M)
    (m : HalfedgeMesh V) (hb : BuiltFrom dbg M ts m) :
    ∀ h ∈ m.halfedges, ∃ n p, m.heNext h = .ok n ∧ m.hePrev h = .ok p ∧ m.hePrev n = .ok h ∧ m.heNext p = .ok h ∧
      m.heNext n = .ok p ∧ n.facet = h.facet ∧ p.facet = h.facet ∧ n.idx ≠ h.idx := by
  obtain ⟨o, rfl⟩ := hb.eq hM
  have hl : (weld (corners ts)).2.length = 3 * ts.length := by rw [weld_length, corners_length]
  generalize (weld (corners ts)).1 = pts at *
  generalize (weld (corners ts)).2 = as at *
  intro h hh
  simp only [meshOfO, List.mem_map, List.mem_range] at hh
  obtain ⟨k, hk, rfl⟩ := hh
  have hn : nextCorner k < as.length := by rw [hl] at hk ⊢; exact nextCorner_lt hk
  have hp : prevCorner k < as.length := by rw [hl] at hk ⊢; exact prevCorner_lt hk
  refine ⟨heOfO o as (nextCorner k), heOfO o as (prevCorner k), meshOfO_heNext _ _ _ hl hk, meshOfO_hePrev _ _ _ hl hk,
    ?_, ?_, ?_, next_div k, prev_div k, ?_⟩
  · rw [meshOfO_hePrev _ _ _ hl hn, prev_next]
  · rw [meshOfO_heNext _ _ _ hl hp, next_prev]
  · rw [meshOfO_heNext _ _ _ hl hn]
    congr 2
    unfold nextCorner prevCorner; omega
  · simp only [heOfO, nextCorner]; omega

/-! ### C45 -/

theorem calcHalfedges_meshOfO (o : Nat → Nat) (pts : List V) (as : List Nat) (n : Nat) (hn : as.length = 3 * n)
    (i : Nat) (hi : i < n) :
    calcHalfedges (meshOfO o pts as) ⟨3 * i⟩ = .ok [heOfO o as (3 * i), heOfO o as (3 * i + 1), heOfO o as (3 * i + 2)] := by
  have h0 : 3 * i < as.length := by omega
  have h1 : 3 * i + 1 < as.length := by omega
  have h2 : 3 * i + 2 < as.length := by omega
  have n0 : nextCorner (3 * i) = 3 * i + 1 := by unfold nextCorner; omega
  have n1 : nextCorner (3 * i + 1) = 3 * i + 2 := by unfold nextCorner; omega
  have n2 : nextCorner (3 * i + 2) = 3 * i := by unfold nextCorner; omega
  have hf : (meshOfO o pts as).facetHalfedge ⟨3 * i⟩ = .ok (heOfO o as (3 * i)) := meshOfO_he o pts as h0
  have hlen : (meshOfO o pts as).halfedges.length = as.length := by simp [meshOfO]
  unfold calcHalfedges
  rw [hf, ok_bind, meshOfO_heNext _ _ _ hn h0, ok_bind, n0, hlen]
  obtain ⟨q, hq⟩ : ∃ q, as.length = q + 3 := ⟨as.length - 3, by omega⟩
  rw [hq]
  unfold calcHalfedgesLoop
  rw [hf, ok_bind, meshOfO_heNext _ _ _ hn h1, ok_bind, n1, if_pos (by simp [heOfO])]
  unfold calcHalfedgesLoop
  rw [hf, ok_bind, meshOfO_heNext _ _ _ hn h2, ok_bind, n2, if_neg (by simp [heOfO])]
  rfl

/-- **C45** The loop of `calc_halfedges` terminates for every facet and lists exactly its three half-edges, starting
with the facet's own. -/
theorem C45_facet_loop [BEq V] (dbg : Bool) (M : Nat) (ts : List (V × V × V)) (hM : 3 * ts.length < M)
    (m : HalfedgeMesh V) (hb : BuiltFrom dbg M ts m) :
    ∀ i < ts.length, ∃ f hes, vecGet m.facets i = .ok f ∧ calcHalfedges m f = .ok hes ∧
      hes.map Halfedge.idx = [3 * i, 3 * i + 1, 3 * i + 2] ∧
      ∀ h, h ∈ hes ↔ h ∈ m.halfedges ∧ h.facet = i := by
  obtain ⟨o, rfl⟩ := hb.eq hM
  have hl : (weld (corners ts)).2.length = 3 * ts.length := by rw [weld_length, corners_length]
  intro i hi
  refine ⟨_, _, meshOfO_facet _ _ _ (by omega), calcHalfedges_meshOfO _ _ _ _ hl i hi, rfl, ?_⟩
  intro h
  simp only [meshOfO, List.mem_map, List.mem_range, List.mem_cons, List.not_mem_nil, or_false]
  constructor
  · rintro (rfl | rfl | rfl)
    · exact ⟨⟨_, by omega, rfl⟩, by simp [heOfO]⟩
    · exact ⟨⟨_, by omega, rfl⟩, by simp [heOfO]; omega⟩
    · exact ⟨⟨_, by omega, rfl⟩, by simp [heOfO]; omega⟩
  · rintro ⟨⟨k, hk, rfl⟩, hf⟩
    simp only [heOfO] at hf
    rcases (show k = 3 * i ∨ k = 3 * i + 1 ∨ k = 3 * i + 2 by omega) with rfl | rfl | rfl <;> simp

theorem calcTriangleIndices_meshOfO (MU : Nat) (o : Nat → Nat) (pts : List V) (as : List Nat) (n : Nat)
    (hn : as.length = 3 * n) (hw : Welded pts as) (hU : pts.length ≤ MU) :
    calcTriangleIndices MU (meshOfO o pts as) = .ok as := by
  unfold calcTriangleIndices
  have key : ∀ j ≤ n, ((List.range j).map fun f => (⟨3 * f⟩ : Facet)).foldlM (fun result f => do
      let hes ← calcHalfedges (meshOfO o pts as) f
      .ok (result ++ hes.map fun h => h.vertex % MU)) [] = (.ok (as.take (3 * j)) : Res (List Nat)) := by
    intro j hj
    induction j with
    | zero => rfl
    | succ j ih =>
      rw [List.range_succ, List.map_append, List.foldlM_append, ih (by omega), ok_bind]
      simp only [List.map_cons, List.map_nil, List.foldlM_cons, List.foldlM_nil]
      rw [calcHalfedges_meshOfO _ _ _ _ hn j (by omega), ok_bind]
      have hg : ∀ k, k < as.length → (heOfO o as k).vertex % MU = as.getD k 0 := by
        intro k hk
        exact Nat.mod_eq_of_lt (lt_of_lt_of_le (getD_lt pts as hw hk) hU)
      simp only [List.map_cons, List.map_nil, hg (3 * j) (by omega), hg (3 * j + 1) (by omega), hg (3 * j + 2) (by omega)]
      rw [ok_bind, pure_eq_ok, show 3 * (j + 1) = 3 * j + 1 + 1 + 1 by omega]
      rw [List.take_add_one, List.take_add_one, List.take_add_one]
      rw [List.getD_eq_getElem?_getD, List.getD_eq_getElem?_getD, List.getD_eq_getElem?_getD,
        List.getElem?_eq_getElem (show 3 * j < as.length by omega), List.getElem?_eq_getElem (show 3 * j + 1 < as.length by omega),
        List.getElem?_eq_getElem (show 3 * j + 1 + 1 < as.length by omega)]
      simp only [Option.toList_some, Option.getD_some, List.append_assoc, List.cons_append, List.nil_append]
  have := key n le_rfl
  rw [List.take_of_length_le (by omega)] at this
  rw [show (meshOfO o pts as).facets = (List.range n).map fun f => (⟨3 * f⟩ : Facet) by
    simp [meshOfO, facetsOf, show as.length / 3 = n by omega]]
  exact this

/-- **C45** `calc_triangle_indices` gives three indices per triangle which, looked up in the mesh points, are the corner
points of the added triangles in order.  The result type must be able to hold the point numbers. -/
theorem C45_triangle_indices [BEq V] [LawfulBEq V] (dbg : Bool) (M MU : Nat) (ts : List (V × V × V))
    (hM : 3 * ts.length < M) (m : HalfedgeMesh V) (hb : BuiltFrom dbg M ts m) (hU : m.points.length ≤ MU) :
    ∃ l, calcTriangleIndices MU m = .ok l ∧ l.map (fun i => m.points[i]?) = (corners ts).map some := by
  obtain ⟨o, rfl⟩ := hb.eq hM
  have hl : (weld (corners ts)).2.length = 3 * ts.length := by rw [weld_length, corners_length]
  refine ⟨_, calcTriangleIndices_meshOfO MU o _ _ _ hl (weld_welded _) hU, ?_⟩
  apply List.ext_getElem?
  intro k
  by_cases hk : k < (corners ts).length
  · have hk' : k < (weld (corners ts)).2.length := by rw [weld_length]; exact hk
    have := weld_get (corners ts) k hk
    rw [List.getD_eq_getElem?_getD, List.getElem?_eq_getElem hk', Option.getD_some] at this
    simp only [List.getElem?_map, List.getElem?_eq_getElem hk', List.getElem?_eq_getElem hk, Option.map_some,
      Option.some.injEq]
    exact this
  · rw [List.getElem?_eq_none (by simp [weld_length]; omega), List.getElem?_eq_none (by simp; omega)]

/-! ### C46 -/

theorem weld_getElem?_iff [BEq V] [LawfulBEq V] (cs : List V) (i k : Nat) (hi : i < (weld cs).1.length) :
    (weld cs).2[k]? = some i ↔ cs[k]? = (weld cs).1[i]? := by
  have hl := weld_length cs
  by_cases hk : k < cs.length
  · have hg := weld_get cs k hk
    rw [List.getD_eq_getElem?_getD, List.getElem?_eq_getElem (show k < (weld cs).2.length by omega),
      Option.getD_some] at hg
    rw [List.getElem?_eq_getElem (show k < (weld cs).2.length by omega), List.getElem?_eq_getElem hk, ← hg]
    constructor
    · intro h; rw [Option.some.injEq] at h; rw [h]
    · intro h
      have hnd : (weld cs).1.Nodup := by rw [weld_fst]; exact nodup_eraseDups _
      have hlt := (List.getElem?_eq_some_iff.1 hg).1
      rw [List.getElem?_inj hlt hnd] at h
      rw [h]
  · rw [List.getElem?_eq_none (by omega), List.getElem?_eq_none (by omega), List.getElem?_eq_getElem hi]
    simp

/-- **C46** Every vertex stores exactly the half-edges that start at its point, each once and in increasing order, and
at least one. -/
theorem C46_vertex_halfedges [BEq V] [LawfulBEq V] (dbg : Bool) (M : Nat) (ts : List (V × V × V))
    (hM : 3 * ts.length < M) (m : HalfedgeMesh V) (hb : BuiltFrom dbg M ts m) :
    ∀ i < m.points.length, ∃ v, vecGet m.vertices i = .ok v ∧ v.hes.Pairwise (· < ·) ∧ v.hes ≠ [] ∧
      ∀ k, k ∈ v.hes ↔ (corners ts)[k]? = m.points[i]? := by
  obtain ⟨o, rfl⟩ := hb.eq hM
  intro i hi
  have hiff := fun k => weld_getElem?_iff (corners ts) i k hi
  have hmem : ∀ k, k ∈ hesOf (weld (corners ts)).2 i ↔ (corners ts)[k]? = (weld (corners ts)).1[i]? := fun k => by
    rw [mem_hesOf]; exact hiff k
  refine ⟨_, meshOfO_vert _ _ _ hi, hesOf_pairwise _ _, ?_, hmem⟩
  have hi' : i < (weld (corners ts)).1.length := hi
  have hc : (weld (corners ts)).1[i] ∈ corners ts := by
    have : (weld (corners ts)).1[i] ∈ (weld (corners ts)).1 := List.getElem_mem hi'
    generalize (weld (corners ts)).1[i] = p at this ⊢
    rwa [weld_fst, List.mem_eraseDups] at this
  obtain ⟨k, hk, he⟩ := List.mem_iff_getElem.1 hc
  have : k ∈ hesOf (weld (corners ts)).2 i := (hmem k).2 (by
    rw [List.getElem?_eq_getElem hk, List.getElem?_eq_getElem hi', he])
  exact List.ne_nil_of_mem this

/-! ### C50 -/

theorem vertexCalcHalfedges_meshOfO (o : Nat → Nat) (pts : List V) (as : List Nat) (i : Nat) (l : List Nat)
    (hl : ∀ k ∈ l, k < as.length) :
    vertexCalcHalfedges (meshOfO o pts as) ⟨i, l⟩ = .ok (l.map (heOfO o as)) := by
  unfold vertexCalcHalfedges
  induction l using List.reverseRecOn with
  | nil => rfl
  | append_singleton l k ih =>
    simp only [List.foldlM_append, List.foldlM_cons, List.foldlM_nil] at ih ⊢
    rw [ih (fun x hx => hl x (by simp [hx])), ok_bind, meshOfO_he _ _ _ (hl k (by simp)), ok_bind]
    simp [pure_eq_ok, ok_bind]

theorem calcVertexFacets_meshOfO (o : Nat → Nat) (pts : List V) (as : List Nat) (n : Nat) (hn : as.length = 3 * n)
    (i : Nat) (l : List Nat) (hl : ∀ k ∈ l, k < as.length) :
    calcVertexFacets (meshOfO o pts as) ⟨i, l⟩ = .ok (l.map fun k => ⟨3 * (k / 3)⟩) := by
  unfold calcVertexFacets
  rw [vertexCalcHalfedges_meshOfO o pts as i l hl, ok_bind]
  induction l using List.reverseRecOn with
  | nil => rfl
  | append_singleton l k ih =>
    simp only [List.map_append, List.foldlM_append, List.map_cons, List.map_nil, List.foldlM_cons, List.foldlM_nil] at ih ⊢
    rw [ih (fun x hx => hl x (by simp [hx])), ok_bind, meshOfO_heFacet _ _ _ hn (hl k (by simp)), ok_bind]
    simp [pure_eq_ok, ok_bind]

/-- **C50** `calc_vertex_facets` of vertex `i` lists the facet of triangle `j` exactly when the vertex's point is a
corner of triangle `j`, and nothing else; a triangle is listed as often as the point occurs among its corners. -/
theorem C50_vertex_facets [BEq V] [LawfulBEq V] (dbg : Bool) (M : Nat) (ts : List (V × V × V))
    (hM : 3 * ts.length < M) (m : HalfedgeMesh V) (hb : BuiltFrom dbg M ts m) :
    ∀ i (hi : i < m.points.length), ∃ v fs, vecGet m.vertices i = .ok v ∧ calcVertexFacets m v = .ok fs ∧
      (∀ f ∈ fs, f ∈ m.facets) ∧
      ∀ j (hj : j < ts.length), ∀ f, vecGet m.facets j = .ok f →
        fs.count f = [ts[j].1, ts[j].2.1, ts[j].2.2].count m.points[i] := by
  obtain ⟨o, rfl⟩ := hb.eq hM
  have hl : (weld (corners ts)).2.length = 3 * ts.length := by rw [weld_length, corners_length]
  intro i hi
  have hi' : i < (weld (corners ts)).1.length := hi
  have hlt : ∀ k ∈ hesOf (weld (corners ts)).2 i, k < (weld (corners ts)).2.length := fun k hk =>
    (List.getElem?_eq_some_iff.1 ((mem_hesOf _ _ _).1 hk)).1
  refine ⟨_, _, meshOfO_vert _ _ _ hi, calcVertexFacets_meshOfO _ _ _ _ hl i _ hlt, ?_, ?_⟩
  · intro f hf
    simp only [List.mem_map] at hf
    obtain ⟨k, hk, rfl⟩ := hf
    simp only [meshOfO, facetsOf, List.mem_map, List.mem_range]
    exact ⟨k / 3, by have := hlt k hk; omega, rfl⟩
  · intro j hj f hf
    rw [meshOfO_facet _ _ _ (by omega), Except.ok.injEq] at hf
    subst hf
    -- both sides count the corners 3j, 3j+1, 3j+2 that lie at the point
    have hcnt : ((hesOf (weld (corners ts)).2 i).map fun k => (⟨3 * (k / 3)⟩ : Facet)).count ⟨3 * j⟩
        = ([3 * j, 3 * j + 1, 3 * j + 2].filter fun k => (weld (corners ts)).2[k]? == some i).length := by
      rw [List.count, List.countP_map, List.countP_eq_length_filter]
      unfold hesOf
      rw [List.filter_filter]
      have hr : List.range (weld (corners ts)).2.length
          = List.range (3 * j) ++ ([3 * j, 3 * j + 1, 3 * j + 2] ++ List.range' (3 * j + 3) (3 * ts.length - (3 * j + 3))) := by
        rw [hl, List.range_eq_range', List.range_eq_range']
        have h1 : List.range' 0 (3 * ts.length) = List.range' 0 (3 * j) ++ List.range' (3 * j) (3 * ts.length - 3 * j) := by
          have := List.range'_append_1 (s := 0) (m := 3 * j) (n := 3 * ts.length - 3 * j)
          rw [show 0 + 3 * j = 3 * j by omega, show 3 * j + (3 * ts.length - 3 * j) = 3 * ts.length by omega] at this
          exact this.symm
        have h2 : List.range' (3 * j) (3 * ts.length - 3 * j)
            = [3 * j, 3 * j + 1, 3 * j + 2] ++ List.range' (3 * j + 3) (3 * ts.length - (3 * j + 3)) := by
          have := List.range'_append_1 (s := 3 * j) (m := 3) (n := 3 * ts.length - (3 * j + 3))
          rw [show 3 + (3 * ts.length - (3 * j + 3)) = 3 * ts.length - 3 * j by omega] at this
          rw [← this]
          rfl
        rw [h1, h2]
      rw [hr, List.filter_append, List.filter_append]
      have hA : (List.range (3 * j)).filter (fun a =>
          ((fun x => x == (⟨3 * j⟩ : Facet)) ∘ fun k => ⟨3 * (k / 3)⟩) a && (weld (corners ts)).2[a]? == some i) = [] := by
        rw [List.filter_eq_nil_iff]
        intro a ha
        have ha : a < 3 * j := by simpa using ha
        simp; omega
      have hB : (List.range' (3 * j + 3) (3 * ts.length - (3 * j + 3))).filter (fun a =>
          ((fun x => x == (⟨3 * j⟩ : Facet)) ∘ fun k => ⟨3 * (k / 3)⟩) a && (weld (corners ts)).2[a]? == some i) = [] := by
        rw [List.filter_eq_nil_iff]
        intro a ha
        have ha : 3 * j + 3 ≤ a := (List.mem_range'_1.1 ha).1
        simp; omega
      rw [hA, hB, List.nil_append, List.append_nil]
      congr 1
      apply List.filter_congr
      intro a ha
      simp only [List.mem_cons, List.not_mem_nil, or_false] at ha
      have : 3 * (a / 3) = 3 * j := by omega
      simp [this]
    rw [hcnt]
    have hc : ∀ d < 3, ∀ p, [ts[j].1, ts[j].2.1, ts[j].2.2][d]? = some p →
        (((weld (corners ts)).2[3 * j + d]? == some i) = (p == (weld (corners ts)).1[i])) := by
      intro d hd p hp
      have hcor : (corners ts)[3 * j + d]? = some p := by
        rw [← hp]
        clear hp hcnt
        have hsplit : ts = ts.take j ++ ts[j] :: ts.drop (j + 1) := by simp
        have : corners ts = corners (ts.take j) ++ ([ts[j].1, ts[j].2.1, ts[j].2.2] ++ corners (ts.drop (j + 1))) := by
          conv_lhs => rw [hsplit]
          rw [corners_append]; rfl
        have hcl : (corners (ts.take j)).length = 3 * j := by rw [corners_length]; simp; omega
        rw [this, List.getElem?_append_right (by omega), hcl, Nat.add_sub_cancel_left,
          List.getElem?_append_left (by simpa using hd)]
      have := weld_getElem?_iff (corners ts) i (3 * j + d) hi'
      rw [hcor, List.getElem?_eq_getElem hi', Option.some.injEq] at this
      rw [Bool.eq_iff_iff]
      simpa using this
    have c0 := hc 0 (by omega) _ rfl
    have c1 := hc 1 (by omega) _ rfl
    have c2 := hc 2 (by omega) _ rfl
    rw [Nat.add_zero] at c0
    simp only [List.filter_cons, List.filter_nil, c0, c1, c2, List.count_cons, List.count_nil]
    show _ = _
    simp only [meshOfO]
    split <;> split <;> split <;> rename_i h0 h1 h2 <;> simp [h0, h1, h2]
end

/-! ### Concrete cases: two triangles sharing the edge 10–30; the points are numbers -/
section Examples

def quad : List (Nat × Nat × Nat) := [(10, 20, 30), (10, 30, 40)]

/-- A mesh meeting the hypotheses of all theorems above exists. -/
theorem quad_built : ∃ m, BuiltFrom true 16 quad m ∧ m.facets.length = 2 ∧ m.points = [10, 20, 30, 40] := by
  obtain ⟨m, h, hf, _⟩ := C42_add_triangles true 16 quad (by decide)
  refine ⟨m, .of_add h, hf, ?_⟩
  rw [(C43_vertices true 16 quad (by decide) m (.of_add h)).1]
  decide +kernel

/-- C42: an index type of 7 values holds two triangles, one of 6 values does not. -/
example : (∃ m, addTriangles true 7 quad = .ok m) ∧ ¬ ∃ m, addTriangles true 6 quad = .ok m :=
  ⟨(C42_capacity_exact 7 (by decide) quad).2 (by decide), fun h => absurd ((C42_capacity_exact 6 (by decide) quad).1 h) (by decide)⟩

/-- C43, C44, C46: the half-edge 3 starts at the point 10 like the half-edge 0, and vertex 0 lists both. -/
example : ∃ m v h, BuiltFrom true 16 quad m ∧ vecGet m.vertices 0 = .ok v ∧ vecGet m.halfedges 3 = .ok h ∧
    m.heVector h = .ok 10 ∧ (∃ n, m.heNext h = .ok n) ∧ 0 ∈ v.hes ∧ 3 ∈ v.hes ∧ 1 ∉ v.hes := by
  obtain ⟨m, hb, _, hp⟩ := quad_built
  obtain ⟨v, hv, _, _, hm⟩ := C46_vertex_halfedges true 16 quad (by decide) m hb 0 (by rw [hp]; decide)
  obtain ⟨h, hh, _, hx⟩ := (C43_vertices true 16 quad (by decide) m hb).2.2.2 3 (by decide)
  have hmem : h ∈ m.halfedges := List.mem_of_getElem? (vecGet_eq_ok.1 hh)
  obtain ⟨n, _, hn, _⟩ := C44_next_prev true 16 quad (by decide) m hb h hmem
  refine ⟨m, v, h, hb, hv, hh, hx, ⟨n, hn⟩, (hm 0).2 ?_, (hm 3).2 ?_, fun hc => ?_⟩
  · rw [hp]; decide
  · rw [hp]; decide
  · have := (hm 1).1 hc
    rw [hp] at this
    exact absurd this (by decide)

/-- C45: facet loops and triangle indices. -/
example : ∃ m f hes l, BuiltFrom true 16 quad m ∧ vecGet m.facets 1 = .ok f ∧ calcHalfedges m f = .ok hes ∧
    hes.map Halfedge.idx = [3, 4, 5] ∧ calcTriangleIndices 8 m = .ok l ∧
    l.map (fun i => m.points[i]?) = [some 10, some 20, some 30, some 10, some 30, some 40] := by
  obtain ⟨m, hb, _, hp⟩ := quad_built
  obtain ⟨f, hes, h1, h2, h3, _⟩ := C45_facet_loop true 16 quad (by decide) m hb 1 (by decide)
  obtain ⟨l, h4, h5⟩ := C45_triangle_indices true 16 8 quad (by decide) m hb (by rw [hp]; decide)
  exact ⟨m, f, hes, l, hb, h1, h2, h3, h4, h5⟩

/-- C50: both facets are at vertex 0. -/
example : ∃ m v fs, BuiltFrom true 16 quad m ∧ vecGet m.vertices 0 = .ok v ∧ calcVertexFacets m v = .ok fs := by
  obtain ⟨m, hb, _, hp⟩ := quad_built
  obtain ⟨v, fs, h1, h2, _⟩ := C50_vertex_facets true 16 quad (by decide) m hb 0 (by rw [hp]; decide)
  exact ⟨m, v, fs, hb, h1, h2⟩
end Examples
end Verif
