import Verif.Proofs.MeshNormals

set_option linter.unusedSectionVars false

/-
C51, C52, C72: normals of a built mesh, flattening and moving its points.
-/
namespace Verif
open Spec Matrix

section
variable [BEq (Vec ℝ 3)] [LawfulBEq (Vec ℝ 3)]

/-- **C51** The normal computed for the facet of a non-degenerate triangle has length one, is perpendicular to all three
sides and follows the right-hand rule. -/
theorem C51_facet_normal (dbg : Bool) (M : Nat) (ts : List (Vec ℝ 3 × Vec ℝ 3 × Vec ℝ 3)) (hM : 3 * ts.length < M)
    (m : HalfedgeMesh (Vec ℝ 3)) (hb : BuiltFrom dbg M ts m) :
    ∀ j (hj : j < ts.length), NonDegenerate ts[j] →
      ∃ f n, vecGet m.facets j = .ok f ∧ calcFacetNormal m f = .ok n ∧ IsNormal ts[j] n := by
  obtain ⟨o, rfl⟩ := hb.eq hM
  have hl : (weld (corners ts)).2.length = 3 * ts.length := by rw [weld_length, corners_length]
  intro j hj hn
  exact ⟨_, _, meshOfO_facet _ _ _ (by omega), calcFacetNormal_built o ts j hj, (isNormal_iff hn _).2 rfl⟩

theorem calcVertexNormals_get (o : Nat → Nat) (ts : List (Vec ℝ 3 × Vec ℝ 3 × Vec ℝ 3))
    (hnd : ∀ t ∈ ts, NonDegenerate t) :
    ∃ ns, calcVertexNormals (meshOfO o (weld (corners ts)).1 (weld (corners ts)).2) = .ok ns ∧
      ns.length = (weld (corners ts)).1.length ∧
      ∀ i (hi : i < (weld (corners ts)).1.length), ∃ S : Finset (Vec ℝ 3),
        (∀ n, n ∈ S ↔ ∃ t ∈ ts, (weld (corners ts)).1[i] ∈ [t.1, t.2.1, t.2.2] ∧ IsNormal t n) ∧
        ns[i]? = some (normalize (∑ n ∈ S, n)) := by
  classical
  set mm := meshOfO o (weld (corners ts)).1 (weld (corners ts)).2 with hmm
  let g : MeshVertex → Vec ℝ 3 := fun v =>
    if h : v.idx < (weld (corners ts)).1.length
    then normalize (∑ n ∈ (calcVertexNormal_built o ts hnd v.idx h).choose, n) else 0
  have hg : ∀ v ∈ mm.vertices, calcVertexNormal mm v = .ok (g v) := by
    intro v hv
    simp only [hmm, meshOfO, vertsOf, List.mem_map, List.mem_range] at hv
    obtain ⟨i, hi, rfl⟩ := hv
    simp only [g]
    rw [dif_pos hi]
    exact (calcVertexNormal_built o ts hnd i hi).choose_spec.2
  refine ⟨mm.vertices.map g, ?_, ?_, ?_⟩
  · have := foldlM_push (calcVertexNormal mm) g mm.vertices [] hg
    rw [List.nil_append] at this
    exact this
  · simp [hmm, meshOfO, vertsOf]
  · intro i hi
    refine ⟨(calcVertexNormal_built o ts hnd i hi).choose, (calcVertexNormal_built o ts hnd i hi).choose_spec.1, ?_⟩
    simp only [hmm, meshOfO, vertsOf, List.getElem?_map, List.getElem?_range hi, Option.map_some, g]
    rw [dif_pos hi]

theorem isUnitAlong_normalize {s : Vec ℝ 3} (h : s ≠ 0) : IsUnitAlong s (normalize s) := by
  refine ⟨by rw [spec_norm_eq, length_normalize h], length s, length_pos h, ?_⟩
  rw [normalize_eq, smul_smul, mul_inv_cancel₀ (length_pos h).ne', one_smul]

/-- **C52** For non-degenerate triangles `calc_vertex_normals` gives one normal per vertex: the unit vector in the
direction of the sum of the pairwise different normals of the triangles at the vertex (if that sum is not zero; it is
zero only when the normals cancel out). -/
theorem C52_vertex_normals (dbg : Bool) (M : Nat) (ts : List (Vec ℝ 3 × Vec ℝ 3 × Vec ℝ 3)) (hM : 3 * ts.length < M)
    (m : HalfedgeMesh (Vec ℝ 3)) (hb : BuiltFrom dbg M ts m) (hnd : ∀ t ∈ ts, NonDegenerate t) :
    ∃ ns, calcVertexNormals m = .ok ns ∧ ns.length = m.points.length ∧
      ∀ i (hi : i < m.points.length), ∃ S : Finset (Vec ℝ 3),
        (∀ n, n ∈ S ↔ ∃ t ∈ ts, m.points[i] ∈ [t.1, t.2.1, t.2.2] ∧ IsNormal t n) ∧
        (∑ n ∈ S, n ≠ 0 → ∃ v, ns[i]? = some v ∧ IsUnitAlong (∑ n ∈ S, n) v) := by
  obtain ⟨o, rfl⟩ := hb.eq hM
  obtain ⟨ns, h1, h2, h3⟩ := calcVertexNormals_get o ts hnd
  refine ⟨ns, h1, h2, fun i hi => ?_⟩
  obtain ⟨S, hS, hv⟩ := h3 i hi
  exact ⟨S, hS, fun h0 => ⟨_, hv, isUnitAlong_normalize h0⟩⟩

/-- **C52** Splitting faces differently does not matter: if at a point the triangles of two meshes have the same normals,
the vertex normals there are the same. -/
theorem C52_split_independent (dbg dbg' : Bool) (M M' : Nat) (ts ts' : List (Vec ℝ 3 × Vec ℝ 3 × Vec ℝ 3))
    (hM : 3 * ts.length < M) (hM' : 3 * ts'.length < M') (m m' : HalfedgeMesh (Vec ℝ 3))
    (hb : BuiltFrom dbg M ts m) (hb' : BuiltFrom dbg' M' ts' m')
    (hnd : ∀ t ∈ ts, NonDegenerate t) (hnd' : ∀ t ∈ ts', NonDegenerate t)
    (i i' : Nat) (hi : i < m.points.length) (hi' : i' < m'.points.length)
    (hsame : ∀ n, (∃ t ∈ ts, m.points[i] ∈ [t.1, t.2.1, t.2.2] ∧ IsNormal t n) ↔
      ∃ t ∈ ts', m'.points[i'] ∈ [t.1, t.2.1, t.2.2] ∧ IsNormal t n) :
    ∃ ns ns' v, calcVertexNormals m = .ok ns ∧ calcVertexNormals m' = .ok ns' ∧ ns[i]? = some v ∧ ns'[i']? = some v := by
  obtain ⟨o, rfl⟩ := hb.eq hM
  obtain ⟨o', rfl⟩ := hb'.eq hM'
  obtain ⟨ns, h1, -, h3⟩ := calcVertexNormals_get o ts hnd
  obtain ⟨ns', h1', -, h3'⟩ := calcVertexNormals_get o' ts' hnd'
  obtain ⟨S, hS, hv⟩ := h3 i hi
  obtain ⟨S', hS', hv'⟩ := h3' i' hi'
  have : S = S' := by
    ext n
    rw [hS, hS']
    exact hsame n
  subst this
  exact ⟨ns, ns', _, h1, h1', hv, hv'⟩
end

/-! ### C72 -/

/-- **C72** `transform` translates every point and keeps their number and order. -/
theorem C72_transform {V : Type} [Add V] (pts : List V) (t : V) :
    (pointsTransform pts t).length = pts.length ∧
    ∀ i (hi : i < pts.length), (pointsTransform pts t)[i]? = some (pts[i] + t) := by
  refine ⟨by simp [pointsTransform], fun i hi => ?_⟩
  simp [pointsTransform, List.getElem?_eq_getElem hi]

/-- **C72** Flattening lists the three components of each point in order: component `c` of point `i` is at `3 * i + c`. -/
theorem C72_components {T U : Type} (cast : T → U) (pts : List (Vec T 3)) :
    (vectorsToComponents cast pts).length = 3 * pts.length ∧
    ∀ i (hi : i < pts.length) (c : Fin 3), (vectorsToComponents cast pts)[3 * i + c.val]? = some (cast (pts[i] c)) := by
  have h : ∀ acc, pts.foldl (fun result vector => result ++ [cast (vector 0)] ++ [cast (vector 1)] ++ [cast (vector 2)]) acc
      = acc ++ pts.flatMap fun v => [cast (v 0), cast (v 1), cast (v 2)] := by
    intro acc
    induction pts generalizing acc with
    | nil => simp
    | cons v vs ih => rw [List.foldl_cons, ih]; simp
  have h' : vectorsToComponents cast pts = pts.flatMap fun v => [cast (v 0), cast (v 1), cast (v 2)] := by
    unfold vectorsToComponents; rw [h]; simp
  rw [h']
  clear h h'
  constructor
  · induction pts with
    | nil => rfl
    | cons v vs ih => rw [List.flatMap_cons, List.length_append, ih]; simp; omega
  · induction pts with
    | nil => intro i hi; simp at hi
    | cons v vs ih =>
      intro i hi c
      cases i with
      | zero =>
        fin_cases c <;> rfl
      | succ i =>
        rw [List.flatMap_cons, List.getElem?_append_right (by simp; omega)]
        have := ih i (by simpa using hi) c
        simp only [List.length_cons, List.length_nil, List.getElem_cons_succ]
        rw [← this]
        congr 1
        omega

/-! ### Concrete cases -/
section Examples

theorem tetra_nonDegenerate : ∀ t ∈ tetra, NonDegenerate t := by
  intro t ht
  simp only [tetra, tetraIdx, mapTriangle, List.map_cons, List.map_nil, List.mem_cons, List.not_mem_nil, or_false] at ht
  rw [nonDegenerate_iff]
  rcases ht with rfl | rfl | rfl | rfl
  · exact fun h => absurd (congrFun h 2) (by simp [cross, vsub, tetraPt])
  · exact fun h => absurd (congrFun h 1) (by simp [cross, vsub, tetraPt])
  · exact fun h => absurd (congrFun h 0) (by simp [cross, vsub, tetraPt])
  · exact fun h => absurd (congrFun h 0) (by simp [cross, vsub, tetraPt])

attribute [local instance] Classical.propDecidable in
/-- The tetrahedron meets the hypotheses of C51 and C52; its first triangle (0, 2, 1) lies in the xy-plane and its
normal points down. -/
example : ∃ (m : HalfedgeMesh (Vec ℝ 3)), ∃ f n, ∃ ns : List (Vec ℝ 3), @BuiltFrom _ instBEqOfDecidableEq true (2 ^ 64) tetra m ∧
    vecGet m.facets 0 = .ok f ∧ calcFacetNormal m f = .ok n ∧ n 2 < 0 ∧ calcVertexNormals m = .ok ns ∧ ns.length = m.points.length := by
  have hM : 3 * tetra.length < 2 ^ 64 := by simp [tetra, tetraIdx]
  obtain ⟨m, -, hb⟩ := C48_build_succeeds true (2 ^ 64) 64 tetra hM
  obtain ⟨f, n, h1, h2, h3⟩ := C51_facet_normal true (2 ^ 64) tetra hM m hb 0 (by simp [tetra, tetraIdx])
    (tetra_nonDegenerate _ (List.getElem_mem _))
  obtain ⟨ns, h4, h5, -⟩ := C52_vertex_normals true (2 ^ 64) tetra hM m hb tetra_nonDegenerate
  refine ⟨m, f, n, ns, hb, h1, h2, ?_, h4, h5⟩
  have := h3.2.2.2.2
  rw [det_fin_three] at this
  simp [tetra, tetraIdx, mapTriangle, tetraPt] at this
  exact this

/-- The corners of the unit square. -/
def squarePt (i : Fin 4) : Vec ℝ 3 := ![if i = 1 ∨ i = 2 then 1 else 0, if i = 2 ∨ i = 3 then 1 else 0, 0]

/-- The two ways to split it. -/
def square1 : List (Vec ℝ 3 × Vec ℝ 3 × Vec ℝ 3) := [mapTriangle squarePt (0, 1, 2), mapTriangle squarePt (0, 2, 3)]
def square2 : List (Vec ℝ 3 × Vec ℝ 3 × Vec ℝ 3) := [mapTriangle squarePt (0, 1, 3), mapTriangle squarePt (1, 2, 3)]

theorem square_cross : ∀ t ∈ square1 ++ square2, cross (vsub t.2.1 t.1) (vsub t.2.2 t.2.1) = ![0, 0, 1] := by
  intro t ht
  simp only [square1, square2, mapTriangle, List.cons_append, List.nil_append, List.mem_cons, List.not_mem_nil, or_false] at ht
  rcases ht with rfl | rfl | rfl | rfl <;> funext i <;> fin_cases i <;> simp [cross, vsub, squarePt]

theorem square_nonDegenerate : ∀ t ∈ square1 ++ square2, NonDegenerate t := by
  intro t ht
  rw [nonDegenerate_iff, square_cross t ht]
  exact fun h => absurd (congrFun h 2) (by simp)

theorem square_normal (n : Vec ℝ 3) : ∀ t ∈ square1 ++ square2, (IsNormal t n ↔ n = normalize ![0, 0, 1]) := by
  intro t ht
  rw [isNormal_iff (square_nonDegenerate t ht), normalOf, square_cross t ht]

attribute [local instance] Classical.propDecidable in
/-- C52: at corner 0 the square has two triangles in the first splitting, one in the second; the normal is the same. -/
example : ∃ (m m' : HalfedgeMesh (Vec ℝ 3)), ∃ ns ns' : List (Vec ℝ 3), ∃ v : Vec ℝ 3,
    @BuiltFrom _ instBEqOfDecidableEq true 16 square1 m ∧ @BuiltFrom _ instBEqOfDecidableEq true 16 square2 m' ∧
    calcVertexNormals m = .ok ns ∧ calcVertexNormals m' = .ok ns' ∧ ns[0]? = some v ∧ ns'[0]? = some v := by
  obtain ⟨m, -, hb⟩ := C48_build_succeeds true 16 64 square1 (by simp [square1])
  obtain ⟨m', -, hb'⟩ := C48_build_succeeds true 16 64 square2 (by simp [square2])
  have hp := (C43_vertices true 16 square1 (by simp [square1]) m hb).1
  have hp' := (C43_vertices true 16 square2 (by simp [square2]) m' hb').1
  simp only [corners, square1, square2, mapTriangle, List.flatMap_cons, List.cons_append, List.eraseDups_cons] at hp hp'
  have h0 : 0 < m.points.length := by rw [hp]; simp
  have h0' : 0 < m'.points.length := by rw [hp']; simp
  have e0 : m.points[0] = squarePt 0 := by simp [hp]
  have e0' : m'.points[0] = squarePt 0 := by simp [hp']
  obtain ⟨ns, ns', v, h⟩ := C52_split_independent true true 16 16 square1 square2 (by simp [square1]) (by simp [square2]) m m' hb hb'
    (fun t ht => square_nonDegenerate t (List.mem_append_left _ ht))
    (fun t ht => square_nonDegenerate t (List.mem_append_right _ ht)) 0 0 h0 h0' (by
      intro n
      rw [e0, e0']
      constructor
      · rintro ⟨t, ht, -, hn⟩
        refine ⟨_, List.mem_cons_self, by simp [mapTriangle], ?_⟩
        rw [square_normal n _ (List.mem_append_right _ (List.mem_cons_self))]
        exact (square_normal n t (List.mem_append_left _ ht)).1 hn
      · rintro ⟨t, ht, -, hn⟩
        refine ⟨_, List.mem_cons_self, by simp [mapTriangle], ?_⟩
        rw [square_normal n _ (List.mem_append_left _ (List.mem_cons_self))]
        exact (square_normal n t (List.mem_append_right _ ht)).1 hn)
  exact ⟨m, m', ns, ns', v, hb, hb', h⟩

/-- C72 on numbers. -/
example : pointsTransform [(1 : Int), 2, 3] 10 = [11, 12, 13] := by decide
example : vectorsToComponents (fun x : Nat => 2 * x) [fun i => i.val + 1, fun i => 10 * i.val] = [2, 4, 6, 0, 20, 40] := by decide
/-- C72 on two points. -/
example : (pointsTransform [(![1, 2] : Vec ℤ 2), ![3, 4]] ![10, 20])[1]? = some ![13, 24] := by
  rw [(C72_transform _ _).2 1 (by simp)]; simp
example : (vectorsToComponents (fun x : ℤ => (x : ℚ)) [(![1, 2, 3] : Vec ℤ 3), ![4, 5, 6]])[4]? = some 5 := by
  have := (C72_components (fun x : ℤ => (x : ℚ)) [(![1, 2, 3] : Vec ℤ 3), ![4, 5, 6]]).2 1 (by simp) 1
  simpa using this
end Examples
end Verif
