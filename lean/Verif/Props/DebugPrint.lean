import Verif.Model.DebugPrint
import Verif.Proofs.MeshNormals
import Verif.Props.Mesh

set_option linter.unusedSectionVars false

/-
C121: what `print` shows of the elements of a mesh.
-/
namespace Verif
open Spec Out

section
variable {T : Type}

/-- The numbers shown directly behind the label. -/
def shown (label : String) : List (Out T) → List Nat
  | [] => []
  | [_] => []
  | text s :: idx n :: l => if s = label then n :: shown label l else shown label l
  | _ :: y :: l => shown label (y :: l)

/-- The coordinates that are shown. -/
def coords (out : List (Out T)) : List T := out.filterMap fun | num x => some x | _ => none

/-- One line: ends with the only line break. -/
def IsLine (out : List (Out T)) : Prop := ∃ a, out = a ++ [endl] ∧ endl ∉ a

variable [BEq (Vec T 3)]

/-- **C121** Printing the vertices of any mesh built from triangles: no fault, one line each, with the index of the vertex and its point. -/
theorem C121_vertex (dbg : Bool) (M : Nat) (ts : List (Vec T 3 × Vec T 3 × Vec T 3)) (hM : 3 * ts.length < M) (m : HalfedgeMesh (Vec T 3))
    (hb : BuiltFrom dbg M ts m) (i : Nat) (hi : i < m.points.length) :
    ∃ v out, vecGet m.vertices i = .ok v ∧ printVertex m v = .ok out ∧ IsLine out ∧ shown "Vertex index: " out = [i] ∧
      coords out = [m.points[i] 0, m.points[i] 1, m.points[i] 2] := by
  obtain ⟨o, rfl⟩ := hb.eq hM
  have hi' : i < (weld (corners ts)).1.length := hi
  refine ⟨_, [text "Vertex index: ", idx i, text "; "] ++ printInlineVec (weld (corners ts)).1[i] ++ [endl], meshOfO_vert o _ _ hi', ?_, ?_, ?_, ?_⟩
  · unfold printVertex HalfedgeMesh.vector
    rw [show vecGet (meshOfO o (weld (corners ts)).1 (weld (corners ts)).2).points i = .ok (weld (corners ts)).1[i] from
      vecGet_of_getElem? (List.getElem?_eq_getElem hi'), ok_bind]
    rfl
  · exact ⟨_, rfl, by simp [printInlineVec]⟩
  · simp [printInlineVec, shown]
  · rfl

/-- The output of `print` for the half-edge `k`. -/
theorem printHalfedge_eq (o : Nat → Nat) (ts : List (Vec T 3 × Vec T 3 × Vec T 3)) (k : Nat) (hk : k < 3 * ts.length) :
    ∃ p, (weld (corners ts)).1[(weld (corners ts)).2.getD k 0]? = some p ∧
      printHalfedge (meshOfO o (weld (corners ts)).1 (weld (corners ts)).2) (heOfO o (weld (corners ts)).2 k) =
        .ok ([text "Halfedge index: ", idx (3 * (k / 3)), text "; Halfedge vertex index: ", idx ((weld (corners ts)).2.getD k 0), text "; Opposite halfedge index: ",
          idx (o k), text "; Vertex vector, "] ++ printInlineVec p ++ [text "; ", text "Facet index: ", idx (k / 3), endl]) := by
  have hl : (weld (corners ts)).2.length = 3 * ts.length := by rw [weld_length, corners_length]
  have hlt := getD_lt _ _ (weld_welded (corners ts)) (hl ▸ hk : k < (weld (corners ts)).2.length)
  refine ⟨_, List.getElem?_eq_getElem hlt, ?_⟩
  unfold printHalfedge
  rw [meshOfO_heFacet o _ _ hl (by omega), ok_bind, meshOfO_heVertex o _ _ (weld_welded _) (by omega), ok_bind,
    meshOfO_heVector o _ _ (weld_welded _) (by omega), vecGet_of_getElem? (List.getElem?_eq_getElem hlt), ok_bind]
  rfl

/-- **C121** Printing the half-edges of any mesh built from triangles: no fault, one line each, and the vertex, opposite half-edge, facet and point are the ones of
the half-edge (its own index is not, see `C121_halfedge_counterexample`). -/
theorem C121_halfedge_partial (dbg : Bool) (M : Nat) (ts : List (Vec T 3 × Vec T 3 × Vec T 3)) (hM : 3 * ts.length < M) (m : HalfedgeMesh (Vec T 3))
    (hb : BuiltFrom dbg M ts m) (k : Nat) (hk : k < m.halfedges.length) :
    ∃ h p out, vecGet m.halfedges k = .ok h ∧ h.idx = k ∧ m.heVector h = .ok p ∧ printHalfedge m h = .ok out ∧ IsLine out ∧
      shown "; Halfedge vertex index: " out = [h.vertex] ∧ shown "; Opposite halfedge index: " out = [h.opp] ∧ shown "Facet index: " out = [h.facet] ∧
      coords out = [p 0, p 1, p 2] := by
  obtain ⟨o, rfl⟩ := hb.eq hM
  have hl : (weld (corners ts)).2.length = 3 * ts.length := by rw [weld_length, corners_length]
  have hk' : k < 3 * ts.length := by simpa [meshOfO, hl] using hk
  obtain ⟨p, hp, hout⟩ := printHalfedge_eq o ts k hk'
  refine ⟨_, p, _, meshOfO_he o _ _ (by omega), rfl, ?_, hout, ?_, ?_, ?_, ?_, ?_⟩
  · rw [meshOfO_heVector o _ _ (weld_welded _) (by omega)]
    exact vecGet_of_getElem? hp
  · exact ⟨[text "Halfedge index: ", idx (3 * (k / 3)), text "; Halfedge vertex index: ", idx ((weld (corners ts)).2.getD k 0), text "; Opposite halfedge index: ",
      idx (o k), text "; Vertex vector, "] ++ printInlineVec p ++ [text "; ", text "Facet index: ", idx (k / 3)], by simp, by simp [printInlineVec]⟩
  · simp [printInlineVec, shown, heOfO]
  · simp [printInlineVec, shown, heOfO]
  · simp [printInlineVec, shown, heOfO]
  · rfl

/-- **C121** (false for half-edges) In every mesh built from triangles, the number printed as "Halfedge index" is that of the first half-edge of the facet: it is the
index of the half-edge only for one in three. -/
theorem C121_halfedge_counterexample (dbg : Bool) (M : Nat) (ts : List (Vec T 3 × Vec T 3 × Vec T 3)) (hM : 3 * ts.length < M) (m : HalfedgeMesh (Vec T 3))
    (hb : BuiltFrom dbg M ts m) (k : Nat) (hk : k < m.halfedges.length) :
    ∃ h out, vecGet m.halfedges k = .ok h ∧ h.idx = k ∧ printHalfedge m h = .ok out ∧ shown "Halfedge index: " out = [3 * (k / 3)] ∧
      (shown "Halfedge index: " out = [h.idx] ↔ 3 ∣ k) := by
  obtain ⟨o, rfl⟩ := hb.eq hM
  have hl : (weld (corners ts)).2.length = 3 * ts.length := by rw [weld_length, corners_length]
  have hk' : k < 3 * ts.length := by simpa [meshOfO, hl] using hk
  obtain ⟨p, hp, hout⟩ := printHalfedge_eq o ts k hk'
  have e : shown "Halfedge index: " ([text "Halfedge index: ", idx (3 * (k / 3)), text "; Halfedge vertex index: ", idx ((weld (corners ts)).2.getD k 0),
      text "; Opposite halfedge index: ", idx (o k), text "; Vertex vector, "] ++ printInlineVec p ++ [text "; ", text "Facet index: ", idx (k / 3), endl]) = [3 * (k / 3)] := by
    simp [printInlineVec, shown]
  refine ⟨_, _, meshOfO_he o _ _ (by omega), rfl, hout, e, ?_⟩
  rw [e]
  show [3 * (k / 3)] = [k] ↔ _
  rw [List.singleton_inj]
  omega

/-- **C121** (false for facets) In every mesh built from triangles, the number printed as "Facet halfedge index" is the index of the facet: it is that of its half-edge
only for the first facet. -/
theorem C121_facet_counterexample (dbg : Bool) (M : Nat) (ts : List (Vec T 3 × Vec T 3 × Vec T 3)) (hM : 3 * ts.length < M) (m : HalfedgeMesh (Vec T 3))
    (hb : BuiltFrom dbg M ts m) (j : Nat) (hj : j < m.facets.length) :
    ∃ f out, vecGet m.facets j = .ok f ∧ printFacet m f = .ok out ∧ IsLine out ∧ shown "Facet halfedge index: " out = [j] ∧
      (shown "Facet halfedge index: " out = [f.he] ↔ j = 0) := by
  obtain ⟨o, rfl⟩ := hb.eq hM
  have hl : (weld (corners ts)).2.length = 3 * ts.length := by rw [weld_length, corners_length]
  have hj' : j < ts.length := by simpa [meshOfO, facetsOf, hl] using hj
  refine ⟨_, [text "Facet halfedge index: ", idx j, endl], meshOfO_facet o _ _ (by omega), ?_, ⟨[text "Facet halfedge index: ", idx j], rfl, by simp⟩, by simp [shown], ?_⟩
  · unfold printFacet printInlineFacet HalfedgeMesh.facetHalfedge
    rw [meshOfO_he o _ _ (k := 3 * j) (by omega), ok_bind]
    simp only [heOfO]
    rw [Nat.mul_div_cancel_left j (by norm_num)]
    rfl
  · simp only [shown, if_true]
    show [j] = [3 * j] ↔ _
    rw [List.singleton_inj]
    omega

/-- **C121** Two different half-edges give different lines, provided that no triangle has two corners that compare equal. -/
theorem C121_distinct_partial [LawfulBEq (Vec T 3)] (dbg : Bool) (M : Nat) (ts : List (Vec T 3 × Vec T 3 × Vec T 3)) (hM : 3 * ts.length < M) (m : HalfedgeMesh (Vec T 3))
    (hb : BuiltFrom dbg M ts m) (hts : ∀ t ∈ ts, t.1 ≠ t.2.1 ∧ t.2.1 ≠ t.2.2 ∧ t.1 ≠ t.2.2) (h h' : Halfedge) (hh : h ∈ m.halfedges) (hh' : h' ∈ m.halfedges)
    (heq : printHalfedge m h = printHalfedge m h') : h = h' := by
  obtain ⟨o, rfl⟩ := hb.eq hM
  have hl : (weld (corners ts)).2.length = 3 * ts.length := by rw [weld_length, corners_length]
  simp only [meshOfO, List.mem_map, List.mem_range] at hh hh'
  obtain ⟨k, hk, rfl⟩ := hh
  obtain ⟨k', hk', rfl⟩ := hh'
  obtain ⟨p, hp, hout⟩ := printHalfedge_eq o ts k (by omega)
  obtain ⟨p', hp', hout'⟩ := printHalfedge_eq o ts k' (by omega)
  rw [hout, hout', Except.ok.injEq] at heq
  simp only [List.cons_append, List.nil_append, List.cons.injEq, Out.idx.injEq, true_and] at heq
  obtain ⟨h1, h2, -⟩ := heq
  have hc : ∀ k, k < 3 * ts.length → k < (corners ts).length := fun k hk => by rw [corners_length]; exact hk
  have e1 := weld_get (corners ts) k (hc k (by omega))
  have e2 := weld_get (corners ts) k' (hc k' (by omega))
  rw [h2, e2] at e1
  have e : (corners ts)[k]? = (corners ts)[k']? := by
    rw [List.getElem?_eq_getElem (hc k (by omega)), List.getElem?_eq_getElem (hc k' (by omega)), e1]
  have hj : k / 3 < ts.length := by omega
  have hkk : k' / 3 = k / 3 := by omega
  rw [← Nat.div_add_mod k 3, ← Nat.div_add_mod k' 3, hkk, corners_getElem? ts _ _ hj (Nat.mod_lt _ (by norm_num)),
    corners_getElem? ts _ _ hj (Nat.mod_lt _ (by norm_num))] at e
  obtain ⟨n1, n2, n3⟩ := hts _ (List.getElem_mem hj)
  have hd : k % 3 = k' % 3 := by
    have a1 : k % 3 = 0 ∨ k % 3 = 1 ∨ k % 3 = 2 := by omega
    have a2 : k' % 3 = 0 ∨ k' % 3 = 1 ∨ k' % 3 = 2 := by omega
    rcases a1 with a1 | a1 | a1 <;> rcases a2 with a2 | a2 | a2 <;> rw [a1, a2] at e ⊢ <;> simp at e
    · exact absurd e n1
    · exact absurd e n3
    · exact absurd e.symm n1
    · exact absurd e n2
    · exact absurd e.symm n3
    · exact absurd e.symm n2
  have : k = k' := by omega
  rw [this]

/-- The line breaks of an output. -/
def lineCount (out : List (Out T)) : Nat := out.countP fun | endl => true | _ => false

theorem printAll_ok {A : Type} (f : A → Res (List (Out T))) (l : List A) (h : ∀ a ∈ l, ∃ out, f a = .ok out ∧ IsLine out) :
    ∃ out, printAll f l = .ok out ∧ lineCount out = l.length := by
  induction l with
  | nil => exact ⟨[], rfl, rfl⟩
  | cons a l ih =>
    obtain ⟨o, h1, b, rfl, hb⟩ := h a List.mem_cons_self
    obtain ⟨os, h2, h3⟩ := ih fun x hx => h x (List.mem_cons_of_mem _ hx)
    refine ⟨b ++ [endl] ++ os, by unfold printAll; rw [h1, ok_bind, h2, ok_bind]; rfl, ?_⟩
    have hb0 : lineCount b = 0 := by
      unfold lineCount
      rw [List.countP_eq_zero]
      intro x hx
      cases x with
      | endl => exact absurd hx hb
      | _ => simp
    unfold lineCount at hb0 h3 ⊢
    rw [List.countP_append, List.countP_append, hb0, h3]
    simp
    omega

/-- **C121** Printing all vertices, all facets or all half-edges of any mesh built from triangles: no fault, and as many lines as there are elements. -/
theorem C121_all (dbg : Bool) (M : Nat) (ts : List (Vec T 3 × Vec T 3 × Vec T 3)) (hM : 3 * ts.length < M) (m : HalfedgeMesh (Vec T 3))
    (hb : BuiltFrom dbg M ts m) :
    (∃ out, printAll (printVertex m) m.vertices = .ok out ∧ lineCount out = m.points.length) ∧
    (∃ out, printAll (printFacet m) m.facets = .ok out ∧ lineCount out = ts.length) ∧
    ∃ out, printAll (printHalfedge m) m.halfedges = .ok out ∧ lineCount out = 3 * ts.length := by
  have hv := C121_vertex dbg M ts hM m hb
  have hf := C121_facet_counterexample dbg M ts hM m hb
  have hh := C121_halfedge_partial dbg M ts hM m hb
  obtain ⟨m1, e1, f1, f2, f3, -⟩ := C42_add_triangles dbg M ts hM
  obtain ⟨m0, e0, g1, g2, g3, g4⟩ := hb
  rw [e0, Except.ok.injEq] at e1
  subst e1
  have l1 : m.vertices.length = m.points.length := by rw [g1, g2, f3]
  have l2 : m.facets.length = ts.length := by rw [g3, f1]
  have l3 : m.halfedges.length = 3 * ts.length := by rw [← f2]; simpa using congrArg List.length g4
  have key : ∀ {A : Type} (l : List A) (f : A → Res (List (Out T))) (n : Nat), l.length = n →
      (∀ i, i < n → ∃ a out, vecGet l i = .ok a ∧ f a = .ok out ∧ IsLine out) → ∃ out, printAll f l = .ok out ∧ lineCount out = n := by
    intro A l f n hl h
    rw [← hl]
    refine printAll_ok f l fun a ha => ?_
    obtain ⟨i, hi, rfl⟩ := List.getElem_of_mem ha
    obtain ⟨a, out, h1, h2, h3⟩ := h i (hl ▸ hi)
    rw [vecGet_of_getElem? (List.getElem?_eq_getElem hi), Except.ok.injEq] at h1
    subst h1
    exact ⟨out, h2, h3⟩
  refine ⟨key _ _ _ l1 fun i hi => ?_, key _ _ _ l2 fun i hi => ?_, key _ _ _ l3 fun i hi => ?_⟩
  · obtain ⟨v, out, h1, h2, h3, -⟩ := hv i hi
    exact ⟨v, out, h1, h2, h3⟩
  · obtain ⟨v, out, h1, h2, h3, -⟩ := hf i (l2 ▸ hi)
    exact ⟨v, out, h1, h2, h3⟩
  · obtain ⟨v, p, out, h1, -, -, h2, h3, -⟩ := hh i (l3 ▸ hi)
    exact ⟨v, out, h1, h2, h3⟩
end

/-! ### Examples -/
section Examples
/-- Two triangles of the unit square. -/
def exPrint : List (Vec Int 3 × Vec Int 3 × Vec Int 3) :=
  [(![0, 0, 0], ![1, 0, 0], ![1, 1, 0]), (![0, 0, 0], ![1, 1, 0], ![0, 1, 0])]

theorem exPrint_built : ∃ m, BuiltFrom true 16 exPrint m ∧ m.facets.length = 2 ∧ m.halfedges.length = 6 ∧ 0 < m.points.length := by
  obtain ⟨m, h1, h2, h3, h4, h5, -⟩ := C42_add_triangles true 16 exPrint (by decide)
  refine ⟨m, .of_add h1, h2, h3, ?_⟩
  have : (h : Halfedge) → h ∈ m.halfedges → 0 < m.points.length := fun h hh => by
    have := (h5 h hh).1
    omega
  exact this _ (List.getElem_mem (show 0 < m.halfedges.length by rw [h3]; decide))

/-- The half-edge 4 is printed with index 3, the facet 1 (half-edge 3) with half-edge index 1. -/
example : ∃ m h f v out out' out'', BuiltFrom true 16 exPrint m ∧ vecGet m.halfedges 4 = .ok h ∧ printHalfedge m h = .ok out ∧ shown "Halfedge index: " out = [3] ∧
    vecGet m.facets 1 = .ok f ∧ printFacet m f = .ok out' ∧ shown "Facet halfedge index: " out' = [1] ∧
    vecGet m.vertices 0 = .ok v ∧ printVertex m v = .ok out'' ∧ shown "Vertex index: " out'' = [0] := by
  obtain ⟨m, hb, h1, h2, h3⟩ := exPrint_built
  obtain ⟨h, out, a1, -, a2, a3, -⟩ := C121_halfedge_counterexample true 16 exPrint (by decide) m hb 4 (by omega)
  obtain ⟨f, out', b1, b2, -, b3, -⟩ := C121_facet_counterexample true 16 exPrint (by decide) m hb 1 (by omega)
  obtain ⟨v, out'', c1, c2, -, c3, -⟩ := C121_vertex true 16 exPrint (by decide) m hb 0 h3
  exact ⟨m, h, f, v, out, out', out'', hb, a1, a2, a3, b1, b2, b3, c1, c2, c3⟩

example : ∃ m h out, BuiltFrom true 16 exPrint m ∧ vecGet m.halfedges 4 = .ok h ∧ printHalfedge m h = .ok out ∧ shown "Facet index: " out = [h.facet] := by
  obtain ⟨m, hb, h1, h2, h3⟩ := exPrint_built
  obtain ⟨h, p, out, a1, -, -, a2, -, -, -, a3, -⟩ := C121_halfedge_partial true 16 exPrint (by decide) m hb 4 (by omega)
  exact ⟨m, h, out, hb, a1, a2, a3⟩

example : ∃ m out, BuiltFrom true 16 exPrint m ∧ printAll (printHalfedge m) m.halfedges = .ok out ∧ lineCount out = 6 ∧
    ∀ h ∈ m.halfedges, ∀ h' ∈ m.halfedges, printHalfedge m h = printHalfedge m h' → h = h' := by
  obtain ⟨m, hb, -⟩ := exPrint_built
  obtain ⟨-, -, out, h1, h2⟩ := C121_all true 16 exPrint (by decide) m hb
  exact ⟨m, out, hb, h1, h2, fun h hh h' hh' => C121_distinct_partial true 16 exPrint (by decide) m hb (by decide) h h' hh hh'⟩
end Examples
end Verif
