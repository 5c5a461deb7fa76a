import Verif.Proofs.MeshOpposite

set_option linter.unusedSectionVars false

/-
C47, C48: opposite half-edges and validity of built meshes.
-/
namespace Verif
open Spec KdNode

section
variable {T : Type} [LinearOrder T] [Zero T] [Add T] [Sub T] [Mul T] [Neg T] [HasSqrt T] [StoredSound T 3]
variable [BEq (Vec T 3)] [LawfulBEq (Vec T 3)]

theorem buildMesh_eq (dbg : Bool) (M w : Nat) (ts : List (Vec T 3 × Vec T 3 × Vec T 3)) (hM : 3 * ts.length < M)
    (hts : Apart (corners ts) := by exact apart_real _) :
    buildMesh dbg M w ts = .ok (tsMesh ts (oppFinal ts fun _ => M - 1)) := by
  unfold buildMesh
  rw [addTriangles_eq dbg M ts hM, ok_bind, meshOf_eq]
  exact setOpposite_eq ts _ dbg w hts

/-- **C47/C48** Building never fails (the tree lookup always finds a half-edge, in debug builds too) and changes nothing
but the opposite links, so everything proved for `BuiltFrom` meshes holds for the finished mesh. -/
theorem C48_build_succeeds (dbg : Bool) (M w : Nat) (ts : List (Vec T 3 × Vec T 3 × Vec T 3)) (hM : 3 * ts.length < M)
    (hts : Apart (corners ts) := by exact apart_real _) :
    ∃ m, buildMesh dbg M w ts = .ok m ∧ BuiltFrom dbg M ts m := by
  refine ⟨_, buildMesh_eq dbg M w ts hM hts, _, addTriangles_eq dbg M ts hM, rfl, rfl, rfl, ?_⟩
  simp [meshOf, meshOfO, hesListOf, Function.comp_def, heOf, heOfO]

/-- The directed edge (start and end point) of a half-edge. -/
def DirectedEdgeOf {V : Type} (m : HalfedgeMesh V) (h : Halfedge) (e : V × V) : Prop :=
  m.heVector h = .ok e.1 ∧ m.heNextVector h = .ok e.2

theorem directedEdgeOf_get (ts : List (Vec T 3 × Vec T 3 × Vec T 3)) (o : Nat → Nat) {k : Nat} (hk : k < 3 * ts.length)
    {e : Vec T 3 × Vec T 3} :
    DirectedEdgeOf (tsMesh ts o) (heOfO o (weld (corners ts)).2 k) e ↔ (directedEdges ts)[k]? = some e := by
  obtain ⟨p, hp⟩ := corner_some ts hk
  obtain ⟨q, hq⟩ := corner_some ts (nextCorner_lt hk)
  unfold DirectedEdgeOf
  rw [tsMesh_heVector ts o hk hp, tsMesh_heNextVector ts o hk hq, directedEdges_get, hp, hq]
  obtain ⟨a, b⟩ := e
  simp

/-- **C47** (what holds) `getOpposite` of every half-edge of a built mesh is defined and lies on the same edge – but it
always runs in the *same* direction.  Missing: that it is the half-edge of the neighbouring facet running the other way;
that is false, see `C47_counterexample`. -/
theorem C47_opposite_partial (dbg : Bool) (M w : Nat) (ts : List (Vec T 3 × Vec T 3 × Vec T 3)) (hM : 3 * ts.length < M)
    (m : HalfedgeMesh (Vec T 3)) (hm : buildMesh dbg M w ts = .ok m)
    (hts : Apart (corners ts) := by exact apart_real _) :
    ∀ h ∈ m.halfedges, ∃ o e, m.heOpposite h = .ok o ∧ DirectedEdgeOf m h e ∧ DirectedEdgeOf m o e := by
  rw [buildMesh_eq dbg M w ts hM hts, Except.ok.injEq] at hm
  subst hm
  intro h hh
  simp only [meshOfO, List.mem_map, List.mem_range] at hh
  obtain ⟨k, hk, rfl⟩ := hh
  rw [tsMesh_length] at hk
  have hlt := oppFinal_lt ts (fun _ => M - 1) hk
  obtain ⟨e, he⟩ : ∃ e, (directedEdges ts)[k]? = some e :=
    ⟨_, List.getElem?_eq_getElem (by rw [directedEdges_length]; exact hk)⟩
  refine ⟨_, e, tsMesh_he ts _ hlt, (directedEdgeOf_get ts _ hk).2 he, (directedEdgeOf_get ts _ hlt).2 ?_⟩
  rw [oppFinal_same ts _ hk, he]

/-- **C47** is wrong for every half-edge of every consistently oriented mesh: when no directed edge is used twice, each
half-edge is its own opposite. -/
theorem C47_opposite_is_self (dbg : Bool) (M w : Nat) (ts : List (Vec T 3 × Vec T 3 × Vec T 3)) (hM : 3 * ts.length < M)
    (hnd : (directedEdges ts).Nodup) (m : HalfedgeMesh (Vec T 3)) (hm : buildMesh dbg M w ts = .ok m)
    (hts : Apart (corners ts) := by exact apart_real _) :
    ∀ h ∈ m.halfedges, m.heOpposite h = .ok h := by
  rw [buildMesh_eq dbg M w ts hM hts, Except.ok.injEq] at hm
  subst hm
  intro h hh
  simp only [meshOfO, List.mem_map, List.mem_range] at hh
  obtain ⟨k, hk, rfl⟩ := hh
  rw [tsMesh_length] at hk
  have hlt := oppFinal_lt ts (fun _ => M - 1) hk
  have hs := oppFinal_same ts (fun _ => M - 1) hk
  have : oppFinal ts (fun _ => M - 1) k = k :=
    (List.getElem?_inj (by rw [directedEdges_length]; exact hlt) hnd).1 hs
  show vecGet _ (oppFinal ts (fun _ => M - 1) k) = _
  rw [tsMesh_he ts _ hlt, this]

end

section
variable [BEq (Vec ℝ 3)] [LawfulBEq (Vec ℝ 3)]

theorem directedEdges_map {V W : Type} (f : V → W) (ts : List (V × V × V)) :
    directedEdges (ts.map (mapTriangle f)) = (directedEdges ts).map (Prod.map f f) := by
  induction ts with
  | nil => rfl
  | cons t ts ih =>
    rw [List.map_cons, show directedEdges (t :: ts) = [(t.1, t.2.1), (t.2.1, t.2.2), (t.2.2, t.1)] ++ directedEdges ts from rfl,
      List.map_append, ← ih]
    rfl

theorem _root_.Verif.Spec.ClosedOriented.map {V W : Type} {f : V → W} (hf : Function.Injective f) {ts : List (V × V × V)}
    (h : ClosedOriented ts) : ClosedOriented (ts.map (mapTriangle f)) := by
  unfold ClosedOriented
  rw [directedEdges_map]
  refine ⟨h.1.map (hf.prodMap hf), ?_⟩
  intro a b hab
  rw [List.mem_map] at hab ⊢
  obtain ⟨⟨x, y⟩, hxy, he⟩ := hab
  simp only [Prod.map_apply, Prod.mk.injEq] at he
  exact ⟨(y, x), h.2 x y hxy, by simp [he.1, he.2]⟩

/-- The four triangles of a tetrahedron, by corner number. -/
def tetraIdx : List (Fin 4 × Fin 4 × Fin 4) := [(0, 2, 1), (0, 1, 3), (1, 2, 3), (0, 3, 2)]

theorem tetraIdx_closed : ClosedOriented tetraIdx := by unfold ClosedOriented; decide

/-- The corners of the unit tetrahedron. -/
def tetraPt (i : Fin 4) : Vec ℝ 3 := fun j => if j.val + 1 = i.val then 1 else 0

theorem tetraPt_injective : Function.Injective tetraPt := by
  intro i j h
  have h0 := congrFun h 0
  have h1 := congrFun h 1
  have h2 := congrFun h 2
  have e : ∀ k : Fin 4, k = 0 ∨ k = 1 ∨ k = 2 ∨ k = 3 := by decide
  rcases e i with rfl | rfl | rfl | rfl <;> rcases e j with rfl | rfl | rfl | rfl <;> simp_all [tetraPt]

def tetra : List (Vec ℝ 3 × Vec ℝ 3 × Vec ℝ 3) := tetraIdx.map (mapTriangle tetraPt)

theorem tetra_closed : ClosedOriented tetra := tetraIdx_closed.map tetraPt_injective

/-- **C47** The property is false: on the closed, consistently oriented surface of a tetrahedron every half-edge is its
own opposite, so `getOpposite` of the half-edge from `u` to `v` runs from `u ≠ v` to `v` again. -/
theorem C47_counterexample (dbg : Bool) (w : Nat) :
    ClosedOriented tetra ∧ ∃ m, buildMesh dbg (2 ^ 64) w tetra = .ok m ∧
      ∀ h ∈ m.halfedges, ∃ o, m.heOpposite h = .ok o ∧ o = h ∧
        ∀ u v, DirectedEdgeOf m h (u, v) → u ≠ v ∧ ¬ DirectedEdgeOf m o (v, u) := by
  have hM : 3 * tetra.length < 2 ^ 64 := by simp [tetra, tetraIdx]
  refine ⟨tetra_closed, _, buildMesh_eq dbg _ w tetra hM, ?_⟩
  intro h hh
  refine ⟨h, (C47_opposite_is_self dbg _ w tetra hM tetra_closed.1 _ (buildMesh_eq dbg _ w tetra hM)) h hh, rfl, ?_⟩
  intro u v huv
  simp only [meshOfO, List.mem_map, List.mem_range] at hh
  obtain ⟨k, hk, rfl⟩ := hh
  rw [tsMesh_length] at hk
  have hmem := List.mem_of_getElem? ((directedEdgeOf_get tetra _ hk).1 huv)
  have hne : u ≠ v := by
    unfold tetra at hmem
    rw [directedEdges_map, List.mem_map] at hmem
    obtain ⟨⟨a, b⟩, hab, he⟩ := hmem
    simp only [Prod.map_apply, Prod.mk.injEq] at he
    rintro rfl
    have := tetraPt_injective (he.1.trans he.2.symm)
    subst this
    exact absurd hab ((by decide : ∀ a : Fin 4, (a, a) ∉ directedEdges tetraIdx) a)
  refine ⟨hne, fun hc => hne ?_⟩
  have := huv.1.symm.trans hc.1
  exact Except.ok.inj this

/-! ### C48 -/

theorem allValid_all {α : Type} (f : α → Res Bool) (b : α → Bool) (l : List α) (h : ∀ x ∈ l, f x = .ok (b x)) :
    allValid f l = .ok (l.all b) := by
  induction l with
  | nil => rfl
  | cons x xs ih =>
    unfold allValid
    rw [h x (by simp), ok_bind, ih (fun y hy => h y (by simp [hy]))]
    cases hb : b x <;> simp [hb]

theorem assertedValid_ok (dbg b : Bool) : assertedValid dbg (.ok b) = if dbg && !b then .error .assertFailed else .ok b := by
  unfold assertedValid
  rw [ok_bind, geoAssert_bind]

theorem allValid_asserted {α : Type} (dbg : Bool) (b : α → Bool) (l : List α) (f : α → Res Bool)
    (hf : ∀ x ∈ l, f x = .ok (b x)) :
    allValid (fun x => assertedValid dbg (f x)) l
      = if dbg && !l.all b then .error .assertFailed else .ok (l.all b) := by
  induction l with
  | nil => cases dbg <;> rfl
  | cons x xs ih =>
    unfold allValid
    rw [hf x (by simp), assertedValid_ok, ih (fun y hy => hf y (by simp [hy]))]
    cases hb : b x <;> cases dbg <;> simp [hb, ok_bind, error_bind]

end

section
variable {T : Type} [LinearOrder T] [Zero T] [Add T] [Sub T] [Mul T] [Neg T] [HasSqrt T] [StoredSound T 3]
variable [BEq (Vec T 3)] [LawfulBEq (Vec T 3)]

theorem halfedgeValid_eq (M : Nat) (ts : List (Vec T 3 × Vec T 3 × Vec T 3)) (hM : 3 * ts.length < M) (o : Nat → Nat)
    (ho : ∀ k < 3 * ts.length, o k < 3 * ts.length) {k : Nat} (hk : k < 3 * ts.length) :
    halfedgeValidImpl M (tsMesh ts o) (heOfO o (weld (corners ts)).2 k) = .ok (o (o k) == k) := by
  have hl := tsMesh_length ts
  have hw := weld_welded (corners ts)
  have hn := nextCorner_lt hk
  have hp := prevCorner_lt hk
  have hok := ho k hk
  have hvl := getD_lt _ _ hw (show k < (weld (corners ts)).2.length by omega)
  have hle := hw.le
  have hgetk : (weld (corners ts)).2[k]? = some ((weld (corners ts)).2.getD k 0) := by
    rw [List.getD_eq_getElem?_getD, List.getElem?_eq_getElem (by omega), Option.getD_some]
  unfold halfedgeValidImpl
  rw [meshOfO_heVertex _ _ _ hw (by omega), meshOfO_heNext _ _ _ hl (by omega), meshOfO_hePrev _ _ _ hl (by omega),
    show (tsMesh ts o).heOpposite (heOfO o (weld (corners ts)).2 k) = .ok (heOfO o (weld (corners ts)).2 (o k)) from
      tsMesh_he ts o hok]
  simp only [ok_bind]
  rw [show (heOfO o (weld (corners ts)).2 k).idx = k from rfl]
  have hcont : (hesOf (weld (corners ts)).2 ((weld (corners ts)).2.getD k 0)).contains k = true := by
    rw [List.contains_iff_mem, mem_hesOf]; exact hgetk
  rw [hcont]
  have v1 : handleValid M k = true := handleValid_of_lt (by omega)
  have v2 : handleValid M (heOfO o (weld (corners ts)).2 k).vertex = true :=
    handleValid_of_lt (show (weld (corners ts)).2.getD k 0 + 1 < M by omega)
  have v3 : handleValid M (heOfO o (weld (corners ts)).2 k).facet = true := handleValid_of_lt (show k / 3 + 1 < M by omega)
  have v4 : handleValid M (heOfO o (weld (corners ts)).2 k).next = true := handleValid_of_lt (show nextCorner k + 1 < M by omega)
  have v5 : handleValid M (heOfO o (weld (corners ts)).2 k).prev = true := handleValid_of_lt (show prevCorner k + 1 < M by omega)
  have v6 : handleValid M (heOfO o (weld (corners ts)).2 k).opp = true := handleValid_of_lt (show o k + 1 < M by omega)
  rw [v1, v2, v3, v4, v5, v6]
  simp only [Bool.and_self, Bool.not_true, Bool.false_eq_true, if_false]
  rw [show (heOfO o (weld (corners ts)).2 (o k)).opp = o (o k) from rfl,
    show (heOfO o (weld (corners ts)).2 (nextCorner k)).prev = k from prev_next k,
    show (heOfO o (weld (corners ts)).2 (prevCorner k)).next = k from next_prev k]
  by_cases h : o (o k) = k <;> simp [h]

/-- **C48** `is_valid()` of a built mesh never reads out of range.  In a release build it returns `true` exactly when no
directed edge is used by more than two triangles; in a debug build it returns `true` in that case and trips the assertion
inside `Halfedge::is_valid` otherwise. -/
theorem C48_is_valid (dbg dbg' : Bool) (M w : Nat) (ts : List (Vec T 3 × Vec T 3 × Vec T 3)) (hM : 3 * ts.length < M)
    (m : HalfedgeMesh (Vec T 3)) (hm : buildMesh dbg M w ts = .ok m)
    (hts : Apart (corners ts) := by exact apart_real _) :
    ((∀ e, (directedEdges ts).count e ≤ 2) → m.isValid dbg' M = .ok true) ∧
    ((¬ ∀ e, (directedEdges ts).count e ≤ 2) →
      m.isValid dbg' M = if dbg' then .error .assertFailed else .ok false) := by
  rw [buildMesh_eq dbg M w ts hM hts, Except.ok.injEq] at hm
  subst hm
  have hl := tsMesh_length ts
  have hw := weld_welded (corners ts)
  have hle := hw.le
  set o := oppFinal ts (fun _ => M - 1) with ho
  have holt : ∀ k < 3 * ts.length, o k < 3 * ts.length := fun k hk => oppFinal_lt ts _ hk
  have hiff : (∀ e, (directedEdges ts).count e ≤ 2) ↔ ∀ k < 3 * ts.length, o (o k) = k := by
    rw [count_le_two_iff, ← oppFinal_involutive_iff ts (fun _ => M - 1)]
  have hv : allValid (fun v => assertedValid dbg' (.ok (vertexValidImpl M v))) (tsMesh ts o).vertices = .ok true := by
    rw [allValid_asserted dbg' (vertexValidImpl M) _ (fun v => .ok (vertexValidImpl M v)) (fun _ _ => rfl)]
    have : (tsMesh ts o).vertices.all (vertexValidImpl M) = true := by
      rw [List.all_eq_true]
      intro v hv
      simp only [meshOfO, vertsOf, List.mem_map, List.mem_range] at hv
      obtain ⟨i, hi, rfl⟩ := hv
      unfold vertexValidImpl
      rw [handleValid_of_lt (show i + 1 < M by omega), decide_eq_true ((hesOf_pairwise _ _).imp le_of_lt), Bool.true_and, Bool.true_and,
        List.all_eq_true]
      intro k hk
      have := (List.getElem?_eq_some_iff.1 ((mem_hesOf _ _ _).1 hk)).1
      exact handleValid_of_lt (by omega)
    rw [this]; simp
  have hf : allValid (fun f => assertedValid dbg' (.ok (facetValidImpl M f))) (tsMesh ts o).facets = .ok true := by
    rw [allValid_asserted dbg' (facetValidImpl M) _ (fun f => .ok (facetValidImpl M f)) (fun _ _ => rfl)]
    have : (tsMesh ts o).facets.all (facetValidImpl M) = true := by
      rw [List.all_eq_true]
      intro f hf
      simp only [meshOfO, facetsOf, List.mem_map, List.mem_range] at hf
      obtain ⟨i, hi, rfl⟩ := hf
      exact handleValid_of_lt (by simp only; omega)
    rw [this]; simp
  have hh := allValid_asserted dbg' (fun h => o (o h.idx) == h.idx) (tsMesh ts o).halfedges
    (halfedgeValidImpl M (tsMesh ts o)) (by
      intro h hh
      simp only [meshOfO, List.mem_map, List.mem_range] at hh
      obtain ⟨k, hk, rfl⟩ := hh
      exact halfedgeValid_eq M ts hM o holt (by omega))
  have hall : (tsMesh ts o).halfedges.all (fun h => o (o h.idx) == h.idx) = true ↔ ∀ k < 3 * ts.length, o (o k) = k := by
    rw [List.all_eq_true]
    simp only [meshOfO, List.mem_map, List.mem_range, hl]
    constructor
    · intro h k hk
      exact eq_of_beq (h _ ⟨k, hk, rfl⟩)
    · rintro h _ ⟨k, hk, rfl⟩
      exact beq_iff_eq.2 (h k hk)
  unfold HalfedgeMesh.isValid
  rw [hv, ok_bind, hh]
  rw [hiff, ← hall]
  constructor
  · intro h
    rw [h]
    simp only [Bool.not_true, Bool.and_false, Bool.false_eq_true, if_false, ok_bind]
    exact hf
  · intro h
    rw [Bool.not_eq_true] at h
    rw [h]
    cases dbg' <;> simp [ok_bind, error_bind]

end

section
variable [BEq (Vec ℝ 3)] [LawfulBEq (Vec ℝ 3)]

/-! ### Concrete cases -/
section Examples

/-- The hypotheses of C42–C50 (`BuiltFrom`, capacity) are met by the finished tetrahedron mesh. -/
example : ∃ m, buildMesh true (2 ^ 64) 64 tetra = .ok m ∧ BuiltFrom true (2 ^ 64) tetra m ∧ m.facets.length = 4 := by
  have hM : 3 * tetra.length < 2 ^ 64 := by simp [tetra, tetraIdx]
  obtain ⟨m, h1, h2⟩ := C48_build_succeeds true (2 ^ 64) 64 tetra hM
  refine ⟨m, h1, h2, ?_⟩
  obtain ⟨o, rfl⟩ := h2.eq hM
  simp [meshOfO, facetsOf, tsMesh_length, tetra, tetraIdx]

/-- The tetrahedron is valid, ... -/
example : ∃ m, buildMesh true (2 ^ 64) 64 tetra = .ok m ∧ m.isValid true (2 ^ 64) = .ok true := by
  have hM : 3 * tetra.length < 2 ^ 64 := by simp [tetra, tetraIdx]
  obtain ⟨m, h1, _⟩ := C48_build_succeeds true (2 ^ 64) 64 tetra hM
  refine ⟨m, h1, (C48_is_valid true true _ 64 tetra hM m h1).1 fun e => ?_⟩
  exact le_trans (List.nodup_iff_count_le_one.1 tetra_closed.1 e) (by omega)

/-- ... the same triangle three times is not (and asserts in a debug build). -/
example : ∃ m, buildMesh true (2 ^ 64) 64 [tetra[0]!, tetra[0]!, tetra[0]!] = .ok m ∧
    m.isValid true (2 ^ 64) = .error .assertFailed ∧ m.isValid false (2 ^ 64) = .ok false := by
  obtain ⟨m, h1, _⟩ := C48_build_succeeds true (2 ^ 64) 64 [tetra[0]!, tetra[0]!, tetra[0]!] (by simp)
  have hc : ¬ ∀ e, (directedEdges [tetra[0]!, tetra[0]!, tetra[0]!]).count e ≤ 2 := by
    intro h
    have hx := h (tetra[0]!.1, tetra[0]!.2.1)
    have : 3 ≤ (directedEdges [tetra[0]!, tetra[0]!, tetra[0]!]).count (tetra[0]!.1, tetra[0]!.2.1) := by
      rw [← List.replicate_sublist_iff]
      simp only [directedEdges, List.flatMap_cons, List.flatMap_nil, List.replicate]
      generalize tetra[0]! = t
      simp only [List.cons_append, List.nil_append]
      refine List.Sublist.cons_cons _ (.cons _ (.cons _ (List.Sublist.cons_cons _ (.cons _ (.cons _
        (List.Sublist.cons_cons _ (List.nil_sublist _)))))))
    omega
  exact ⟨m, h1, (C48_is_valid true true _ 64 _ (by simp) m h1).2 hc, (C48_is_valid true false _ 64 _ (by simp) m h1).2 hc⟩
/-- C47 on the tetrahedron. -/
example : ∃ m, buildMesh true (2 ^ 64) 64 tetra = .ok m ∧ (∀ h ∈ m.halfedges, m.heOpposite h = .ok h) ∧
    ∀ h ∈ m.halfedges, ∃ o e, m.heOpposite h = .ok o ∧ DirectedEdgeOf m h e ∧ DirectedEdgeOf m o e := by
  have hM : 3 * tetra.length < 2 ^ 64 := by simp [tetra, tetraIdx]
  obtain ⟨m, h1, _⟩ := C48_build_succeeds true (2 ^ 64) 64 tetra hM
  exact ⟨m, h1, C47_opposite_is_self true _ 64 tetra hM tetra_closed.1 m h1, C47_opposite_partial true _ 64 tetra hM m h1⟩
end Examples
end
end Verif
