import Verif.Props.MeshNormals
import Verif.Props.MeshLines
import Verif.Props.Builder
import Verif.Proofs.Surface
import Verif.Proofs.Volume
import Verif.Props.FloatMesh
import Verif.Spec.Reorder
import Verif.Spec.Volume
import Mathlib.Data.Sym.Sym2

set_option linter.unusedSectionVars false

/-
C109: exporting and rebuilding a mesh.  C110: the order in which triangles are added.
-/
namespace Verif
open Spec

theorem triples_corners {V : Type} : ∀ ts : List (V × V × V), triples (corners ts) = ts
  | [] => rfl
  | t :: ts => by
    show triples (t.1 :: t.2.1 :: t.2.2 :: corners ts) = t :: ts
    rw [triples, triples_corners ts]

theorem mapTriangle_some_injective {V : Type} {ts us : List (V × V × V)} (h : ts.map (mapTriangle some) = us.map (mapTriangle some)) : ts = us := by
  refine List.map_injective_iff.2 (fun a b hab => ?_) h
  simp only [mapTriangle, Prod.mk.injEq, Option.some.injEq] at hab
  exact Prod.ext hab.1 (Prod.ext hab.2.1 hab.2.2)

/-- **C109** The exported triangle indices, looked up in the exported points and grouped in threes, are the triangles the mesh was built from, in
order and starting at the same corners. -/
theorem C109_export {V : Type} [BEq V] [LawfulBEq V] (dbg : Bool) (M MU : Nat) (ts : List (V × V × V)) (hM : 3 * ts.length < M)
    (m : HalfedgeMesh V) (hb : BuiltFrom dbg M ts m) (hU : m.points.length ≤ MU) :
    ∃ l, calcTriangleIndices MU m = .ok l ∧ l.length = 3 * ts.length ∧
      (triples l).map (mapTriangle (m.points[·]?)) = ts.map (mapTriangle some) := by
  obtain ⟨l, hl, he⟩ := C45_triangle_indices dbg M MU ts hM m hb hU
  refine ⟨l, hl, ?_, ?_⟩
  · have := congrArg List.length he
    simpa [corners_length] using this
  · rw [← triples_map, he, triples_map, triples_corners]

section
variable {T : Type} [LinearOrder T] [Zero T] [One T] [Add T] [Sub T] [Mul T] [Neg T] [HasSqrt T] [StoredSound T 3]
variable [BEq (Vec T 3)] [LawfulBEq (Vec T 3)] [BEq (HMat T)] [LawfulBEq (HMat T)]

/-- **C109** Rebuilding a mesh from the triangles it exports gives the same mesh: the same points, vertices, half-edges with all their links, and
facets. -/
theorem C109_rebuild (dbg : Bool) (M MU w : Nat) (ts : List (Vec T 3 × Vec T 3 × Vec T 3)) (hM : 3 * ts.length < M)
    (m : HalfedgeMesh (Vec T 3)) (hm : buildMesh dbg M w ts = .ok m) (hU : m.points.length ≤ MU)
    (hts : Apart (corners ts) := by exact apart_real _) :
    ∃ l, calcTriangleIndices MU m = .ok l ∧ (∃ ts' : List (Vec T 3 × Vec T 3 × Vec T 3), (triples l).map (mapTriangle (m.points[·]?)) = ts'.map (mapTriangle some)) ∧
      ∀ ts' : List (Vec T 3 × Vec T 3 × Vec T 3), (triples l).map (mapTriangle (m.points[·]?)) = ts'.map (mapTriangle some) → buildMesh dbg M w ts' = .ok m := by
  obtain ⟨m', hm', hb⟩ := C48_build_succeeds dbg M w ts hM hts
  obtain rfl : m' = m := Except.ok.inj (hm'.symm.trans hm)
  obtain ⟨l, h1, -, h2⟩ := C109_export dbg M MU ts hM m' hb hU
  refine ⟨l, h1, ⟨ts, h2⟩, fun ts' h => ?_⟩
  rw [← mapTriangle_some_injective (h2.symm.trans h)]
  exact hm

theorem build_exported (dbg : Bool) (M MU w : Nat) (ts : List (Vec T 3 × Vec T 3 × Vec T 3)) (h0 : ts ≠ []) (hM : 3 * ts.length < M)
    (m : HalfedgeMesh (Vec T 3)) (hb : BuiltFrom dbg M ts m) (hU : m.points.length ≤ MU) :
    ∃ l, calcTriangleIndices MU m = .ok l ∧
      ∀ dbg', buildTriangleHalfedgeMesh dbg' M w hmatIdentity m.points l = buildMesh dbg' M w (ts.map reversed) := by
  obtain ⟨l, h1, h3, h2⟩ := C109_export dbg M MU ts hM m hb hU
  obtain ⟨l', h1', h4⟩ := C45_triangle_indices dbg M MU ts hM m hb hU
  obtain rfl : l = l' := Except.ok.inj (h1.symm.trans h1')
  refine ⟨l, h1, fun dbg' => ?_⟩
  have hi : ∀ i ∈ l, i < m.points.length := by
    intro i hi
    have : m.points[i]? ∈ (corners ts).map some := by rw [← h4]; exact List.mem_map_of_mem hi
    obtain ⟨p, -, hp⟩ := List.mem_map.1 this
    exact (List.getElem?_eq_some_iff.1 hp.symm).1
  have hp : m.points ≠ [] := by
    rintro e
    cases ts with
    | nil => exact h0 rfl
    | cons t ts =>
      cases l with
      | nil => simp at h3
      | cons i l => have := hi i (by simp); simp [e] at this
  rw [build_ok_gen dbg' M w hmatIdentity m.points l (by omega) hp (by omega) hi]
  congr 1
  have hpl : placeOf (hmatIdentity : HMat T) = id := by
    funext p; unfold placeOf; simp
  unfold placedTriangles
  rw [hpl]
  apply mapTriangle_some_injective
  rw [List.map_map, List.map_map]
  have h5 : ∀ t ∈ triples l, mapTriangle (m.points[·]?) t = mapTriangle some (mapTriangle (fun i => m.points.getD i 0) t) := by
    intro t ht
    have h6 := (triples_all_iff l (· < m.points.length)).2 (fun k hk i hik => hi i (List.mem_of_getElem? hik)) t ht
    simp only [mapTriangle, List.getD_eq_getElem?_getD, List.getElem?_eq_getElem h6.1, List.getElem?_eq_getElem h6.2.1,
      List.getElem?_eq_getElem h6.2.2, Option.getD_some]
  rw [List.map_congr_left h5] at h2
  have h7 := congrArg (List.map reversed) h2
  rw [List.map_map, List.map_map] at h7
  exact h7

/-- **C109** Handing the exported points and indices to the index buffer builder (with the identity transformation) gives the mesh of the same
triangles *with the opposite orientation*: the builder reads each index triple backwards.  Exporting and building once more gives the original mesh
back, link by link. -/
theorem C109_buffer (dbg : Bool) (M MU w : Nat) (ts : List (Vec T 3 × Vec T 3 × Vec T 3)) (h0 : ts ≠ []) (hM : 3 * ts.length < M)
    (m : HalfedgeMesh (Vec T 3)) (hm : buildMesh dbg M w ts = .ok m) (hU : 3 * ts.length ≤ MU)
    (hts : Apart (corners ts) := by exact apart_real _) :
    ∃ l m' l', calcTriangleIndices MU m = .ok l ∧ buildTriangleHalfedgeMesh dbg M w hmatIdentity m.points l = .ok m' ∧
      BuiltFrom dbg M (ts.map reversed) m' ∧ calcTriangleIndices MU m' = .ok l' ∧
      buildTriangleHalfedgeMesh dbg M w hmatIdentity m'.points l' = .ok m := by
  obtain ⟨m1, hm1, hb⟩ := C48_build_succeeds dbg M w ts hM hts
  obtain rfl : m1 = m := Except.ok.inj (hm1.symm.trans hm)
  have hlen : ∀ (us : List (Vec T 3 × Vec T 3 × Vec T 3)) (n : HalfedgeMesh (Vec T 3)), us.length = ts.length → BuiltFrom dbg M us n →
      n.points.length ≤ MU := by
    intro us n hu hn
    obtain ⟨o, rfl⟩ := hn.eq (by omega)
    show (weld (corners us)).1.length ≤ MU
    rw [weld_fst]
    have := ((nodup_eraseDups (corners us)).subperm fun _ h => List.mem_eraseDups.1 h).length_le
    rw [corners_length] at this
    omega
  obtain ⟨l, h1, h2⟩ := build_exported dbg M MU w ts h0 hM m1 hb (hlen _ _ rfl hb)
  have hts' : Apart (corners (ts.map reversed)) := hts.subset (by
    intro v hv
    simp only [corners, List.mem_flatMap, List.mem_map] at hv ⊢
    obtain ⟨_, ⟨t, ht, rfl⟩, hv⟩ := hv
    refine ⟨t, ht, ?_⟩
    simp only [reversed, List.mem_cons, List.not_mem_nil, or_false] at hv ⊢
    tauto)
  obtain ⟨m', hm', hb'⟩ := C48_build_succeeds dbg M w (ts.map reversed) (by simpa using hM) hts'
  obtain ⟨l', h1', h2'⟩ := build_exported dbg M MU w (ts.map reversed) (by simpa using h0) (by simpa using hM) m' hb' (hlen _ _ (by simp) hb')
  refine ⟨l, m', l', h1, (h2 dbg).trans hm', hb', h1', (h2' dbg).trans ?_⟩
  rw [List.map_map, show (reversed ∘ reversed : Vec T 3 × Vec T 3 × Vec T 3 → _) = id from rfl, List.map_id]
  exact hm
end

/-! ### C110 -/

section
variable {V : Type}

theorem corners_turned {t t' : V × V × V} (h : Turned t t') : [t.1, t.2.1, t.2.2].Perm [t'.1, t'.2.1, t'.2.2] := by
  rcases h with rfl | rfl | rfl
  · rfl
  · exact (List.Perm.swap _ _ _).trans (List.Perm.cons _ (List.Perm.swap _ _ _))
  · exact (List.Perm.cons _ (List.Perm.swap _ _ _)).trans (List.Perm.swap _ _ _)

theorem edges_turned {t t' : V × V × V} (h : Turned t t') :
    [(t.1, t.2.1), (t.2.1, t.2.2), (t.2.2, t.1)].Perm [(t'.1, t'.2.1), (t'.2.1, t'.2.2), (t'.2.2, t'.1)] := by
  rcases h with rfl | rfl | rfl
  · rfl
  · exact (List.Perm.swap _ _ _).trans (List.Perm.cons _ (List.Perm.swap _ _ _))
  · exact (List.Perm.cons _ (List.Perm.swap _ _ _)).trans (List.Perm.swap _ _ _)

theorem flatMap_turned {β : Type} (f : V × V × V → List β) (hf : ∀ t t', Turned t t' → (f t).Perm (f t')) {ts ts' : List (V × V × V)}
    (h : Reordered ts ts') : (ts.flatMap f).Perm (ts'.flatMap f) := by
  obtain ⟨us, hp, ht⟩ := h
  refine (List.Perm.flatMap_right f hp).trans ?_
  clear hp
  induction ht with
  | nil => rfl
  | cons h _ ih => exact (hf _ _ h).append ih

theorem reordered_mem {ts ts' : List (V × V × V)} (h : Reordered ts ts') :
    (∀ t ∈ ts, ∃ t' ∈ ts', Turned t t') ∧ ∀ t' ∈ ts', ∃ t ∈ ts, Turned t t' := by
  obtain ⟨us, hp, hf⟩ := h
  simp only [hp.mem_iff]
  clear hp
  induction hf with
  | nil => simp
  | cons h _ ih =>
    constructor
    · intro t ht
      rcases List.mem_cons.1 ht with rfl | ht
      · exact ⟨_, by simp, h⟩
      · obtain ⟨t', h1, h2⟩ := ih.1 t ht
        exact ⟨t', List.mem_cons_of_mem _ h1, h2⟩
    · intro t ht
      rcases List.mem_cons.1 ht with rfl | ht
      · exact ⟨_, by simp, h⟩
      · obtain ⟨t', h1, h2⟩ := ih.2 t ht
        exact ⟨t', List.mem_cons_of_mem _ h1, h2⟩

theorem reordered_corners {ts ts' : List (V × V × V)} (h : Reordered ts ts') : (corners ts).Perm (corners ts') :=
  flatMap_turned _ (fun _ _ => corners_turned) h

theorem reordered_edges {ts ts' : List (V × V × V)} (h : Reordered ts ts') : (directedEdges ts).Perm (directedEdges ts') :=
  flatMap_turned _ (fun _ _ => edges_turned) h

theorem reordered_length {ts ts' : List (V × V × V)} (h : Reordered ts ts') : ts.length = ts'.length := by
  obtain ⟨us, hp, ht⟩ := h
  rw [hp.length_eq, ht.length_eq]

/-- **C110** Adding the same triangles in another order, each starting at any of its corners, gives the same points (in another order), the same
number of half-edges and facets, and the same lines; it is closed and oriented in the one case exactly when it is in the other. -/
theorem C110_topology [BEq V] [LawfulBEq V] (dbg dbg' : Bool) (M M' MU : Nat) (ts ts' : List (V × V × V)) (hr : Reordered ts ts')
    (hM : 3 * ts.length < M) (hM' : 3 * ts'.length < M') (m m' : HalfedgeMesh V) (hb : BuiltFrom dbg M ts m) (hb' : BuiltFrom dbg' M' ts' m')
    (hU : m.points.length ≤ MU) :
    m.points.Perm m'.points ∧ m.halfedges.length = m'.halfedges.length ∧ m.facets.length = m'.facets.length ∧
    (ClosedOriented ts ↔ ClosedOriented ts') ∧
    ∃ es es' : List (Nat × Nat), calcLineIndices dbg MU m = .ok (es.flatMap fun e => [e.1, e.2]) ∧
      calcLineIndices dbg' MU m' = .ok (es'.flatMap fun e => [e.1, e.2]) ∧
      (es.map fun e => s(m.points[e.1]?, m.points[e.2]?)).Perm (es'.map fun e => s(m'.points[e.1]?, m'.points[e.2]?)) := by
  have hpts : m.points.Perm m'.points := by
    obtain ⟨o, rfl⟩ := hb.eq hM
    obtain ⟨o', rfl⟩ := hb'.eq hM'
    show (weld (corners ts)).1.Perm (weld (corners ts')).1
    rw [weld_fst, weld_fst, List.perm_ext_iff_of_nodup (nodup_eraseDups _) (nodup_eraseDups _)]
    intro a
    rw [List.mem_eraseDups, List.mem_eraseDups]
    exact (reordered_corners hr).mem_iff
  have hnd : m.points.Nodup := by
    obtain ⟨o, rfl⟩ := hb.eq hM
    show (weld (corners ts)).1.Nodup
    rw [weld_fst]; exact nodup_eraseDups _
  refine ⟨hpts, ?_, ?_, ?_, ?_⟩
  · obtain ⟨o, rfl⟩ := hb.eq hM
    obtain ⟨o', rfl⟩ := hb'.eq hM'
    simp [meshOfO, weld_length, corners_length, reordered_length hr]
  · obtain ⟨o, rfl⟩ := hb.eq hM
    obtain ⟨o', rfl⟩ := hb'.eq hM'
    simp [meshOfO, facetsOf, weld_length, corners_length, reordered_length hr]
  · unfold ClosedOriented
    rw [(reordered_edges hr).nodup_iff]
    simp only [(reordered_edges hr).mem_iff]
  · obtain ⟨es, h1, h2, h3⟩ := C49_line_indices dbg M MU ts hM m hb hU
    obtain ⟨es', h1', h2', h3'⟩ := C49_line_indices dbg' M' MU ts' hM' m' hb' (hpts.length_eq ▸ hU)
    refine ⟨es, es', h1, h1', ?_⟩
    have key : ∀ (n : HalfedgeMesh V) (us : List (V × V × V)) (fs : List (Nat × Nat)), n.points.Nodup → fs.Pairwise lexLt →
        (∀ a b, (a, b) ∈ fs ↔ a ≤ b ∧ ∃ p q, n.points[a]? = some p ∧ n.points[b]? = some q ∧
          ((p, q) ∈ directedEdges us ∨ (q, p) ∈ directedEdges us)) →
        (fs.map fun e => s(n.points[e.1]?, n.points[e.2]?)).Nodup ∧
        ∀ x, x ∈ fs.map (fun e => s(n.points[e.1]?, n.points[e.2]?)) ↔ ∃ p q, x = s(some p, some q) ∧ p ∈ n.points ∧ q ∈ n.points ∧
          ((p, q) ∈ directedEdges us ∨ (q, p) ∈ directedEdges us) := by
      intro n us fs hn hl hm
      have hne : fs.Nodup := hl.imp fun {a b} hab => by
        rintro rfl
        simp [lexLt] at hab
      refine ⟨(List.nodup_map_iff_inj_on hne).2 ?_, ?_⟩
      · rintro ⟨a, b⟩ ha ⟨c, d⟩ hc he
        obtain ⟨hab, p, q, hp, hq, -⟩ := (hm a b).1 ha
        obtain ⟨hcd, p', q', hp', hq', -⟩ := (hm c d).1 hc
        have la := (List.getElem?_eq_some_iff.1 hp).1
        have lb := (List.getElem?_eq_some_iff.1 hq).1
        rcases Sym2.eq_iff.1 he with ⟨e1, e2⟩ | ⟨e1, e2⟩
        · have e1 := (List.getElem?_inj la hn).1 e1
          have e2 := (List.getElem?_inj lb hn).1 e2
          rw [e1, e2]
        · have e1 : a = d := (List.getElem?_inj la hn).1 e1
          have e2 : b = c := (List.getElem?_inj lb hn).1 e2
          have e3 : a = b := by omega
          rw [← e1, ← e2, e3]
      · intro x
        rw [List.mem_map]
        constructor
        · rintro ⟨⟨a, b⟩, hab, rfl⟩
          obtain ⟨-, p, q, hp, hq, h⟩ := (hm a b).1 hab
          exact ⟨p, q, by simp only [hp, hq], List.mem_of_getElem? hp, List.mem_of_getElem? hq, h⟩
        · rintro ⟨p, q, rfl, hp, hq, h⟩
          obtain ⟨a, ha⟩ := List.mem_iff_getElem?.1 hp
          obtain ⟨b, hb⟩ := List.mem_iff_getElem?.1 hq
          rcases le_total a b with hab | hab
          · exact ⟨(a, b), (hm a b).2 ⟨hab, p, q, ha, hb, h⟩, by simp only [ha, hb]⟩
          · exact ⟨(b, a), (hm b a).2 ⟨hab, q, p, hb, ha, h.symm⟩, by simp only [ha, hb]; exact Sym2.eq_swap⟩
    obtain ⟨n1, n2⟩ := key m ts es hnd h2 h3
    obtain ⟨n1', n2'⟩ := key m' ts' es' (hpts.nodup_iff.1 hnd) h2' h3'
    rw [List.perm_ext_iff_of_nodup n1 n1']
    intro x
    rw [n2, n2']
    simp only [hpts.mem_iff, (reordered_edges hr).mem_iff]

theorem volume_reordered (c : Fin 3 → ℝ) (ts ts' : List ((Fin 3 → ℝ) × (Fin 3 → ℝ) × (Fin 3 → ℝ))) (hr : Reordered ts ts') :
    volume c ts = volume c ts' := by
  obtain ⟨us, hp, ht⟩ := hr
  unfold volume
  rw [(hp.map _).sum_eq]
  clear hp
  induction ht with
  | nil => rfl
  | cons h _ ih =>
    rw [List.map_cons, List.map_cons, List.sum_cons, List.sum_cons, ih]
    congr 2
    rcases h with rfl | rfl | rfl
    · rfl
    · simp [Matrix.det_fin_three]; ring
    · simp [Matrix.det_fin_three]; ring

/-- **C110** The volume enclosed by the mesh, read with its accessors, does not depend on the order. -/
theorem C110_volume [BEq (Vec ℝ 3)] [LawfulBEq (Vec ℝ 3)] (dbg dbg' : Bool) (M M' : Nat) (ts ts' : List (Vec ℝ 3 × Vec ℝ 3 × Vec ℝ 3))
    (hr : Reordered ts ts') (hM : 3 * ts.length < M) (hM' : 3 * ts'.length < M') (m m' : HalfedgeMesh (Vec ℝ 3))
    (hb : BuiltFrom dbg M ts m) (hb' : BuiltFrom dbg' M' ts' m') (c : Fin 3 → ℝ) :
    ∃ us us', Reads m us ∧ Reads m' us' ∧ volume c us = volume c us' :=
  ⟨ts, ts', reads_of_built dbg M ts hM m hb, reads_of_built dbg' M' ts' hM' m' hb', volume_reordered c ts ts' hr⟩

/-- **C110** Over the reals the vertex normal at a point does not depend on the order either. -/
theorem C110_normals [BEq (Vec ℝ 3)] [LawfulBEq (Vec ℝ 3)] (dbg dbg' : Bool) (M M' : Nat) (ts ts' : List (Vec ℝ 3 × Vec ℝ 3 × Vec ℝ 3))
    (hr : Reordered ts ts') (hM : 3 * ts.length < M) (hM' : 3 * ts'.length < M') (m m' : HalfedgeMesh (Vec ℝ 3))
    (hb : BuiltFrom dbg M ts m) (hb' : BuiltFrom dbg' M' ts' m') (hnd : ∀ t ∈ ts, NonDegenerate t)
    (i i' : Nat) (hi : i < m.points.length) (hi' : i' < m'.points.length) (he : m.points[i] = m'.points[i']) :
    ∃ ns ns' v, calcVertexNormals m = .ok ns ∧ calcVertexNormals m' = .ok ns' ∧ ns[i]? = some v ∧ ns'[i']? = some v := by
  have hcyc : ∀ t : Vec ℝ 3 × Vec ℝ 3 × Vec ℝ 3, ∀ n, IsNormal t n → IsNormal (t.2.1, t.2.2, t.1) n := by
    intro t n ⟨h1, h2, h3, h4, h5⟩
    refine ⟨h1, h3, h4, h2, ?_⟩
    simp only [Matrix.det_fin_three, Matrix.of_apply, Matrix.cons_val', Matrix.cons_val_zero, Matrix.cons_val_one, Matrix.cons_val_two,
      Matrix.cons_val_fin_one, Matrix.head_cons, Matrix.tail_cons, Pi.sub_apply] at h5 ⊢
    linarith
  have hcyc' : ∀ t t' : Vec ℝ 3 × Vec ℝ 3 × Vec ℝ 3, Turned t t' → ∀ n, IsNormal t n ↔ IsNormal t' n := by
    intro t t' h n
    rcases h with rfl | rfl | rfl
    · rfl
    · exact ⟨hcyc t n, fun h => hcyc _ n (hcyc _ n h)⟩
    · exact ⟨fun h => hcyc _ n (hcyc _ n h), fun h => hcyc _ n h⟩
  have hdeg : ∀ t t' : Vec ℝ 3 × Vec ℝ 3 × Vec ℝ 3, Turned t t' → NonDegenerate t → NonDegenerate t' := by
    intro t t' h hn
    rw [nonDegenerate_iff] at hn ⊢
    convert hn using 1
    rcases h with rfl | rfl | rfl
    · rfl
    · funext i; fin_cases i <;> simp [cross, vsub] <;> ring
    · funext i; fin_cases i <;> simp [cross, vsub] <;> ring
  obtain ⟨hc, hc'⟩ := reordered_mem hr
  refine C52_split_independent dbg dbg' M M' ts ts' hM hM' m m' hb hb' hnd ?_ i i' hi hi' ?_
  · intro t' ht'
    obtain ⟨t, ht, h⟩ := hc' t' ht'
    exact hdeg t t' h (hnd t ht)
  · intro n
    rw [he]
    constructor
    · rintro ⟨t, ht, hp, hn⟩
      obtain ⟨t', ht', h⟩ := hc t ht
      exact ⟨t', ht', (corners_turned h).mem_iff.1 hp, (hcyc' t t' h n).1 hn⟩
    · rintro ⟨t', ht', hp, hn⟩
      obtain ⟨t, ht, h⟩ := hc' t' ht'
      exact ⟨t, ht, (corners_turned h).mem_iff.2 hp, (hcyc' t t' h n).2 hn⟩

section
variable {T : Type} [LinearOrder T] [Zero T] [Add T] [Sub T] [Mul T] [Div T] [HasSqrt T] [BEq (Vec T 3)] [LawfulBEq (Vec T 3)]

theorem stdUniqueFrom_sublist {α : Type*} [BEq α] : ∀ (last : α) (l : List α), (stdUniqueFrom last l).Sublist l
  | _, [] => List.Sublist.refl _
  | last, x :: xs => by
    unfold stdUniqueFrom
    split
    · exact (stdUniqueFrom_sublist last xs).cons _
    · exact (stdUniqueFrom_sublist x xs).cons_cons _

theorem stdUnique_sublist {α : Type*} [BEq α] : ∀ l : List α, (stdUnique l).Sublist l
  | [] => List.Sublist.refl _
  | x :: xs => (stdUniqueFrom_sublist x xs).cons_cons _

/-- Sorting and `std::unique` give a list that depends on the set of elements only. -/
theorem sorted_unique_eq {l l' : List (Vec T 3)} (h : ∀ y, y ∈ l ↔ y ∈ l') :
    stdUnique (l.mergeSort fun a b => !vecLexLt b a) = stdUnique (l'.mergeSort fun a b => !vecLexLt b a) := by
  obtain ⟨n1, m1⟩ := sorted_unique l
  obtain ⟨n2, m2⟩ := sorted_unique l'
  have hp : (stdUnique (l.mergeSort fun a b => !vecLexLt b a)).Perm (stdUnique (l'.mergeSort fun a b => !vecLexLt b a)) := by
    rw [List.perm_ext_iff_of_nodup n1 n2]
    intro y
    rw [m1, m2, h]
  have hs : ∀ k : List (Vec T 3), (stdUnique (k.mergeSort fun a b => !vecLexLt b a)).Pairwise fun a b => (!vecLexLt b a) = true := by
    intro k
    refine List.Pairwise.sublist (stdUnique_sublist _) (List.pairwise_mergeSort ?_ ?_ k)
    · intro a b c h1 h2
      rw [vecLexLe_iff] at *
      exact le_trans h1 h2
    · intro a b
      rw [Bool.or_eq_true, vecLexLe_iff, vecLexLe_iff]
      exact le_total _ _
  refine hp.eq_of_pairwise (le := fun a b => (!vecLexLt b a) = true) ?_ (hs l) (hs l')
  intro a b _ _ h1 h2
  rw [vecLexLe_iff] at h1 h2
  exact lexKey_injective (le_antisymm h1 h2)

/-- The normals that `calc_vertex_normals` adds up at `p`: those computed for the triangles with corner `p`. -/
theorem calcVertexNormals_gen (o : Nat → Nat) (ts : List (Vec T 3 × Vec T 3 × Vec T 3)) :
    ∃ ns, calcVertexNormals (meshOfO o (weld (corners ts)).1 (weld (corners ts)).2) = .ok ns ∧
      ∀ i (hi : i < (weld (corners ts)).1.length), ∃ l : List (Vec T 3),
        (∀ n, n ∈ l ↔ ∃ t ∈ ts, (weld (corners ts)).1[i] ∈ [t.1, t.2.1, t.2.2] ∧ n = normalize (normalOf t)) ∧
        ns[i]? = some (normalize ((stdUnique (l.mergeSort fun a b => !vecLexLt b a)).foldl vadd fun _ => 0)) := by
  have hl : (weld (corners ts)).2.length = 3 * ts.length := by rw [weld_length, corners_length]
  set mm := meshOfO o (weld (corners ts)).1 (weld (corners ts)).2 with hmm
  let L : Nat → List (Vec T 3) := fun i => (hesOf (weld (corners ts)).2 i).map fun k => normalize ((ts[k / 3]?.map normalOf).getD 0)
  have hlt : ∀ i, ∀ k ∈ hesOf (weld (corners ts)).2 i, k < (weld (corners ts)).2.length := fun i k hk =>
    (List.getElem?_eq_some_iff.1 ((mem_hesOf _ _ _).1 hk)).1
  have hg : ∀ v ∈ mm.vertices, calcVertexNormal mm v =
      .ok (normalize ((stdUnique ((L v.idx).mergeSort fun a b => !vecLexLt b a)).foldl vadd fun _ => 0)) := by
    intro v hv
    simp only [hmm, meshOfO, vertsOf, List.mem_map, List.mem_range] at hv
    obtain ⟨i, hi, rfl⟩ := hv
    unfold calcVertexNormal
    rw [calcVertexFacets_meshOfO _ _ _ _ hl i _ (hlt i), ok_bind]
    have := facetNormals_built o ts ((hesOf (weld (corners ts)).2 i).map (· / 3)) (by
      intro j hj
      obtain ⟨k, hk, rfl⟩ := List.mem_map.1 hj
      have := hlt i k hk
      omega)
    rw [List.map_map, List.map_map] at this
    rw [show ((hesOf (weld (corners ts)).2 i).map fun k => (⟨3 * (k / 3)⟩ : Facet))
      = (hesOf (weld (corners ts)).2 i).map ((fun j => (⟨3 * j⟩ : Facet)) ∘ fun x => x / 3) from rfl, this, ok_bind]
    rfl
  refine ⟨mm.vertices.map fun v => normalize ((stdUnique ((L v.idx).mergeSort fun a b => !vecLexLt b a)).foldl vadd fun _ => 0), ?_, ?_⟩
  · have := foldlM_push (calcVertexNormal mm) _ mm.vertices [] hg
    rw [List.nil_append] at this
    exact this
  · intro i hi
    refine ⟨L i, ?_, ?_⟩
    · intro n
      simp only [L, List.mem_map]
      constructor
      · rintro ⟨k, hk, rfl⟩
        have hk' := hlt i k hk
        have hj : k / 3 < ts.length := by omega
        refine ⟨ts[k / 3], List.getElem_mem hj, ?_, by rw [List.getElem?_eq_getElem hj]; rfl⟩
        have := (weld_getElem?_iff (corners ts) i k hi).1 ((mem_hesOf _ _ _).1 hk)
        rw [List.getElem?_eq_getElem hi, show k = 3 * (k / 3) + k % 3 by omega, corners_getElem? ts (k / 3) (k % 3) hj (by omega)] at this
        exact List.mem_of_getElem? this
      · rintro ⟨t, ht, hc, rfl⟩
        obtain ⟨j, hj, rfl⟩ := List.mem_iff_getElem.1 ht
        obtain ⟨d, hd, hdeq⟩ := List.mem_iff_getElem.1 hc
        have hd3 : d < 3 := by simpa using hd
        refine ⟨3 * j + d, ?_, ?_⟩
        · rw [mem_hesOf, weld_getElem?_iff (corners ts) i _ hi, corners_getElem? ts j d hj hd3, List.getElem?_eq_getElem hd, hdeq,
            List.getElem?_eq_getElem hi]
        · rw [show (3 * j + d) / 3 = j by omega, List.getElem?_eq_getElem hj]; rfl
    · rw [List.getElem?_map]
      have : mm.vertices[i]? = some ⟨i, hesOf (weld (corners ts)).2 i⟩ := by
        simp [hmm, meshOfO, vertsOf, hi]
      rw [this]; rfl

/-- **C110** In floating point too, adding the same triangles in another order (or some of them repeatedly) gives bitwise the same vertex normal at a
point: the facet normals are sorted and duplicates removed before they are added up.  No assumption is made about the arithmetic. -/
theorem C110_normals_bitwise (dbg dbg' : Bool) (M M' : Nat) (ts ts' : List (Vec T 3 × Vec T 3 × Vec T 3))
    (hr : ∀ t, t ∈ ts ↔ t ∈ ts') (hM : 3 * ts.length < M) (hM' : 3 * ts'.length < M') (m m' : HalfedgeMesh (Vec T 3))
    (hb : BuiltFrom dbg M ts m) (hb' : BuiltFrom dbg' M' ts' m')
    (i i' : Nat) (hi : i < m.points.length) (hi' : i' < m'.points.length) (he : m.points[i] = m'.points[i']) :
    ∃ ns ns' v, calcVertexNormals m = .ok ns ∧ calcVertexNormals m' = .ok ns' ∧ ns[i]? = some v ∧ ns'[i']? = some v := by
  obtain ⟨o, rfl⟩ := hb.eq hM
  obtain ⟨o', rfl⟩ := hb'.eq hM'
  obtain ⟨ns, h1, h2⟩ := calcVertexNormals_gen o ts
  obtain ⟨ns', h1', h2'⟩ := calcVertexNormals_gen o' ts'
  obtain ⟨l, h3, h4⟩ := h2 i hi
  obtain ⟨l', h3', h4'⟩ := h2' i' hi'
  refine ⟨ns, ns', _, h1, h1', h4, ?_⟩
  have he' : (weld (corners ts)).1[i]'hi = (weld (corners ts')).1[i']'hi' := he
  rw [h4', sorted_unique_eq (l := l') (l' := l) fun y => ?_]
  rw [h3, h3', he']
  simp only [hr]
end

end

section Examples
open Classical

theorem tetra_len : 3 * tetra.length < 2 ^ 64 := by simp [tetra, tetraIdx]

/-- C109 on the tetrahedron: there and back. -/
example : ∃ m l m' l', buildMesh true (2 ^ 64) 64 tetra = .ok m ∧ calcTriangleIndices (2 ^ 32) m = .ok l ∧ l.length = 12 ∧
    buildMesh true (2 ^ 64) 64 tetra = .ok m ∧ buildTriangleHalfedgeMesh true (2 ^ 64) 64 hmatIdentity m.points l = .ok m' ∧
    calcTriangleIndices (2 ^ 32) m' = .ok l' ∧ buildTriangleHalfedgeMesh true (2 ^ 64) 64 hmatIdentity m'.points l' = .ok m := by
  obtain ⟨m, hm, hb⟩ := C48_build_succeeds true (2 ^ 64) 64 tetra tetra_len
  obtain ⟨l, m', l', h1, h2, -, h3, h4⟩ := C109_buffer true (2 ^ 64) (2 ^ 32) 64 tetra (by simp [tetra, tetraIdx]) tetra_len m hm
    (by simp [tetra, tetraIdx])
  have hU : m.points.length ≤ 2 ^ 32 := by
    have h := (C43_vertices true _ tetra tetra_len m hb).1
    have := ((nodup_eraseDups (corners tetra)).subperm fun _ h => List.mem_eraseDups.1 h).length_le
    rw [← h, corners_length] at this
    simp [tetra, tetraIdx] at this
    omega
  obtain ⟨k, h5, -, h6⟩ := C109_rebuild true (2 ^ 64) (2 ^ 32) 64 tetra tetra_len m hm hU
  obtain ⟨k', h7, h8, h9⟩ := C109_export true (2 ^ 64) (2 ^ 32) tetra tetra_len m hb hU
  obtain rfl : k = l := Except.ok.inj (h5.symm.trans h1)
  obtain rfl : k' = k := Except.ok.inj (h7.symm.trans h1)
  exact ⟨m, k', m', l', hm, h1, by rw [h8]; simp [tetra, tetraIdx], h6 _ h9, h2, h3, h4⟩

/-- The triangles of the tetrahedron in another order, two of them starting at another corner. -/
def tetraAgain : List (Vec ℝ 3 × Vec ℝ 3 × Vec ℝ 3) := [(3, 1, 2), (0, 3, 2), (2, 1, 0), (0, 1, 3)].map (mapTriangle tetraPt)

theorem tetraAgain_reordered : Reordered tetra tetraAgain := by
  refine ⟨[(1, 2, 3), (0, 3, 2), (0, 2, 1), (0, 1, 3)].map (mapTriangle tetraPt), ?_, ?_⟩
  · exact List.Perm.map _ (by decide)
  · simp [tetraAgain, Turned, mapTriangle]

/-- C110 on the two: as many points, the same lines, the same volume. -/
example : ∃ m m' : HalfedgeMesh (Vec ℝ 3), BuiltFrom true (2 ^ 64) tetra m ∧ BuiltFrom false (2 ^ 64) tetraAgain m' ∧ m.points.Perm m'.points ∧
    ClosedOriented tetraAgain ∧ (∃ us us', Reads m us ∧ Reads m' us' ∧ volume 0 us = volume 0 us') := by
  have h' : 3 * tetraAgain.length < 2 ^ 64 := by simp [tetraAgain]
  obtain ⟨m, -, hb⟩ := C48_build_succeeds true (2 ^ 64) 64 tetra tetra_len
  obtain ⟨m', -, hb'⟩ := C48_build_succeeds false (2 ^ 64) 64 tetraAgain h'
  obtain ⟨h1, -, -, h2, -⟩ := C110_topology true false _ _ m.points.length tetra tetraAgain tetraAgain_reordered tetra_len h' m m' hb hb' le_rfl
  exact ⟨m, m', hb, hb', h1, h2.1 tetra_closed, C110_volume true false _ _ tetra tetraAgain tetraAgain_reordered tetra_len h' m m' hb hb' 0⟩

/-- And the same normal at every shared point. -/
example : ∃ m m' : HalfedgeMesh (Vec ℝ 3), BuiltFrom true (2 ^ 64) tetra m ∧ BuiltFrom false (2 ^ 64) tetraAgain m' ∧
    ∀ i < m.points.length, ∃ i' : Nat, ∃ ns ns', ∃ v : Vec ℝ 3, m'.points[i']? = m.points[i]? ∧ calcVertexNormals m = .ok ns ∧
      calcVertexNormals m' = .ok ns' ∧ ns[i]? = some v ∧ ns'[i']? = some v := by
  have h' : 3 * tetraAgain.length < 2 ^ 64 := by simp [tetraAgain]
  obtain ⟨m, -, hb⟩ := C48_build_succeeds true (2 ^ 64) 64 tetra tetra_len
  obtain ⟨m', -, hb'⟩ := C48_build_succeeds false (2 ^ 64) 64 tetraAgain h'
  refine ⟨m, m', hb, hb', fun i hi => ?_⟩
  obtain ⟨h1, -⟩ := C110_topology true false _ _ m.points.length tetra tetraAgain tetraAgain_reordered tetra_len h' m m' hb hb' le_rfl
  obtain ⟨i', hi', he⟩ := List.mem_iff_getElem.1 (h1.mem_iff.1 (List.getElem_mem hi))
  obtain ⟨ns, ns', v, h2⟩ := C110_normals true false _ _ tetra tetraAgain tetraAgain_reordered tetra_len h' m m' hb hb' tetra_nonDegenerate
    i i' hi hi' he.symm
  exact ⟨i', ns, ns', v, by rw [List.getElem?_eq_getElem hi, List.getElem?_eq_getElem hi', he], h2⟩

/-- C110 with the 53 digits of `double`: the two triangles of a square, added in either order. -/
example : ∃ m m' : HalfedgeMesh (Vec (Fl binary53) 3), ∃ ns ns', ∃ v : Vec (Fl binary53) 3,
    BuiltFrom true 64 [(0, fun _ => 1, ![1, 0, 0]), (0, ![0, 1, 0], fun _ => 1)] m ∧
    BuiltFrom true 64 [(0, ![0, 1, 0], fun _ => 1), (0, fun _ => 1, ![1, 0, 0])] m' ∧
    calcVertexNormals m = .ok ns ∧ calcVertexNormals m' = .ok ns' ∧ ns[0]? = some v ∧ ns'[0]? = some v := by
  have hA : ∀ ps : List (Vec (Fl binary53) 3), Apart ps := fun ps => apart_fl fun _ _ _ _ => binary53_resolved
  obtain ⟨m, -, hb⟩ := C48_build_succeeds true 64 64 [((0 : Vec (Fl binary53) 3), (fun _ => 1 : Vec (Fl binary53) 3), (![1, 0, 0] : Vec (Fl binary53) 3)),
    (0, ![0, 1, 0], fun _ => 1)] (by simp) (hA _)
  obtain ⟨m', -, hb'⟩ := C48_build_succeeds true 64 64 [((0 : Vec (Fl binary53) 3), (![0, 1, 0] : Vec (Fl binary53) 3), (fun _ => 1 : Vec (Fl binary53) 3)),
    (0, fun _ => 1, ![1, 0, 0])] (by simp) (hA _)
  have hp := (C43_vertices true _ _ (by simp) m hb).1
  have hp' := (C43_vertices true _ _ (by simp) m' hb').1
  simp only [corners, List.flatMap_cons, List.cons_append, List.eraseDups_cons] at hp hp'
  have h0 : 0 < m.points.length := by rw [hp]; simp
  have h0' : 0 < m'.points.length := by rw [hp']; simp
  obtain ⟨ns, ns', v, h⟩ := C110_normals_bitwise true true 64 64 _ _ (by simp [or_comm]) (by simp) (by simp) m m' hb hb' 0 0 h0 h0' (by simp [hp, hp'])
  exact ⟨m, m', ns, ns', v, hb, hb', h⟩
end Examples
end Verif
