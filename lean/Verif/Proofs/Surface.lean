import Mathlib.Data.List.Perm.Basic
import Verif.Props.MeshLines
import Verif.Props.MeshOpposite
import Verif.Proofs.Builder

set_option linter.unusedSectionVars false

/-
Closed oriented surfaces: how to show that a triangle list is one, and what follows for the mesh.
-/
namespace Verif
open Spec

section
variable {V W ι : Type}

/-- The directed edges of one triangle. -/
def triEdges (t : V × V × V) : List (V × V) := [(t.1, t.2.1), (t.2.1, t.2.2), (t.2.2, t.1)]

theorem directedEdges_eq (ts : List (V × V × V)) : directedEdges ts = ts.flatMap triEdges := rfl

theorem mem_directedEdges {ts : List (V × V × V)} {e : V × V} : e ∈ directedEdges ts ↔ ∃ t ∈ ts, e ∈ triEdges t := by
  rw [directedEdges_eq, List.mem_flatMap]

theorem triEdges_nodup {t : V × V × V} (h : t.1 ≠ t.2.1 ∧ t.2.1 ≠ t.2.2 ∧ t.2.2 ≠ t.1) : (triEdges t).Nodup := by
  obtain ⟨a, b, c⟩ := t
  simp only [triEdges, List.nodup_cons, List.mem_cons, Prod.mk.injEq, List.not_mem_nil]
  simp only at h
  tauto

/-- A family of triangles, numbered by `ids`, in which every directed edge determines its triangle and whose reverse edges
occur. -/
theorem closedOriented_of_ids (ids : List ι) (hn : ids.Nodup) (tri : ι → V × V × V)
    (hd : ∀ i ∈ ids, (tri i).1 ≠ (tri i).2.1 ∧ (tri i).2.1 ≠ (tri i).2.2 ∧ (tri i).2.2 ≠ (tri i).1)
    (hu : ∀ i ∈ ids, ∀ j ∈ ids, ∀ a b, (a, b) ∈ triEdges (tri i) → (a, b) ∈ triEdges (tri j) → i = j)
    (hr : ∀ i ∈ ids, ∀ a b, (a, b) ∈ triEdges (tri i) → ∃ j ∈ ids, (b, a) ∈ triEdges (tri j)) :
    ClosedOriented (ids.map tri) := by
  constructor
  · rw [directedEdges_eq, List.flatMap_map, List.nodup_flatMap]
    refine ⟨fun i hi => triEdges_nodup (hd i hi), ?_⟩
    refine (List.Pairwise.imp_of_mem ?_ hn)
    intro i j hi hj hij
    show List.Disjoint _ _
    rintro ⟨a, b⟩ ha hb
    exact hij (hu i hi j hj a b ha hb)
  · intro a b hab
    rw [mem_directedEdges] at hab ⊢
    obtain ⟨t, ht, he⟩ := hab
    obtain ⟨i, hi, rfl⟩ := List.mem_map.1 ht
    obtain ⟨j, hj, he'⟩ := hr i hi a b he
    exact ⟨tri j, List.mem_map.2 ⟨j, hj, rfl⟩, he'⟩

theorem directedEdges_reversed (ts : List (V × V × V)) :
    (directedEdges (ts.map reversed)).Perm ((directedEdges ts).map Prod.swap) := by
  induction ts with
  | nil => rfl
  | cons t ts ih =>
    rw [List.map_cons, directedEdges_eq, directedEdges_eq, List.flatMap_cons, List.flatMap_cons, List.map_append]
    refine List.Perm.append ?_ ih
    obtain ⟨a, b, c⟩ := t
    exact List.Perm.swap _ _ _

theorem _root_.Verif.Spec.ClosedOriented.reversed {ts : List (V × V × V)} (h : ClosedOriented ts) :
    ClosedOriented (ts.map reversed) := by
  have hp := directedEdges_reversed ts
  constructor
  · exact hp.nodup_iff.2 (h.1.map Prod.swap_injective)
  · intro a b hab
    have := hp.mem_iff.1 hab
    rw [List.mem_map] at this
    obtain ⟨⟨x, y⟩, hxy, he⟩ := this
    simp only [Prod.swap_prod_mk, Prod.mk.injEq] at he
    obtain ⟨rfl, rfl⟩ := he
    exact hp.mem_iff.2 (List.mem_map.2 ⟨(y, x), h.2 _ _ hxy, rfl⟩)

theorem corners_of_edge {ts : List (V × V × V)} {a b : V} (h : (a, b) ∈ directedEdges ts) :
    a ∈ corners ts ∧ b ∈ corners ts := by
  obtain ⟨t, ht, he⟩ := mem_directedEdges.1 h
  obtain ⟨x, y, z⟩ := t
  simp only [corners, List.mem_flatMap]
  refine ⟨⟨_, ht, ?_⟩, ⟨_, ht, ?_⟩⟩ <;> (simp [triEdges] at he ⊢; tauto)

theorem corners_map (f : V → W) (ts : List (V × V × V)) : corners (ts.map (mapTriangle f)) = (corners ts).map f := by
  induction ts with
  | nil => rfl
  | cons t ts ih =>
    rw [List.map_cons, show corners (t :: ts) = [t.1, t.2.1, t.2.2] ++ corners ts from rfl, List.map_append, ← ih]
    rfl

theorem mem_corners_reversed {ts : List (V × V × V)} {v : V} : v ∈ corners (ts.map reversed) ↔ v ∈ corners ts := by
  simp only [corners, List.mem_flatMap, List.mem_map]
  constructor
  · rintro ⟨t, ⟨s, hs, rfl⟩, h⟩
    exact ⟨s, hs, by simp [reversed] at h ⊢; tauto⟩
  · rintro ⟨t, ht, h⟩
    exact ⟨_, ⟨t, ht, rfl⟩, by simp [reversed] at h ⊢; tauto⟩

theorem _root_.Verif.Spec.ClosedOriented.mapOn {f : V → W} {ts : List (V × V × V)}
    (hf : ∀ a ∈ corners ts, ∀ b ∈ corners ts, f a = f b → a = b)
    (h : ClosedOriented ts) : ClosedOriented (ts.map (mapTriangle f)) := by
  unfold ClosedOriented
  rw [directedEdges_map]
  constructor
  · rw [List.nodup_map_iff_inj_on h.1]
    rintro ⟨a, b⟩ hab ⟨c, d⟩ hcd he
    simp only [Prod.map_apply, Prod.mk.injEq] at he
    obtain ⟨ha, hb⟩ := corners_of_edge hab
    obtain ⟨hc, hd⟩ := corners_of_edge hcd
    rw [hf _ ha _ hc he.1, hf _ hb _ hd he.2]
  · intro a b hab
    rw [List.mem_map] at hab ⊢
    obtain ⟨⟨x, y⟩, hxy, he⟩ := hab
    simp only [Prod.map_apply, Prod.mk.injEq] at he
    exact ⟨(y, x), h.2 x y hxy, by simp [he.1, he.2]⟩

/-- Half as many edges as directed edges. -/
theorem edge_count (D es : List (Nat × Nat)) (hD : D.Nodup) (hl : ∀ a b, (a, b) ∈ D → a ≠ b)
    (hs : ∀ a b, (a, b) ∈ D → (b, a) ∈ D) (hes : es.Nodup) (hm : ∀ a b, (a, b) ∈ es ↔ a ≤ b ∧ (a, b) ∈ D) :
    D.length = 2 * es.length := by
  have hp : D.Perm (es ++ es.map Prod.swap) := by
    rw [List.perm_ext_iff_of_nodup hD]
    · rintro ⟨a, b⟩
      rw [List.mem_append, hm, List.mem_map]
      constructor
      · intro h
        by_cases hab : a ≤ b
        · exact .inl ⟨hab, h⟩
        · exact .inr ⟨(b, a), (hm _ _).2 ⟨by omega, hs _ _ h⟩, rfl⟩
      · rintro (⟨_, h⟩ | ⟨⟨x, y⟩, hxy, he⟩)
        · exact h
        · simp only [Prod.swap_prod_mk, Prod.mk.injEq] at he
          obtain ⟨rfl, rfl⟩ := he
          exact hs _ _ ((hm _ _).1 hxy).2
    · rw [List.nodup_append']
      refine ⟨hes, hes.map Prod.swap_injective, ?_⟩
      rintro ⟨a, b⟩ h1 h2
      obtain ⟨⟨x, y⟩, hxy, he⟩ := List.mem_map.1 h2
      simp only [Prod.swap_prod_mk, Prod.mk.injEq] at he
      obtain ⟨rfl, rfl⟩ := he
      have h1 := (hm _ _).1 h1
      have h2 := (hm _ _).1 hxy
      have := hl _ _ h1.2
      omega
  rw [hp.length_eq]
  simp; omega

end

/-- Every half-edge is the only one with its start and end point, and there is one running the other way; no half-edge
starts where it ends. -/
def ClosedMesh {V : Type} (m : HalfedgeMesh V) : Prop :=
  ∀ h ∈ m.halfedges, ∃ a b, a ≠ b ∧ DirectedEdgeOf m h (a, b) ∧
    (∀ h' ∈ m.halfedges, DirectedEdgeOf m h' (a, b) → h' = h) ∧ ∃ h' ∈ m.halfedges, DirectedEdgeOf m h' (b, a)

section
variable {T : Type} [LinearOrder T] [Zero T] [Add T] [Sub T] [Mul T] [Neg T] [HasSqrt T] [StoredSound T 3]
variable [BEq (Vec T 3)] [LawfulBEq (Vec T 3)]

theorem closedMesh_of (dbg : Bool) (M w : Nat) (ts : List (Vec T 3 × Vec T 3 × Vec T 3)) (hM : 3 * ts.length < M)
    (hc : ClosedOriented ts) (hl : ∀ a b, (a, b) ∈ directedEdges ts → a ≠ b) (m : HalfedgeMesh (Vec T 3))
    (hm : buildMesh dbg M w ts = .ok m) (hts : Apart (corners ts) := by exact apart_real _) : ClosedMesh m := by
  rw [buildMesh_eq dbg M w ts hM hts, Except.ok.injEq] at hm
  subst hm
  generalize oppFinal ts (fun _ => M - 1) = o
  have hmem : ∀ h, h ∈ (tsMesh ts o).halfedges ↔ ∃ k < 3 * ts.length, heOfO o (weld (corners ts)).2 k = h := by
    intro h
    simp only [meshOfO, List.mem_map, List.mem_range, tsMesh_length]
  intro h hh
  obtain ⟨k, hk, rfl⟩ := (hmem h).1 hh
  obtain ⟨⟨a, b⟩, he⟩ : ∃ e, (directedEdges ts)[k]? = some e :=
    ⟨_, List.getElem?_eq_getElem (by rw [directedEdges_length]; exact hk)⟩
  refine ⟨a, b, hl _ _ (List.mem_of_getElem? he), (directedEdgeOf_get ts o hk).2 he, ?_, ?_⟩
  · intro h' hh' hd
    obtain ⟨j, hj, rfl⟩ := (hmem h').1 hh'
    rw [directedEdgeOf_get ts o hj] at hd
    have : j = k := by
      have h1 := (List.getElem?_eq_some_iff.1 hd)
      have h2 := (List.getElem?_eq_some_iff.1 he)
      exact (hc.1.getElem_inj_iff).1 (h1.2.trans h2.2.symm)
    rw [this]
  · obtain ⟨j, hj⟩ := List.mem_iff_getElem?.1 (hc.2 a b (List.mem_of_getElem? he))
    have hj' : j < 3 * ts.length := by
      rw [← directedEdges_length]; exact (List.getElem?_eq_some_iff.1 hj).1
    exact ⟨_, (hmem _).2 ⟨j, hj', rfl⟩, (directedEdgeOf_get ts o hj').2 hj⟩

/-- The number of lines of a closed mesh. -/
theorem line_count (dbg : Bool) (M MU : Nat) (ts : List (Vec T 3 × Vec T 3 × Vec T 3)) (hM : 3 * ts.length < M)
    (hc : ClosedOriented ts) (hl : ∀ a b, (a, b) ∈ directedEdges ts → a ≠ b) (m : HalfedgeMesh (Vec T 3))
    (hb : BuiltFrom dbg M ts m) (hU : m.points.length ≤ MU) :
    ∃ l, calcLineIndices dbg MU m = .ok l ∧ l.length = 3 * ts.length := by
  obtain ⟨es, he, hs, hm⟩ := C49_line_indices dbg M MU ts hM m hb hU
  obtain ⟨hpts, hnd, _⟩ := C43_vertices dbg M ts hM m hb
  refine ⟨_, he, ?_⟩
  have hfl : (es.flatMap fun e => [e.1, e.2]).length = 2 * es.length := by simp [List.length_flatMap]; omega
  rw [hfl, ← directedEdges_length]
  -- the directed edges by vertex number
  have hidx : ∀ v ∈ corners ts, m.points[m.points.idxOf v]? = some v := by
    intro v hv
    have : v ∈ m.points := by rw [hpts, List.mem_eraseDups]; exact hv
    rw [List.getElem?_eq_getElem (List.idxOf_lt_length_of_mem this), List.getElem_idxOf]
  set D := (directedEdges ts).map (Prod.map (m.points.idxOf ·) (m.points.idxOf ·)) with hD
  have hinj : ∀ v ∈ corners ts, ∀ u ∈ corners ts, m.points.idxOf v = m.points.idxOf u → v = u := by
    intro v hv u hu e
    have h1 := hidx v hv
    rw [e, hidx u hu] at h1
    exact (Option.some.inj h1).symm
  have hmemD : ∀ a b, (a, b) ∈ D ↔ ∃ p q, m.points[a]? = some p ∧ m.points[b]? = some q ∧ (p, q) ∈ directedEdges ts := by
    intro a b
    rw [hD, List.mem_map]
    constructor
    · rintro ⟨⟨p, q⟩, hpq, e⟩
      simp only [Prod.map_apply, Prod.mk.injEq] at e
      obtain ⟨rfl, rfl⟩ := e
      obtain ⟨hp, hq⟩ := corners_of_edge hpq
      exact ⟨p, q, hidx p hp, hidx q hq, hpq⟩
    · rintro ⟨p, q, hp, hq, hpq⟩
      refine ⟨(p, q), hpq, ?_⟩
      obtain ⟨hp', hq'⟩ := corners_of_edge hpq
      obtain ⟨ha, hp⟩ := List.getElem?_eq_some_iff.1 hp
      obtain ⟨hb', hq⟩ := List.getElem?_eq_some_iff.1 hq
      subst hp hq
      simp [hnd.idxOf_getElem]
  rw [← show D.length = (directedEdges ts).length by simp [hD]]
  refine (edge_count D es ?_ ?_ ?_ ?_ ?_).symm
  · rw [hD, List.nodup_map_iff_inj_on hc.1]
    rintro ⟨a, b⟩ hab ⟨c, d⟩ hcd e
    simp only [Prod.map_apply, Prod.mk.injEq] at e
    obtain ⟨ha, hb'⟩ := corners_of_edge hab
    obtain ⟨hc', hd⟩ := corners_of_edge hcd
    rw [hinj _ ha _ hc' e.1, hinj _ hb' _ hd e.2]
  · intro a b hab
    obtain ⟨p, q, hp, hq, hpq⟩ := (hmemD a b).1 hab
    rintro rfl
    rw [hp, Option.some.injEq] at hq
    exact hl p q hpq hq
  · intro a b hab
    obtain ⟨p, q, hp, hq, hpq⟩ := (hmemD a b).1 hab
    exact (hmemD b a).2 ⟨q, p, hq, hp, hc.2 _ _ hpq⟩
  · exact hs.imp fun {e f} h he => by
      subst he; obtain ⟨a, b⟩ := e; simp [lexLt] at h
  · intro a b
    rw [hm, hmemD]
    constructor
    · rintro ⟨hab, p, q, hp, hq, h | h⟩
      · exact ⟨hab, p, q, hp, hq, h⟩
      · exact ⟨hab, p, q, hp, hq, hc.2 _ _ h⟩
    · rintro ⟨hab, p, q, hp, hq, h⟩
      exact ⟨hab, p, q, hp, hq, .inl h⟩

/-- The vertices are the distinct corner points. -/
theorem points_perm (dbg : Bool) (M : Nat) (ts : List (Vec T 3 × Vec T 3 × Vec T 3)) (hM : 3 * ts.length < M)
    (m : HalfedgeMesh (Vec T 3)) (hb : BuiltFrom dbg M ts m) (ps : List (Vec T 3)) (hn : ps.Nodup)
    (hps : ∀ v, v ∈ ps ↔ v ∈ corners ts) : m.points.Perm ps := by
  obtain ⟨hpts, hnd, _⟩ := C43_vertices dbg M ts hM m hb
  rw [List.perm_ext_iff_of_nodup hnd hn]
  intro v
  rw [hpts, List.mem_eraseDups, hps]
end

theorem mem_corners_triples {idx : List Nat} (h3 : idx.length % 3 = 0) (i : Nat) : i ∈ corners (triples idx) ↔ i ∈ idx := by
  have : corners (triples idx) = idx := by
    clear i
    revert h3
    fun_induction triples idx with
    | case1 a b c rest ih =>
      intro h3
      simp only [List.length_cons] at h3
      rw [show corners ((a, b, c) :: triples rest) = [a, b, c] ++ corners (triples rest) from rfl, ih (by omega)]
      rfl
    | case2 l hl =>
      intro h3
      match l, hl, h3 with
      | [], _, _ => rfl
      | [_], _, h => simp at h
      | [_, _], _, h => simp at h
      | a :: b :: c :: rest, h, _ => exact absurd rfl (h a b c rest)
  rw [this]

section
variable {T : Type} [LinearOrder T] [Zero T] [One T] [Add T] [Sub T] [Mul T] [Neg T] [HasSqrt T] [StoredSound T 3]
variable [BEq (HMat T)] [BEq (Vec T 3)] [LawfulBEq (Vec T 3)]

theorem placedTriangles_eq (place : Vec T 3 → Vec T 3) (points : List (Vec T 3)) (idx : List Nat) :
    placedTriangles place points idx =
      ((triples idx).map reversed).map (mapTriangle fun i => place (points.getD i 0)) := by
  rw [placedTriangles, List.map_map]; rfl

theorem mem_corners_placed (place : Vec T 3 → Vec T 3) (points : List (Vec T 3)) (idx : List Nat) (h3 : idx.length % 3 = 0)
    (hi : ∀ i, i ∈ idx ↔ i < points.length) (v : Vec T 3) :
    v ∈ points.map place ↔ v ∈ corners (placedTriangles place points idx) := by
  have hget : ∀ i (h : i < points.length), points.getD i 0 = points[i] := by
    intro i h; simp [List.getElem?_eq_getElem h]
  rw [placedTriangles_eq, corners_map, List.mem_map, List.mem_map]
  constructor
  · rintro ⟨p, hp, rfl⟩
    obtain ⟨i, hi', rfl⟩ := List.mem_iff_getElem.1 hp
    exact ⟨i, by rw [mem_corners_reversed, mem_corners_triples h3, hi]; exact hi', by rw [hget i hi']⟩
  · rintro ⟨i, hi', rfl⟩
    rw [mem_corners_reversed, mem_corners_triples h3, hi] at hi'
    exact ⟨points[i], List.getElem_mem hi', by rw [hget i hi']⟩

/-- An index buffer that uses all points, whatever the points are. -/
theorem build_welds (dbg : Bool) (M w : Nat) (trafo : HMat T) (points : List (Vec T 3)) (idx : List Nat)
    (hM : idx.length < M) (h3 : idx.length % 3 = 0) (h0 : points ≠ []) (hi : ∀ i, i ∈ idx ↔ i < points.length)
    (hdom : Apart (points.map (placeOf trafo))) :
    ∃ m, buildTriangleHalfedgeMesh dbg M w trafo points idx = .ok m ∧
      buildMesh dbg M w (placedTriangles (placeOf trafo) points idx) = .ok m ∧
      BuiltFrom dbg M (placedTriangles (placeOf trafo) points idx) m ∧
      m.points.Nodup ∧ (∀ v, v ∈ m.points ↔ v ∈ points.map (placeOf trafo)) ∧
      m.vertices.length = m.points.length ∧ m.facets.length = idx.length / 3 ∧ m.halfedges.length = idx.length := by
  have hlen := placedTriangles_length (placeOf trafo) points idx
  have hM' : 3 * (placedTriangles (placeOf trafo) points idx).length < M := by omega
  have hmem := mem_corners_placed (placeOf trafo) points idx h3 hi
  have hts : Apart (corners (placedTriangles (placeOf trafo) points idx)) := hdom.subset fun v hv => (hmem v).2 hv
  obtain ⟨m, hm, hb⟩ := C48_build_succeeds dbg M w _ hM' hts
  obtain ⟨hpts, hnd, hv, _⟩ := C43_vertices dbg M _ hM' m hb
  refine ⟨m, ?_, hm, hb, hnd, ?_, ?_, ?_, ?_⟩
  · rw [build_ok_gen dbg M w trafo points idx hM h0 h3 (fun i h => (hi i).1 h)]; exact hm
  · intro v
    rw [hpts, List.mem_eraseDups, hmem]
  · have := congrArg List.length hv
    simpa using this
  · obtain ⟨o, rfl⟩ := hb.eq hM'
    simp [meshOfO, facetsOf, weld_length, corners_length, hlen]
  · obtain ⟨o, rfl⟩ := hb.eq hM'
    simp [meshOfO, weld_length, corners_length, hlen]; omega

/-- A closed index buffer over points that are pairwise different once placed, all of them used, gives a closed mesh. -/
theorem closed_build_gen (dbg : Bool) (M w : Nat) (trafo : HMat T) (points : List (Vec T 3)) (idx : List Nat)
    (hM : idx.length < M) (h3 : idx.length % 3 = 0) (h0 : points ≠ []) (hi : ∀ i, i ∈ idx ↔ i < points.length)
    (hc : ClosedOriented (triples idx)) (hl : ∀ a b, (a, b) ∈ directedEdges (triples idx) → a ≠ b)
    (hdom : Apart (points.map (placeOf trafo))) (hnd : (points.map (placeOf trafo)).Nodup)
    (m : HalfedgeMesh (Vec T 3)) (hm : buildTriangleHalfedgeMesh dbg M w trafo points idx = .ok m) :
    ClosedMesh m ∧ m.points.Perm (points.map (placeOf trafo)) ∧
      ∀ MU, points.length ≤ MU → ∃ l, calcLineIndices dbg MU m = .ok l ∧ l.length = idx.length := by
  obtain ⟨m', hm', hbm, hb, hpn, hpm, _⟩ := build_welds dbg M w trafo points idx hM h3 h0 hi hdom
  rw [hm, Except.ok.injEq] at hm'
  subst hm'
  set f : Nat → Vec T 3 := fun i => placeOf trafo (points.getD i 0) with hf
  have hbt : placedTriangles (placeOf trafo) points idx = ((triples idx).map reversed).map (mapTriangle f) :=
    placedTriangles_eq ..
  have hlen := placedTriangles_length (placeOf trafo) points idx
  have hM' : 3 * (placedTriangles (placeOf trafo) points idx).length < M := by omega
  have hmemc : ∀ i, i ∈ corners ((triples idx).map reversed) ↔ i < points.length := by
    intro i; rw [mem_corners_reversed, mem_corners_triples h3, hi]
  have hts : Apart (corners (placedTriangles (placeOf trafo) points idx)) :=
    hdom.subset fun v hv => (mem_corners_placed (placeOf trafo) points idx h3 hi v).2 hv
  have hfi : ∀ a ∈ corners ((triples idx).map reversed), ∀ b ∈ corners ((triples idx).map reversed), f a = f b → a = b := by
    intro a ha b hb' e
    rw [hmemc] at ha hb'
    have ha' : a < (points.map (placeOf trafo)).length := by simpa using ha
    have hb'' : b < (points.map (placeOf trafo)).length := by simpa using hb'
    refine (hnd.getElem_inj_iff (hi := ha') (hj := hb'')).1 ?_
    rw [List.getElem_map, List.getElem_map]
    simpa [hf, List.getElem?_eq_getElem ha, List.getElem?_eq_getElem hb'] using e
  have hcl : ClosedOriented (placedTriangles (placeOf trafo) points idx) := by
    rw [hbt]; exact hc.reversed.mapOn hfi
  have hloop : ∀ a b, (a, b) ∈ directedEdges (placedTriangles (placeOf trafo) points idx) → a ≠ b := by
    intro a b hab
    rw [hbt, directedEdges_map, List.mem_map] at hab
    obtain ⟨⟨x, y⟩, hxy, e⟩ := hab
    simp only [Prod.map_apply, Prod.mk.injEq] at e
    obtain ⟨rfl, rfl⟩ := e
    obtain ⟨hx, hy⟩ := corners_of_edge hxy
    intro e
    have e := hfi _ hx _ hy e
    have := (directedEdges_reversed _).mem_iff.1 hxy
    obtain ⟨⟨u, v⟩, huv, e'⟩ := List.mem_map.1 this
    simp only [Prod.swap_prod_mk, Prod.mk.injEq] at e'
    exact hl u v huv (by rw [e'.1, e'.2, e])
  have hperm : m.points.Perm (points.map (placeOf trafo)) := by
    rw [List.perm_ext_iff_of_nodup hpn hnd]; exact hpm
  have hplen : m.points.length = points.length := by rw [hperm.length_eq, List.length_map]
  refine ⟨closedMesh_of dbg M w _ hM' hcl hloop m hbm hts, hperm, ?_⟩
  intro MU hU
  obtain ⟨l, h1, h2⟩ := line_count dbg M MU _ hM' hcl hloop m hb (by omega)
  exact ⟨l, h1, by rw [h2, hlen]; omega⟩
end

section
variable [BEq (HMat ℝ)] [LawfulBEq (HMat ℝ)] [BEq (Vec ℝ 3)] [LawfulBEq (Vec ℝ 3)]

/-- A closed index buffer over pairwise different points, all of them used, gives a closed mesh. -/
theorem closed_build (dbg : Bool) (M w : Nat) (trafo : HMat ℝ) (points : List (Vec ℝ 3)) (idx : List Nat)
    (hM : idx.length < M) (h3 : idx.length % 3 = 0) (h0 : points ≠ []) (hi : ∀ i, i ∈ idx ↔ i < points.length)
    (hc : ClosedOriented (triples idx)) (hl : ∀ a b, (a, b) ∈ directedEdges (triples idx) → a ≠ b)
    (hnd : points.Nodup) (hinj : Function.Injective fun p => transformVec p trafo) :
    ∃ m, buildTriangleHalfedgeMesh dbg M w trafo points idx = .ok m ∧ ClosedMesh m ∧
      m.points.Perm (points.map fun p => transformVec p trafo) ∧
      m.vertices.length = points.length ∧ m.facets.length = idx.length / 3 ∧
      ∀ MU, points.length ≤ MU → ∃ l, calcLineIndices dbg MU m = .ok l ∧ l.length = idx.length := by
  have hpl : placeOf trafo = fun p => transformVec p trafo := funext (placeOf_eq trafo)
  have hn : (points.map (placeOf trafo)).Nodup := by rw [hpl]; exact hnd.map hinj
  obtain ⟨m, hm, _, _, _, _, hv, hf, _⟩ := build_welds dbg M w trafo points idx hM h3 h0 hi (apart_real _)
  obtain ⟨h1, h2, h4⟩ := closed_build_gen dbg M w trafo points idx hM h3 h0 hi hc hl (apart_real _) hn m hm
  rw [hpl] at h2
  exact ⟨m, hm, h1, h2, by rw [hv, h2.length_eq, List.length_map], hf, h4⟩
end
end Verif
