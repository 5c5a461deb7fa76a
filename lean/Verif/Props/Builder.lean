import Verif.Proofs.TolExample
import Verif.Proofs.Builder
import Verif.Proofs.MeshNormals

set_option linter.unusedSectionVars false

/-
C61: building from an index buffer.
-/
namespace Verif
open Spec

section
variable [BEq (HMat ℝ)] [LawfulBEq (HMat ℝ)] [BEq (Vec ℝ 3)] [LawfulBEq (Vec ℝ 3)]

theorem build_debug_pre {M w : Nat} {trafo : HMat ℝ} {points : List (Vec ℝ 3)} {idx : List Nat} {m : HalfedgeMesh (Vec ℝ 3)}
    (h : buildTriangleHalfedgeMesh true M w trafo points idx = .ok m) : points ≠ [] ∧ idx.length % 3 = 0 := by
  unfold buildTriangleHalfedgeMesh at h
  obtain ⟨h1, h⟩ := geoAssert_debug_ok h
  obtain ⟨h2, h⟩ := geoAssert_debug_ok h
  refine ⟨?_, by simpa using h2⟩
  rintro rfl
  simp at h1

theorem triples_all_iff (idx : List Nat) (P : Nat → Prop) :
    (∀ t ∈ triples idx, P t.1 ∧ P t.2.1 ∧ P t.2.2) ↔ ∀ k < 3 * (idx.length / 3), ∀ i, idx[k]? = some i → P i := by
  constructor
  · intro h k hk i hi
    have h0 : idx[3 * (k / 3)]? = some idx[3 * (k / 3)] := List.getElem?_eq_getElem (by omega)
    have h1 : idx[3 * (k / 3) + 1]? = some idx[3 * (k / 3) + 1] := List.getElem?_eq_getElem (by omega)
    have h2 : idx[3 * (k / 3) + 2]? = some idx[3 * (k / 3) + 2] := List.getElem?_eq_getElem (by omega)
    have ht : (triples idx)[k / 3]? = some (idx[3 * (k / 3)], idx[3 * (k / 3) + 1], idx[3 * (k / 3) + 2]) := by
      rw [triples_get, h0, h1, h2]; rfl
    obtain ⟨t1, t2, t3⟩ := h _ (List.mem_of_getElem? ht)
    rcases (by omega : k = 3 * (k / 3) ∨ k = 3 * (k / 3) + 1 ∨ k = 3 * (k / 3) + 2) with e | e | e
    · rw [e, h0, Option.some.injEq] at hi; rw [← hi]; exact t1
    · rw [e, h1, Option.some.injEq] at hi; rw [← hi]; exact t2
    · rw [e, h2, Option.some.injEq] at hi; rw [← hi]; exact t3
  · intro h t ht
    obtain ⟨k, hk⟩ := List.mem_iff_getElem?.1 ht
    have hlt : k < idx.length / 3 := by
      rw [← triples_length]; exact (List.getElem?_eq_some_iff.1 hk).1
    rw [triples_get] at hk
    have h0 : idx[3 * k]? = some idx[3 * k] := List.getElem?_eq_getElem (by omega)
    have h1 : idx[3 * k + 1]? = some idx[3 * k + 1] := List.getElem?_eq_getElem (by omega)
    have h2 : idx[3 * k + 2]? = some idx[3 * k + 2] := List.getElem?_eq_getElem (by omega)
    rw [h0, h1, h2] at hk
    obtain rfl : (idx[3 * k], idx[3 * k + 1], idx[3 * k + 2]) = t := by simpa using hk
    exact ⟨h _ (by omega) _ h0, h _ (by omega) _ h1, h _ (by omega) _ h2⟩

/-- **C61** In a debug build, building from an index buffer that fits the index type succeeds exactly when there is a
point, the number of indices is a multiple of three and every index is smaller than the number of points. -/
theorem C61_debug (M w : Nat) (trafo : HMat ℝ) (points : List (Vec ℝ 3)) (idx : List Nat) (hM : idx.length < M) :
    (∃ m, buildTriangleHalfedgeMesh true M w trafo points idx = .ok m) ↔
      points ≠ [] ∧ idx.length % 3 = 0 ∧ ∀ i ∈ idx, i < points.length := by
  constructor
  · intro ⟨m, hm⟩
    have hpre := build_debug_pre hm
    refine ⟨hpre.1, hpre.2, ?_⟩
    rcases build_cases true M w trafo points idx (by omega) (fun _ => hpre) with ⟨h, _⟩ | ⟨_, h⟩
    · have h := (triples_all_iff idx (· < points.length)).1 h
      intro i hi
      obtain ⟨k, hk⟩ := List.mem_iff_getElem?.1 hi
      have := (List.getElem?_eq_some_iff.1 hk).1
      exact h k (by omega) i hk
    · rw [hm] at h; simp at h
  · intro ⟨hp, h3, hi⟩
    obtain ⟨m, hm, _⟩ := C48_build_succeeds true M w (bufferTriangles trafo points idx)
      (by rw [bufferTriangles_length]; omega)
    exact ⟨m, by rw [build_ok true M w trafo points idx hM hp h3 hi]; exact hm⟩

theorem rounds_ok {V : Type} [BEq V] {dbg : Bool} {M : Nat} {f : Nat → Res (V × V × V)} : ∀ {N : Nat} {m : HalfedgeMesh V},
    (List.range N).foldlM (fun m k => f k >>= addTriangle dbg M m) HalfedgeMesh.empty = .ok m →
    ∃ ts, ts.length = N ∧ addTriangles dbg M ts = .ok m := by
  intro N
  induction N with
  | zero => intro m h; exact ⟨[], rfl, h⟩
  | succ N ih =>
    intro m h
    rw [List.range_succ, List.foldlM_append] at h
    obtain ⟨m', h', h⟩ := bind_ok h
    obtain ⟨ts, hl, hts⟩ := ih h'
    rw [List.foldlM_cons] at h
    obtain ⟨m'', h'', h⟩ := bind_ok h
    obtain ⟨t, _, ht⟩ := bind_ok h''
    refine ⟨ts ++ [t], by simp [hl], ?_⟩
    unfold addTriangles at *
    rw [List.foldlM_append, hts, ok_bind, List.foldlM_cons, ht, ok_bind]
    exact h

/-- **C61** Without assuming that the buffer fits the index type: a debug build succeeds exactly for a buffer as in `C61_debug` that is
shorter than the number of index values. -/
theorem C61_capacity (M w : Nat) (h0 : 0 < M) (trafo : HMat ℝ) (points : List (Vec ℝ 3)) (idx : List Nat) :
    (∃ m, buildTriangleHalfedgeMesh true M w trafo points idx = .ok m) ↔
      points ≠ [] ∧ idx.length % 3 = 0 ∧ (∀ i ∈ idx, i < points.length) ∧ idx.length < M := by
  constructor
  · intro ⟨m, hm⟩
    have hpre := build_debug_pre hm
    have hM : idx.length < M := by
      unfold buildTriangleHalfedgeMesh at hm
      obtain ⟨_, _, hm⟩ := bind_ok hm
      obtain ⟨_, _, hm⟩ := bind_ok hm
      obtain ⟨m', hm', _⟩ := bind_ok hm
      have hr : builderRound true M trafo points idx = fun m k => roundTriangle trafo points idx k >>= addTriangle true M m := by
        funext m k; exact builderRound_eq ..
      rw [hr] at hm'
      obtain ⟨ts, hl, hts⟩ := rounds_ok hm'
      have := (C42_capacity_exact M h0 ts).1 ⟨_, hts⟩
      have := hpre.2
      omega
    obtain ⟨h1, h2, h3⟩ := (C61_debug M w trafo points idx hM).1 ⟨m, hm⟩
    exact ⟨h1, h2, h3, hM⟩
  · intro ⟨h1, h2, h3, hM⟩
    exact (C61_debug M w trafo points idx hM).2 ⟨h1, h2, h3⟩

/-- **C61** In a release build (no assertions) it succeeds exactly when every index of a complete triple is in range, and
otherwise reads outside the point array; nothing else can go wrong. -/
theorem C61_release (M w : Nat) (trafo : HMat ℝ) (points : List (Vec ℝ 3)) (idx : List Nat) (hM : idx.length < M) :
    ((∃ m, buildTriangleHalfedgeMesh false M w trafo points idx = .ok m) ↔
      ∀ k < 3 * (idx.length / 3), ∀ i, idx[k]? = some i → i < points.length) ∧
    ((¬ ∀ k < 3 * (idx.length / 3), ∀ i, idx[k]? = some i → i < points.length) →
      buildTriangleHalfedgeMesh false M w trafo points idx = .error .outOfRange) := by
  have hiff := triples_all_iff idx (· < points.length)
  rcases build_cases false M w trafo points idx (by omega) (by simp) with ⟨h, he⟩ | ⟨h, he⟩
  · obtain ⟨m, hm, _⟩ := C48_build_succeeds false M w (bufferTriangles trafo points idx)
      (by rw [bufferTriangles_length]; omega)
    exact ⟨⟨fun _ => hiff.1 h, fun _ => ⟨m, by rw [he]; exact hm⟩⟩, fun hn => absurd (hiff.1 h) hn⟩
  · refine ⟨⟨fun ⟨m, hm⟩ => ?_, fun hn => absurd (hiff.2 hn) h⟩, fun _ => he⟩
    rw [he] at hm; simp at hm

/-- **C61** A mesh that was built has one facet per index triple; its corners are, in this order, the transformed third,
second and first point of the triple. -/
theorem C61_facets (dbg : Bool) (M w : Nat) (trafo : HMat ℝ) (points : List (Vec ℝ 3)) (idx : List Nat)
    (hM : idx.length < M) (m : HalfedgeMesh (Vec ℝ 3)) (hm : buildTriangleHalfedgeMesh dbg M w trafo points idx = .ok m) :
    m.facets.length = idx.length / 3 ∧
    ∀ k a b c, idx[3 * k]? = some a → idx[3 * k + 1]? = some b → idx[3 * k + 2]? = some c →
      ∃ f h0 h1 h2 p q r, vecGet m.facets k = .ok f ∧ calcHalfedges m f = .ok [h0, h1, h2] ∧
        points[a]? = some p ∧ points[b]? = some q ∧ points[c]? = some r ∧
        m.heVector h0 = .ok (transformVec r trafo) ∧ m.heVector h1 = .ok (transformVec q trafo) ∧
        m.heVector h2 = .ok (transformVec p trafo) := by
  rcases build_cases dbg M w trafo points idx (by omega) (by rintro rfl; exact build_debug_pre hm) with ⟨hi, he⟩ | ⟨_, he⟩
  swap
  · rw [he] at hm; simp at hm
  rw [he] at hm
  have hl := bufferTriangles_length trafo points idx
  have hM' : 3 * (bufferTriangles trafo points idx).length < M := by omega
  obtain ⟨m', hm', hb⟩ := C48_build_succeeds dbg M w (bufferTriangles trafo points idx) hM'
  rw [hm, Except.ok.injEq] at hm'
  subst hm'
  have hfl : m.facets.length = idx.length / 3 := by
    obtain ⟨o, rfl⟩ := hb.eq hM'
    simp [meshOfO, facetsOf, weld_length, corners_length, hl]
  refine ⟨hfl, ?_⟩
  intro k a b c ha hb' hc
  have hk : k < idx.length / 3 := by
    have := (List.getElem?_eq_some_iff.1 hc).1
    omega
  have ht : (triples idx)[k]? = some (a, b, c) := by rw [triples_get, ha, hb', hc]; rfl
  obtain ⟨hpa, hpb, hpc⟩ := hi _ (List.mem_of_getElem? ht)
  dsimp only at hpa hpb hpc
  obtain ⟨f, hes, hf, hh, hidx, hmem⟩ := C45_facet_loop dbg M _ hM' m hb k (by omega)
  obtain ⟨h0, h1, h2, rfl⟩ : ∃ h0 h1 h2, hes = [h0, h1, h2] := by
    have := congrArg List.length hidx
    match hes, this with
    | [h0, h1, h2], _ => exact ⟨h0, h1, h2, rfl⟩
  simp only [List.map_cons, List.map_nil, List.cons.injEq, and_true] at hidx
  have hcor : ∀ h ∈ [h0, h1, h2], m.heVector h = .ok ((corners (bufferTriangles trafo points idx)).getD h.idx 0) := by
    intro h hh'
    obtain ⟨j, hj⟩ := List.mem_iff_getElem?.1 (((hmem h).1 hh').1)
    have hj' : j < (corners (bufferTriangles trafo points idx)).length := by
      have := (List.getElem?_eq_some_iff.1 hj).1
      rw [corners_length]
      obtain ⟨o, e⟩ := hb.eq hM'
      rw [e] at this
      simpa [meshOfO, weld_length, corners_length] using this
    obtain ⟨h', hh1, hh2, hh3⟩ := (C43_vertices dbg M _ hM' m hb).2.2.2 j hj'
    rw [vecGet_of_getElem? hj, Except.ok.injEq] at hh1
    subst hh1
    rw [hh3, hh2, List.getD_eq_getElem?_getD, List.getElem?_eq_getElem hj']
    rfl
  have hbt : (bufferTriangles trafo points idx)[k]? = some (transformVec points[c] trafo, transformVec points[b] trafo,
      transformVec points[a] trafo) := by
    rw [bufferTriangles, List.getElem?_map, ht]
    simp [mapTriangle, reversed, List.getElem?_eq_getElem hpa, List.getElem?_eq_getElem hpb,
      List.getElem?_eq_getElem hpc]
  obtain ⟨hbk, hbt⟩ := List.getElem?_eq_some_iff.1 hbt
  have hc0 := corners_getElem? (bufferTriangles trafo points idx) k 0 hbk (by decide)
  have hc1 := corners_getElem? (bufferTriangles trafo points idx) k 1 hbk (by decide)
  have hc2 := corners_getElem? (bufferTriangles trafo points idx) k 2 hbk (by decide)
  rw [hbt] at hc0 hc1 hc2
  refine ⟨f, h0, h1, h2, points[a], points[b], points[c], hf, hh, List.getElem?_eq_getElem hpa,
    List.getElem?_eq_getElem hpb, List.getElem?_eq_getElem hpc, ?_, ?_, ?_⟩
  · rw [hcor h0 (by simp), hidx.1, List.getD_eq_getElem?_getD, show 3 * k = 3 * k + 0 from rfl, hc0]; rfl
  · rw [hcor h1 (by simp), hidx.2.1, List.getD_eq_getElem?_getD, hc1]; rfl
  · rw [hcor h2 (by simp), hidx.2.2, List.getD_eq_getElem?_getD, hc2]; rfl
end

section Examples
/-- A square of two triangles. -/
def exSquare : List (Vec ℝ 3) := [vec3 0 0 0, vec3 1 0 0, vec3 1 1 0, vec3 0 1 0]

example : ∃ m, buildTriangleHalfedgeMesh true 256 8 hmatIdentity exSquare
    [0, 1, 2, 0, 2, 3] = .ok m ∧ m.facets.length = 2 := by
  obtain ⟨m, hm⟩ := (C61_debug 256 8 hmatIdentity exSquare [0, 1, 2, 0, 2, 3] (by decide)).2
    ⟨by simp [exSquare], by decide, by simp [exSquare]⟩
  exact ⟨m, hm, (C61_facets true 256 8 _ _ _ (by decide) m hm).1⟩

example : buildTriangleHalfedgeMesh false 256 8 hmatIdentity exSquare
    [0, 1, 2, 0, 2, 4] = .error .outOfRange := by
  refine (C61_release 256 8 hmatIdentity exSquare [0, 1, 2, 0, 2, 4] (by decide)).2 fun h => ?_
  exact absurd (h 5 (by decide) 4 rfl) (by simp [exSquare])

example : ¬ ∃ m, buildTriangleHalfedgeMesh true 4 8 hmatIdentity exSquare [0, 1, 2, 0, 2, 3] = .ok m := by
  rw [C61_capacity 4 8 (by decide)]
  simp
example : ∃ m, buildTriangleHalfedgeMesh true 7 8 hmatIdentity exSquare [0, 1, 2, 0, 2, 3] = .ok m :=
  (C61_capacity 7 8 (by decide) _ _ _).2 ⟨by simp [exSquare], by decide, by simp [exSquare], by decide⟩
end Examples

end Verif
