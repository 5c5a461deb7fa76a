import Verif.Model.MeshBuilder
import Verif.Spec.Builder
import Verif.Proofs.Transform
import Verif.Props.MeshOpposite

set_option linter.unusedSectionVars false

/-
Building a mesh from an index buffer: closed form.
-/
namespace Verif
open Spec

section Triples
variable {α β : Type}

theorem triples_map (f : α → β) : ∀ l : List α, triples (l.map f) = (triples l).map (mapTriangle f)
  | [] => rfl
  | [_] => rfl
  | [_, _] => rfl
  | a :: b :: c :: rest => by simp [triples, mapTriangle, triples_map f rest]

theorem triples_length : ∀ l : List α, (triples l).length = l.length / 3
  | [] => by simp [triples]
  | [_] => by simp [triples]
  | [_, _] => by simp [triples]
  | a :: b :: c :: rest => by simp [triples, triples_length rest]; omega

theorem triples_get : ∀ (l : List α) (k : Nat), (triples l)[k]? = (do
    let a ← l[3 * k]?; let b ← l[3 * k + 1]?; let c ← l[3 * k + 2]?; some (a, b, c))
  | [], k => by simp [triples]
  | [_], 0 => by simp [triples]
  | [_], k + 1 => by simp [triples, show 3 * (k + 1) = 3 * k + 3 by ring]
  | [_, _], 0 => by simp [triples]
  | [_, _], k + 1 => by simp [triples, show 3 * (k + 1) = 3 * k + 3 by ring]
  | a :: b :: c :: rest, 0 => by simp [triples]
  | a :: b :: c :: rest, k + 1 => by
    simp [triples, show 3 * (k + 1) = 3 * k + 3 by ring, triples_get rest k]

theorem triples_append_three (a b c : α) (l : List α) : triples ([a, b, c] ++ l) = (a, b, c) :: triples l := rfl

theorem triples_append : ∀ (l r : List α), l.length % 3 = 0 → triples (l ++ r) = triples l ++ triples r
  | [], r, _ => rfl
  | [_], r, h => by simp at h
  | [_, _], r, h => by simp at h
  | a :: b :: c :: rest, r, h => by
    simp only [List.length_cons] at h
    simp [triples, triples_append rest r (by omega)]

theorem triples_flatMap {ι : Type} (l : List ι) (f : ι → α × α × α) :
    triples (l.flatMap fun i => [(f i).1, (f i).2.1, (f i).2.2]) = l.map f := by
  induction l with
  | nil => rfl
  | cons i l ih => simp [List.flatMap_cons, triples, ih]

end Triples

section
variable {T : Type}

/-- One round, as a triangle to add. -/
def roundTriangle [Zero T] [One T] [Add T] [Mul T] [BEq (HMat T)] (trafo : HMat T) (points : List (Vec T 3))
    (idx : List Nat) (k : Nat) : Res (Vec T 3 × Vec T 3 × Vec T 3) := do
  let i0 ← vecGet idx (3 * k + 2)
  let p0 ← builderPoint trafo points i0
  let i1 ← vecGet idx (3 * k + 1)
  let p1 ← builderPoint trafo points i1
  let i2 ← vecGet idx (3 * k)
  let p2 ← builderPoint trafo points i2
  .ok (p0, p1, p2)

theorem res_bind_assoc {α β γ : Type} (r : Res α) (f : α → Res β) (g : β → Res γ) :
    ((r >>= f) >>= g) = r >>= fun a => f a >>= g := by cases r <;> rfl

theorem builderRound_eq [Zero T] [One T] [Add T] [Mul T] [BEq (HMat T)] [BEq (Vec T 3)] (dbg : Bool) (M : Nat)
    (trafo : HMat T) (points : List (Vec T 3)) (idx : List Nat) (m : HalfedgeMesh (Vec T 3)) (k : Nat) :
    builderRound dbg M trafo points idx m k = roundTriangle trafo points idx k >>= addTriangle dbg M m := by
  unfold builderRound roundTriangle
  simp only [res_bind_assoc, ok_bind]
  rfl
end

theorem vecGet_none {α : Type} {l : List α} {i : Nat} (h : l.length ≤ i) : vecGet l i = .error .outOfRange := by
  unfold vecGet
  rw [List.getElem?_eq_none h]

section
variable {T : Type} [Zero T] [One T] [Add T] [Mul T] [BEq (HMat T)]

/-- The point the builder makes of `p`. -/
def placeOf (trafo : HMat T) (p : Vec T 3) : Vec T 3 := if trafo != hmatIdentity then transformVec p trafo else p

theorem builderPoint_place (trafo : HMat T) (points : List (Vec T 3)) (i : Nat) :
    builderPoint trafo points i = (vecGet points i).map (placeOf trafo) := by
  unfold builderPoint placeOf
  cases hp : vecGet points i with
  | error e => rfl
  | ok p =>
    rw [ok_bind]
    show _ = Except.ok _
    by_cases h : trafo != hmatIdentity
    · rw [if_pos h]
      simp only [h, if_true]
      have : hvec4 (p 0) (p 1) (p 2) 1 = toHvec p := by
        funext j; fin_cases j <;> rfl
      rw [this]
      congr 1
      funext j
      fin_cases j <;> rfl
    · rw [if_neg h]
      simp only [h]
      rfl

theorem builderPoint_cases (trafo : HMat T) (points : List (Vec T 3)) (i : Nat) :
    (∃ p, points[i]? = some p ∧ builderPoint trafo points i = .ok (placeOf trafo p)) ∨
    (points.length ≤ i ∧ builderPoint trafo points i = .error .outOfRange) := by
  by_cases h : i < points.length
  · refine .inl ⟨_, List.getElem?_eq_getElem h, ?_⟩
    rw [builderPoint_place, vecGet_of_getElem? (List.getElem?_eq_getElem h)]; rfl
  · exact .inr ⟨by omega, by rw [builderPoint_place, vecGet_none (by omega)]; rfl⟩

/-- A round either yields the reversed triple of points or reads out of range. -/
theorem roundTriangle_cases (trafo : HMat T) (points : List (Vec T 3)) (idx : List Nat) (k : Nat)
    (hk : k < idx.length / 3) :
    ∃ a b c, (triples idx)[k]? = some (a, b, c) ∧
    ((∃ p q r, points[a]? = some p ∧ points[b]? = some q ∧ points[c]? = some r ∧
      roundTriangle trafo points idx k = .ok (placeOf trafo r, placeOf trafo q, placeOf trafo p)) ∨
    ((points.length ≤ a ∨ points.length ≤ b ∨ points.length ≤ c) ∧
      roundTriangle trafo points idx k = .error .outOfRange)) := by
  have h0 : idx[3 * k]? = some idx[3 * k] := List.getElem?_eq_getElem (by omega)
  have h1 : idx[3 * k + 1]? = some idx[3 * k + 1] := List.getElem?_eq_getElem (by omega)
  have h2 : idx[3 * k + 2]? = some idx[3 * k + 2] := List.getElem?_eq_getElem (by omega)
  generalize idx[3 * k] = a at h0
  generalize idx[3 * k + 1] = b at h1
  generalize idx[3 * k + 2] = c at h2
  refine ⟨a, b, c, by rw [triples_get, h0, h1, h2]; rfl, ?_⟩
  unfold roundTriangle
  rw [vecGet_of_getElem? h0, vecGet_of_getElem? h1, vecGet_of_getElem? h2]
  simp only [ok_bind]
  rcases builderPoint_cases trafo points c with ⟨r, hr, er⟩ | ⟨hr, er⟩
  · rw [er, ok_bind]
    rcases builderPoint_cases trafo points b with ⟨q, hq, eq⟩ | ⟨hq, eq⟩
    · rw [eq, ok_bind]
      rcases builderPoint_cases trafo points a with ⟨p, hp, ep⟩ | ⟨hp, ep⟩
      · rw [ep, ok_bind]
        exact .inl ⟨p, q, r, hp, hq, hr, rfl⟩
      · rw [ep, error_bind]; exact .inr ⟨.inl hp, rfl⟩
    · rw [eq, error_bind]; exact .inr ⟨.inr (.inl hq), rfl⟩
  · rw [er, error_bind]; exact .inr ⟨.inr (.inr hr), rfl⟩
end

theorem transformVec_identity {K : Type} [Field K] (v : Vec K 3) : transformVec v hmatIdentity = v := by
  funext i
  rw [transformVec_apply]
  fin_cases i <;> simp [hmatIdentity]

theorem placeOf_eq {K : Type} [Field K] [BEq (HMat K)] [LawfulBEq (HMat K)] (trafo : HMat K) (p : Vec K 3) :
    placeOf trafo p = transformVec p trafo := by
  unfold placeOf
  by_cases h : trafo = hmatIdentity
  · subst h
    rw [if_neg (by simp), transformVec_identity]
  · rw [if_pos (by simpa using h)]

/-- Adding triangles that are computed one at a time. -/
theorem foldlM_rounds {V : Type} [BEq V] (dbg : Bool) (M : Nat) (f : Nat → Res (V × V × V)) (N : Nat) (hM : 3 * N < M)
    (hf : ∀ k < N, (∃ t, f k = .ok t) ∨ f k = .error .outOfRange) :
    (∃ ts, ts.length = N ∧ (∀ k < N, ∃ t, ts[k]? = some t ∧ f k = .ok t) ∧
      (List.range N).foldlM (fun m k => f k >>= addTriangle dbg M m) HalfedgeMesh.empty = addTriangles dbg M ts) ∨
    ((∃ k < N, f k = .error .outOfRange) ∧
      (List.range N).foldlM (fun m k => f k >>= addTriangle dbg M m) HalfedgeMesh.empty = .error .outOfRange) := by
  induction N with
  | zero => exact .inl ⟨[], rfl, by simp, rfl⟩
  | succ N ih =>
    rw [List.range_succ, List.foldlM_append]
    rcases ih (by omega) (fun k hk => hf k (by omega)) with ⟨ts, hl, hts, he⟩ | ⟨⟨k, hk, hk'⟩, he⟩
    · rw [he]
      rcases hf N (by omega) with ⟨t, ht⟩ | ht
      · refine .inl ⟨ts ++ [t], by simp [hl], ?_, ?_⟩
        · intro k hk
          by_cases h : k < N
          · obtain ⟨t', h1, h2⟩ := hts k h
            exact ⟨t', by rw [List.getElem?_append_left (by omega)]; exact h1, h2⟩
          · obtain rfl : k = N := by omega
            exact ⟨t, by simp [← hl], ht⟩
        · unfold addTriangles
          rw [List.foldlM_append]
          congr 1
          funext m
          simp [ht, ok_bind]
      · refine .inr ⟨⟨N, by omega, ht⟩, ?_⟩
        rw [addTriangles_eq dbg M ts (by omega), ok_bind]
        simp [ht, error_bind]
    · exact .inr ⟨⟨k, by omega, hk'⟩, by rw [he, error_bind]⟩

section
variable {T : Type} [LinearOrder T] [Zero T] [One T] [Add T] [Sub T] [Mul T] [Neg T] [HasSqrt T] [BEq (HMat T)] [BEq (Vec T 3)]

/-- The triangles built from an index buffer whose indices are in range, if `place` is what the builder makes of a point. -/
def placedTriangles (place : Vec T 3 → Vec T 3) (points : List (Vec T 3)) (idx : List Nat) :
    List (Vec T 3 × Vec T 3 × Vec T 3) :=
  (triples idx).map fun t => mapTriangle (fun i => place (points.getD i 0)) (reversed t)

theorem placedTriangles_length (place : Vec T 3 → Vec T 3) (points : List (Vec T 3)) (idx : List Nat) :
    (placedTriangles place points idx).length = idx.length / 3 := by simp [placedTriangles, triples_length]

theorem build_cases_gen (dbg : Bool) (M w : Nat) (trafo : HMat T) (points : List (Vec T 3)) (idx : List Nat)
    (hM : 3 * (idx.length / 3) < M) (hd : dbg = true → points ≠ [] ∧ idx.length % 3 = 0) :
    ((∀ t ∈ triples idx, t.1 < points.length ∧ t.2.1 < points.length ∧ t.2.2 < points.length) ∧
      buildTriangleHalfedgeMesh dbg M w trafo points idx = buildMesh dbg M w (placedTriangles (placeOf trafo) points idx)) ∨
    ((¬ ∀ t ∈ triples idx, t.1 < points.length ∧ t.2.1 < points.length ∧ t.2.2 < points.length) ∧
      buildTriangleHalfedgeMesh dbg M w trafo points idx = .error .outOfRange) := by
  unfold buildTriangleHalfedgeMesh
  have ha : (geoAssert dbg (decide (points.length > 0)) : Res PUnit) = .ok ⟨⟩ := by
    cases dbg
    · rfl
    · have := (hd rfl).1
      rw [decide_eq_true (by cases points <;> simp_all)]; rfl
  have hb : (geoAssert dbg (idx.length % 3 == 0) : Res PUnit) = .ok ⟨⟩ := by
    cases dbg
    · rfl
    · rw [(hd rfl).2]; rfl
  rw [ha, hb]
  simp only [ok_bind]
  have hr : builderRound dbg M trafo points idx = fun m k => roundTriangle trafo points idx k >>= addTriangle dbg M m := by
    funext m k; exact builderRound_eq ..
  rw [hr]
  rcases foldlM_rounds dbg M (roundTriangle trafo points idx) (idx.length / 3) hM (by
    intro k hk
    obtain ⟨a, b, c, _, ⟨p, q, r, _, _, _, h⟩ | ⟨_, h⟩⟩ := roundTriangle_cases trafo points idx k hk
    · exact .inl ⟨_, h⟩
    · exact .inr h) with ⟨ts, hl, hts, he⟩ | ⟨⟨k, hk, hk'⟩, he⟩
  · left
    have key : ∀ k < idx.length / 3, ∃ t, (triples idx)[k]? = some t ∧
        (t.1 < points.length ∧ t.2.1 < points.length ∧ t.2.2 < points.length) ∧
        ts[k]? = some (mapTriangle (fun i => placeOf trafo (points.getD i 0)) (reversed t)) := by
      intro k hk
      obtain ⟨t, ht, hrt⟩ := hts k hk
      obtain ⟨a, b, c, habc, ⟨p, q, r, hp, hq, hr, h⟩ | ⟨_, h⟩⟩ := roundTriangle_cases trafo points idx k hk
      · refine ⟨_, habc, ⟨(List.getElem?_eq_some_iff.1 hp).1, (List.getElem?_eq_some_iff.1 hq).1,
          (List.getElem?_eq_some_iff.1 hr).1⟩, ?_⟩
        rw [hrt, Except.ok.injEq] at h
        rw [ht, h]
        simp [mapTriangle, reversed, List.getD_eq_getElem?_getD, hp, hq, hr]
      · rw [hrt] at h; simp at h
    constructor
    · intro t ht
      obtain ⟨k, hk⟩ := List.mem_iff_getElem?.1 ht
      have hlt : k < idx.length / 3 := by
        rw [← triples_length]; exact (List.getElem?_eq_some_iff.1 hk).1
      obtain ⟨t', ht', h, _⟩ := key k hlt
      rw [hk, Option.some.injEq] at ht'
      rw [ht']; exact h
    · rw [he]
      have : ts = placedTriangles (placeOf trafo) points idx := by
        apply List.ext_getElem?
        intro k
        by_cases hk : k < idx.length / 3
        · obtain ⟨t', ht', _, h⟩ := key k hk
          rw [h, placedTriangles, List.getElem?_map, ht']; rfl
        · rw [List.getElem?_eq_none (by omega), List.getElem?_eq_none (by rw [placedTriangles_length]; omega)]
      rw [this]; rfl
  · right
    constructor
    · intro hall
      obtain ⟨a, b, c, habc, ⟨p, q, r, _, _, _, h⟩ | ⟨h, _⟩⟩ := roundTriangle_cases trafo points idx k hk
      · rw [hk'] at h; simp at h
      · have := hall _ (List.mem_of_getElem? habc)
        simp only at this
        omega
    · rw [he, error_bind]

theorem build_ok_gen (dbg : Bool) (M w : Nat) (trafo : HMat T) (points : List (Vec T 3)) (idx : List Nat)
    (hM : idx.length < M) (hp : points ≠ []) (h3 : idx.length % 3 = 0) (hi : ∀ i ∈ idx, i < points.length) :
    buildTriangleHalfedgeMesh dbg M w trafo points idx = buildMesh dbg M w (placedTriangles (placeOf trafo) points idx) := by
  rcases build_cases_gen dbg M w trafo points idx (by omega) (fun _ => ⟨hp, h3⟩) with ⟨_, h⟩ | ⟨h, _⟩
  · exact h
  · exfalso; apply h
    intro t ht
    obtain ⟨k, hk⟩ := List.mem_iff_getElem?.1 ht
    rw [triples_get] at hk
    cases h0 : idx[3 * k]? <;> cases h1 : idx[3 * k + 1]? <;> cases h2 : idx[3 * k + 2]? <;> rw [h0, h1, h2] at hk <;>
      simp at hk
    subst hk
    exact ⟨hi _ (List.mem_of_getElem? h0), hi _ (List.mem_of_getElem? h1), hi _ (List.mem_of_getElem? h2)⟩
end

section
variable [BEq (HMat ℝ)] [LawfulBEq (HMat ℝ)] [BEq (Vec ℝ 3)] [LawfulBEq (Vec ℝ 3)]

/-- The triangles built from an index buffer whose indices are in range. -/
def bufferTriangles (trafo : HMat ℝ) (points : List (Vec ℝ 3)) (idx : List Nat) : List (Vec ℝ 3 × Vec ℝ 3 × Vec ℝ 3) :=
  (triples idx).map fun t => mapTriangle (fun i => transformVec (points.getD i 0) trafo) (reversed t)

theorem bufferTriangles_length (trafo : HMat ℝ) (points : List (Vec ℝ 3)) (idx : List Nat) :
    (bufferTriangles trafo points idx).length = idx.length / 3 := by simp [bufferTriangles, triples_length]

theorem placedTriangles_real (trafo : HMat ℝ) (points : List (Vec ℝ 3)) (idx : List Nat) :
    placedTriangles (placeOf trafo) points idx = bufferTriangles trafo points idx := by
  unfold placedTriangles bufferTriangles
  simp only [placeOf_eq]

theorem build_cases (dbg : Bool) (M w : Nat) (trafo : HMat ℝ) (points : List (Vec ℝ 3)) (idx : List Nat)
    (hM : 3 * (idx.length / 3) < M) (hd : dbg = true → points ≠ [] ∧ idx.length % 3 = 0) :
    ((∀ t ∈ triples idx, t.1 < points.length ∧ t.2.1 < points.length ∧ t.2.2 < points.length) ∧
      buildTriangleHalfedgeMesh dbg M w trafo points idx = buildMesh dbg M w (bufferTriangles trafo points idx)) ∨
    ((¬ ∀ t ∈ triples idx, t.1 < points.length ∧ t.2.1 < points.length ∧ t.2.2 < points.length) ∧
      buildTriangleHalfedgeMesh dbg M w trafo points idx = .error .outOfRange) := by
  rw [← placedTriangles_real]
  exact build_cases_gen dbg M w trafo points idx hM hd

theorem build_ok (dbg : Bool) (M w : Nat) (trafo : HMat ℝ) (points : List (Vec ℝ 3)) (idx : List Nat)
    (hM : idx.length < M) (hp : points ≠ []) (h3 : idx.length % 3 = 0) (hi : ∀ i ∈ idx, i < points.length) :
    buildTriangleHalfedgeMesh dbg M w trafo points idx = buildMesh dbg M w (bufferTriangles trafo points idx) := by
  rw [← placedTriangles_real]
  exact build_ok_gen dbg M w trafo points idx hM hp h3 hi
end
end Verif
