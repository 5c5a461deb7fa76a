import Verif.Props.NormalsNear

set_option linter.unusedSectionVars false

/-
Planes of triangles and the normals of placed meshes.
-/
namespace Verif
open Spec Matrix Real

/-- The triangle lies in a plane with unit normal `l`, oriented that way. -/
def PlaneOf (t : Vec ℝ 3 × Vec ℝ 3 × Vec ℝ 3) (l : Vec ℝ 3) : Prop :=
  l ⬝ᵥ l = 1 ∧ ∃ κ d : ℝ, 0 < κ ∧ ∀ v, side t v = κ * (l ⬝ᵥ v - d)

theorem PlaneOf.nonDegenerate {t : Vec ℝ 3 × Vec ℝ 3 × Vec ℝ 3} {l : Vec ℝ 3} (h : PlaneOf t l) : NonDegenerate t := by
  obtain ⟨hl, κ, d, hκ, h⟩ := h
  apply nonDegenerate_of_side (c := (d - 1) • l)
  rw [h, dotProduct_smul, hl, smul_eq_mul, mul_one]
  exact mul_neg_of_pos_of_neg hκ (by linarith)

theorem norm_of_dp {n : Vec ℝ 3} (h : n ⬝ᵥ n = 1) : Spec.norm n = 1 := by
  rw [spec_norm_eq, length_eq, h, Real.sqrt_one]

theorem PlaneOf.isNormal {t : Vec ℝ 3 × Vec ℝ 3 × Vec ℝ 3} {l : Vec ℝ 3} (h : PlaneOf t l) (n : Vec ℝ 3) : IsNormal t n ↔ n = l := by
  have hnd := h.nonDegenerate
  have key : ∀ n, IsNormal t n → n = l := by
    intro n hn
    obtain ⟨hl, κ, d, hκ, h⟩ := h
    obtain ⟨κ', hκ', hs⟩ := isNormal_side hnd hn
    have h1 : ∀ v, n ⬝ᵥ v = (κ' * κ) * (l ⬝ᵥ v) := by
      intro v
      have a := hs v t.1 (by simp)
      have b := hs 0 t.1 (by simp)
      rw [h, dotProduct_sub] at a
      rw [h, dotProduct_sub, dotProduct_zero, dotProduct_zero] at b
      linarith
    have h2 : n = (κ' * κ) • l := by
      funext j
      have := h1 (Pi.single j 1)
      simpa using this
    have h3 := dp_unit hn.1
    rw [h2, smul_dotProduct, dotProduct_smul, hl] at h3
    simp only [smul_eq_mul, mul_one] at h3
    have h4 : κ' * κ = 1 := by
      have := mul_pos hκ' hκ
      nlinarith
    rw [h2, h4, one_smul]
  refine ⟨key n, ?_⟩
  rintro rfl
  have := (isNormal_iff hnd (normalOf t)).2 rfl
  rwa [key _ this] at this

theorem orth_dp {A : Matrix (Fin 3) (Fin 3) ℝ} (hA : Orthogonal A) (u v : Vec ℝ 3) : (A *ᵥ u) ⬝ᵥ (A *ᵥ v) = u ⬝ᵥ v := by
  rw [dotProduct_mulVec, vecMul_mulVec, hA, vecMul_one]

theorem affine_surj {A : Matrix (Fin 3) (Fin 3) ℝ} (hA : Orthogonal A) (b x : Vec ℝ 3) : ∃ v, x = affine A b v := by
  refine ⟨Aᵀ *ᵥ (x - b), ?_⟩
  rw [affine, mulVec_mulVec, mul_eq_one_comm.1 hA, one_mulVec, sub_add_cancel]

theorem affine_injective {A : Matrix (Fin 3) (Fin 3) ℝ} (hA : Orthogonal A) (b : Vec ℝ 3) : Function.Injective (affine A b) := by
  intro u v h
  have := congrArg (Aᵀ *ᵥ ·) (add_right_cancel h : A *ᵥ u = A *ᵥ v)
  simp only [mulVec_mulVec] at this
  rwa [hA, one_mulVec, one_mulVec] at this

theorem PlaneOf.placed {t : Vec ℝ 3 × Vec ℝ 3 × Vec ℝ 3} {l : Vec ℝ 3} (h : PlaneOf t l) {A : Matrix (Fin 3) (Fin 3) ℝ}
    (hA : Orthogonal A) (hdet : A.det = 1) (b : Vec ℝ 3) : PlaneOf (mapTriangle (affine A b) t) (A *ᵥ l) := by
  obtain ⟨hl, κ, d, hκ, h⟩ := h
  refine ⟨by rw [orth_dp hA, hl], κ, d + (A *ᵥ l) ⬝ᵥ b, hκ, fun x => ?_⟩
  obtain ⟨v, rfl⟩ := affine_surj hA b x
  rw [side_affine, hdet, one_mul, h, affine, dotProduct_add, orth_dp hA]
  ring

section
variable [BEq (HMat ℝ)] [LawfulBEq (HMat ℝ)] [BEq (Vec ℝ 3)] [LawfulBEq (Vec ℝ 3)]

/-- The triangles of a placed index mesh. -/
theorem built_placed (dbg : Bool) (M w : Nat) (trafo : HMat ℝ) (A : Matrix (Fin 3) (Fin 3) ℝ) (b : Vec ℝ 3)
    (htr : ∀ p, transformVec p trafo = affine A b p) (points : List (Vec ℝ 3)) (idx : List Nat) (hM : idx.length < M)
    (m : HalfedgeMesh (Vec ℝ 3)) (hm : buildTriangleHalfedgeMesh dbg M w trafo points idx = .ok m) :
    3 * (((triples idx).map fun t => mapTriangle (fun i => points.getD i 0) (reversed t)).map (mapTriangle (affine A b))).length < M ∧
    BuiltFrom dbg M (((triples idx).map fun t => mapTriangle (fun i => points.getD i 0) (reversed t)).map (mapTriangle (affine A b))) m := by
  rcases build_cases dbg M w trafo points idx (by omega) (by rintro rfl; exact build_debug_pre hm) with ⟨hi, he⟩ | ⟨_, he⟩
  swap
  · rw [he] at hm; simp at hm
  rw [he] at hm
  have hl := bufferTriangles_length trafo points idx
  have hM' : 3 * (bufferTriangles trafo points idx).length < M := by omega
  obtain ⟨m', hm', hb⟩ := C48_build_succeeds dbg M w (bufferTriangles trafo points idx) hM'
  rw [hm, Except.ok.injEq] at hm'
  subst hm'
  have e : bufferTriangles trafo points idx =
      ((triples idx).map fun t => mapTriangle (fun i => points.getD i 0) (reversed t)).map (mapTriangle (affine A b)) := by
    rw [bufferTriangles, List.map_map]
    apply List.map_congr_left
    intro t _
    simp only [mapTriangle, htr, Function.comp]
  rw [← e]
  exact ⟨hM', hb⟩

/-- Facet normals of a mesh built from placed triangles with known planes. -/
theorem facet_normals_placed (dbg : Bool) (M : Nat) (us : List (Vec ℝ 3 × Vec ℝ 3 × Vec ℝ 3)) {A : Matrix (Fin 3) (Fin 3) ℝ}
    (hA : Orthogonal A) (hdet : A.det = 1) (b : Vec ℝ 3) (hM : 3 * (us.map (mapTriangle (affine A b))).length < M)
    (m : HalfedgeMesh (Vec ℝ 3)) (hb : BuiltFrom dbg M (us.map (mapTriangle (affine A b))) m) (hpl : ∀ t ∈ us, ∃ l, PlaneOf t l) :
    ∀ f ∈ m.facets, ∃ t ∈ us, ∃ l, PlaneOf t l ∧ calcFacetNormal m f = .ok (A *ᵥ l) ∧ ∃ h0 h1 h2, calcHalfedges m f = .ok [h0, h1, h2] ∧
      m.heVector h0 = .ok (affine A b t.1) ∧ m.heVector h1 = .ok (affine A b t.2.1) ∧ m.heVector h2 = .ok (affine A b t.2.2) := by
  intro f hf
  obtain ⟨k, hk⟩ := List.mem_iff_getElem?.1 hf
  have hfl : m.facets.length = (us.map (mapTriangle (affine A b))).length := by
    obtain ⟨o, rfl⟩ := hb.eq hM
    simp [meshOfO, facetsOf, weld_length, corners_length]
  have hkt : k < (us.map (mapTriangle (affine A b))).length := by rw [← hfl]; exact (List.getElem?_eq_some_iff.1 hk).1
  have hku : k < us.length := by simpa using hkt
  obtain ⟨l, hl⟩ := hpl _ (List.getElem_mem hku)
  have hl' := hl.placed hA hdet b
  have hgt : (us.map (mapTriangle (affine A b)))[k] = mapTriangle (affine A b) us[k] := by simp
  obtain ⟨f', hf', h0, h1, h2, e, e0, e1, e2⟩ := facet_corners_get dbg M _ hM m hb k hkt
  obtain ⟨f'', n, hf'', hn, hN⟩ := C51_facet_normal dbg M _ hM m hb k hkt (by rw [hgt]; exact hl'.nonDegenerate)
  rw [vecGet_of_getElem? hk] at hf' hf''
  obtain rfl := Except.ok.inj hf'
  obtain rfl := Except.ok.inj hf''
  rw [hgt] at hN e0 e1 e2
  rw [hl'.isNormal] at hN
  subst hN
  exact ⟨us[k], List.getElem_mem hku, l, hl, hn, h0, h1, h2, e, e0, e1, e2⟩

/-- Vertex normals of a mesh built from placed triangles with known planes. -/
theorem vertex_normals_placed (dbg : Bool) (M : Nat) (us : List (Vec ℝ 3 × Vec ℝ 3 × Vec ℝ 3)) {A : Matrix (Fin 3) (Fin 3) ℝ}
    (hA : Orthogonal A) (hdet : A.det = 1) (b : Vec ℝ 3) (hM : 3 * (us.map (mapTriangle (affine A b))).length < M)
    (m : HalfedgeMesh (Vec ℝ 3)) (hb : BuiltFrom dbg M (us.map (mapTriangle (affine A b))) m) (hpl : ∀ t ∈ us, ∃ l, PlaneOf t l) :
    ∃ ns, calcVertexNormals m = .ok ns ∧ ns.length = m.points.length ∧
      ∀ i (hi : i < m.points.length), ∃ v ∈ corners us, m.points[i] = affine A b v ∧ ∃ S : Finset (Vec ℝ 3),
        (∀ n, n ∈ S ↔ ∃ t ∈ us, v ∈ [t.1, t.2.1, t.2.2] ∧ PlaneOf t n) ∧
        (∑ n ∈ S, n ≠ 0 → ∃ ν, ns[i]? = some ν ∧ IsUnitAlong (A *ᵥ ∑ n ∈ S, n) ν) := by
  have hnd : ∀ t ∈ us.map (mapTriangle (affine A b)), NonDegenerate t := by
    intro t ht
    obtain ⟨u, hu, rfl⟩ := List.mem_map.1 ht
    obtain ⟨l, hl⟩ := hpl u hu
    exact (hl.placed hA hdet b).nonDegenerate
  obtain ⟨ns, h1, h2, h3⟩ := C52_vertex_normals dbg M _ hM m hb hnd
  refine ⟨ns, h1, h2, fun i hi => ?_⟩
  obtain ⟨S, hS, hv⟩ := h3 i hi
  have hp : m.points[i] ∈ corners (us.map (mapTriangle (affine A b))) := by
    rw [← List.mem_eraseDups, ← (C43_vertices dbg M _ hM m hb).1]
    exact List.getElem_mem hi
  obtain ⟨t, ht, hc⟩ := List.mem_flatMap.1 hp
  obtain ⟨u, hu, rfl⟩ := List.mem_map.1 ht
  have hex : ∃ v ∈ [u.1, u.2.1, u.2.2], m.points[i] = affine A b v := by
    simp only [mapTriangle, List.mem_cons, List.not_mem_nil, or_false] at hc
    rcases hc with h | h | h
    · exact ⟨_, by simp, h⟩
    · exact ⟨_, by simp, h⟩
    · exact ⟨_, by simp, h⟩
  obtain ⟨v, hvu, e⟩ := hex
  classical
  have hmem : ∀ t : Vec ℝ 3 × Vec ℝ 3 × Vec ℝ 3, m.points[i] ∈ [(mapTriangle (affine A b) t).1, (mapTriangle (affine A b) t).2.1,
      (mapTriangle (affine A b) t).2.2] ↔ v ∈ [t.1, t.2.1, t.2.2] := by
    intro t
    rw [e]
    simp only [mapTriangle, List.mem_cons, List.not_mem_nil, or_false, (affine_injective hA b).eq_iff]
  have hA' : A * Aᵀ = 1 := mul_eq_one_comm.1 hA
  have hinv : ∀ x : Vec ℝ 3, Aᵀ *ᵥ (A *ᵥ x) = x := fun x => by rw [mulVec_mulVec, hA, one_mulVec]
  have hinv' : ∀ x : Vec ℝ 3, A *ᵥ (Aᵀ *ᵥ x) = x := fun x => by rw [mulVec_mulVec, hA', one_mulVec]
  have hsum : A *ᵥ (∑ n ∈ S.image (Aᵀ *ᵥ ·), n) = ∑ n ∈ S, n := by
    rw [Finset.sum_image (fun x _ y _ h => by rw [← hinv' x, ← hinv' y]; exact congrArg (A *ᵥ ·) h), mulVec_sum]
    exact Finset.sum_congr rfl fun x _ => hinv' x
  refine ⟨v, List.mem_flatMap.2 ⟨u, hu, hvu⟩, e, S.image (Aᵀ *ᵥ ·), ?_, ?_⟩
  · intro n
    rw [Finset.mem_image]
    constructor
    · rintro ⟨x, hx, rfl⟩
      obtain ⟨t, ht, hi', hN⟩ := (hS x).1 hx
      obtain ⟨u', hu', rfl⟩ := List.mem_map.1 ht
      obtain ⟨l, hl⟩ := hpl u' hu'
      rw [(hl.placed hA hdet b).isNormal] at hN
      subst hN
      rw [hinv]
      exact ⟨u', hu', (hmem u').1 hi', hl⟩
    · rintro ⟨t, ht, hvt, hl⟩
      refine ⟨A *ᵥ n, (hS _).2 ⟨_, List.mem_map.2 ⟨t, ht, rfl⟩, (hmem t).2 hvt, ((hl.placed hA hdet b).isNormal _).2 rfl⟩, hinv n⟩
  · intro h
    obtain ⟨ν, g1, g2⟩ := hv (by
      intro h0
      rw [h0] at hsum
      apply h
      rw [← hinv (∑ n ∈ S.image (Aᵀ *ᵥ ·), n), hsum, mulVec_zero])
    exact ⟨ν, g1, by rw [hsum]; exact g2⟩
end
end Verif
