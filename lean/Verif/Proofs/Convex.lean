import Verif.Spec.Convex
import Verif.Props.SphereMesh
import Verif.Props.CuboidMesh

set_option linter.unusedSectionVars false

/-
Sides of triangles, chords of circles.
-/
namespace Verif
open Spec Matrix Real

theorem side_eq (p q r v : Vec ℝ 3) : side (p, q, r) v =
    (q 0 - p 0) * ((r 1 - p 1) * (v 2 - p 2) - (r 2 - p 2) * (v 1 - p 1)) -
    (q 1 - p 1) * ((r 0 - p 0) * (v 2 - p 2) - (r 2 - p 2) * (v 0 - p 0)) +
    (q 2 - p 2) * ((r 0 - p 0) * (v 1 - p 1) - (r 1 - p 1) * (v 0 - p 0)) := by
  unfold side
  rw [det_fin_three]
  simp
  ring

theorem side_affine (A : Matrix (Fin 3) (Fin 3) ℝ) (b : Vec ℝ 3) (t : Vec ℝ 3 × Vec ℝ 3 × Vec ℝ 3) (v : Vec ℝ 3) :
    side (mapTriangle (affine A b) t) (affine A b v) = A.det * side t v := by
  obtain ⟨p, q, r⟩ := t
  have e : ∀ x y, affine A b x - affine A b y = A *ᵥ (x - y) := by
    intro x y; unfold affine; rw [mulVec_sub]; abel
  unfold side mapTriangle
  dsimp only
  rw [e, e, e, show Matrix.of ![A *ᵥ (q - p), A *ᵥ (r - p), A *ᵥ (v - p)] = Matrix.of ![q - p, r - p, v - p] * Aᵀ by
    ext i j
    rw [mul_apply]
    fin_cases i <;> simp [mulVec, dotProduct, mul_comm]]
  rw [det_mul, det_transpose, mul_comm]

theorem side_add (p q r v o : Vec ℝ 3) : side (p + o, q + o, r + o) (v + o) = side (p, q, r) v := by
  unfold side; simp

/-- `sin (m u) sin ((m - 1) u)` with `u = π / N` is not negative for integers `m`. -/
theorem sin_mul_sin_nonneg {N : ℕ} (hN : 0 < N) (m : ℤ) : 0 ≤ sin (m * (π / N)) * sin ((m - 1) * (π / N)) := by
  have hN' : (0 : ℝ) < N := by exact_mod_cast hN
  have hpi := Real.pi_pos
  obtain ⟨q, k, hk0, hk, rfl⟩ : ∃ q k : ℤ, 0 ≤ k ∧ k < N ∧ m = k + q * N :=
    ⟨m / N, m % N, Int.emod_nonneg _ (by omega), Int.emod_lt_of_pos _ (by omega), by rw [mul_comm]; exact (Int.emod_add_mul_ediv m N).symm⟩
  have e1 : ((k + q * N : ℤ) : ℝ) * (π / N) = k * (π / N) + q * π := by push_cast; field_simp
  have e2 : (((k + q * N : ℤ) : ℝ) - 1) * (π / N) = (k - 1) * (π / N) + q * π := by push_cast; field_simp; ring
  rw [e1, e2, Real.sin_add_int_mul_pi, Real.sin_add_int_mul_pi]
  have hs : ((-1 : ℝ) ^ q) * ((-1 : ℝ) ^ q) = 1 := by
    rcases Int.even_or_odd q with h | h
    · rw [h.neg_one_zpow]; norm_num
    · rw [h.neg_one_zpow]; norm_num
  rw [show (-1 : ℝ) ^ q * sin (k * (π / N)) * ((-1 : ℝ) ^ q * sin ((k - 1) * (π / N))) =
    ((-1 : ℝ) ^ q * (-1 : ℝ) ^ q) * (sin (k * (π / N)) * sin ((k - 1) * (π / N))) by ring, hs, one_mul]
  have hkR : (k : ℝ) ≤ N := by exact_mod_cast hk.le
  rcases (by omega : k = 0 ∨ 1 ≤ k) with rfl | h1
  · simp
  · have h1R : (1 : ℝ) ≤ k := by exact_mod_cast h1
    have hu : 0 ≤ π / N := by positivity
    have hNu : (N : ℝ) * (π / N) = π := by field_simp
    apply mul_nonneg
    · apply Real.sin_nonneg_of_nonneg_of_le_pi
      · positivity
      · nlinarith
    · apply Real.sin_nonneg_of_nonneg_of_le_pi
      · exact mul_nonneg (by linarith) hu
      · nlinarith

/-- Twice the area of a triangle with corners on the unit circle. -/
theorem chord_cross (a u x : ℝ) :
    (cos (2 * a + 2 * u) - cos (2 * a)) * (sin (2 * a + 2 * x) - sin (2 * a)) -
      (sin (2 * a + 2 * u) - sin (2 * a)) * (cos (2 * a + 2 * x) - cos (2 * a)) = 4 * sin u * sin x * sin (x - u) := by
  have hc : ∀ y, cos (2 * y) = 1 - 2 * sin y ^ 2 := by
    intro y; rw [Real.cos_two_mul]; linear_combination 2 * Real.sin_sq_add_cos_sq y
  have h1 := Real.sin_sq_add_cos_sq (2 * a)
  simp only [Real.cos_add, Real.sin_add (2 * a), Real.sin_sub x u]
  rw [hc u, hc x, Real.sin_two_mul u, Real.sin_two_mul x]
  generalize sin (2 * a) = S at *
  generalize cos (2 * a) = C at *
  linear_combination (4 * sin u * sin x * (sin x * cos u - cos x * sin u)) * h1

/-- `cos` at odd multiples of `π / N` is largest at `π / N`. -/
theorem cos_odd_le {N : ℕ} (hN : 0 < N) (m : ℤ) : cos ((2 * m - 1) * (π / N)) ≤ cos (π / N) := by
  have h := sin_mul_sin_nonneg hN m
  have e : cos (π / N) - cos ((2 * m - 1) * (π / N)) = 2 * (sin (m * (π / N)) * sin ((m - 1) * (π / N))) := by
    have e1 : π / N = m * (π / N) - (m - 1) * (π / N) := by ring
    have e2 : (2 * m - 1) * (π / N) = m * (π / N) + (m - 1) * (π / N) := by ring
    conv_lhs => rw [e2]
    rw [show cos (π / N) = cos (m * (π / N) - (m - 1) * (π / N)) from congrArg cos e1, Real.cos_sub, Real.cos_add]
    ring
  linarith

/-! ### Meshes -/

/-- The surface bounds a convex body around `c` and all its facets are oriented outward: read with the accessors of the mesh, every facet
is a triangle that has `c` strictly behind it and no vertex in front of it. -/
def OutwardMesh (m : HalfedgeMesh (Vec ℝ 3)) (c : Vec ℝ 3) : Prop :=
  ∀ f ∈ m.facets, ∃ h0 h1 h2 p q r, calcHalfedges m f = .ok [h0, h1, h2] ∧ m.heVector h0 = .ok p ∧ m.heVector h1 = .ok q ∧
    m.heVector h2 = .ok r ∧ side (p, q, r) c < 0 ∧ ∀ v ∈ m.points, side (p, q, r) v ≤ 0

theorem facet_corners_get [BEq (Vec ℝ 3)] [LawfulBEq (Vec ℝ 3)] (dbg : Bool) (M : Nat) (ts : List (Vec ℝ 3 × Vec ℝ 3 × Vec ℝ 3))
    (hM : 3 * ts.length < M) (m : HalfedgeMesh (Vec ℝ 3)) (hb : BuiltFrom dbg M ts m) (k : Nat) (hkt : k < ts.length) :
    ∃ f, vecGet m.facets k = .ok f ∧ ∃ h0 h1 h2, calcHalfedges m f = .ok [h0, h1, h2] ∧ m.heVector h0 = .ok ts[k].1 ∧
      m.heVector h1 = .ok ts[k].2.1 ∧ m.heVector h2 = .ok ts[k].2.2 := by
  obtain ⟨f, hes, hf', hh, hidx, hmem⟩ := C45_facet_loop dbg M _ hM m hb k hkt
  obtain ⟨h0, h1, h2, rfl⟩ : ∃ h0 h1 h2, hes = [h0, h1, h2] := by
    have := congrArg List.length hidx
    match hes, this with
    | [h0, h1, h2], _ => exact ⟨h0, h1, h2, rfl⟩
  simp only [List.map_cons, List.map_nil, List.cons.injEq, and_true] at hidx
  have hcor : ∀ h ∈ [h0, h1, h2], m.heVector h = .ok ((corners ts).getD h.idx 0) := by
    intro h hh'
    obtain ⟨j, hj⟩ := List.mem_iff_getElem?.1 (((hmem h).1 hh').1)
    have hj' : j < (corners ts).length := by
      have := (List.getElem?_eq_some_iff.1 hj).1
      rw [corners_length]
      obtain ⟨o, e⟩ := hb.eq hM
      rw [e] at this
      simpa [meshOfO, weld_length, corners_length] using this
    obtain ⟨h', hh1, hh2, hh3⟩ := (C43_vertices dbg M _ hM m hb).2.2.2 j hj'
    rw [vecGet_of_getElem? hj, Except.ok.injEq] at hh1
    subst hh1
    rw [hh3, hh2, List.getD_eq_getElem?_getD, List.getElem?_eq_getElem hj']
    rfl
  have hc0 := corners_getElem? ts k 0 hkt (by decide)
  have hc1 := corners_getElem? ts k 1 hkt (by decide)
  have hc2 := corners_getElem? ts k 2 hkt (by decide)
  refine ⟨f, hf', h0, h1, h2, hh, ?_, ?_, ?_⟩
  · rw [hcor h0 (by simp), hidx.1, List.getD_eq_getElem?_getD, show 3 * k = 3 * k + 0 from rfl, hc0]; rfl
  · rw [hcor h1 (by simp), hidx.2.1, List.getD_eq_getElem?_getD, hc1]; rfl
  · rw [hcor h2 (by simp), hidx.2.2, List.getD_eq_getElem?_getD, hc2]; rfl

theorem facet_corners [BEq (Vec ℝ 3)] [LawfulBEq (Vec ℝ 3)] (dbg : Bool) (M : Nat) (ts : List (Vec ℝ 3 × Vec ℝ 3 × Vec ℝ 3))
    (hM : 3 * ts.length < M) (m : HalfedgeMesh (Vec ℝ 3)) (hb : BuiltFrom dbg M ts m) :
    ∀ f ∈ m.facets, ∃ t ∈ ts, ∃ h0 h1 h2, calcHalfedges m f = .ok [h0, h1, h2] ∧ m.heVector h0 = .ok t.1 ∧
      m.heVector h1 = .ok t.2.1 ∧ m.heVector h2 = .ok t.2.2 := by
  intro f hf
  obtain ⟨k, hk⟩ := List.mem_iff_getElem?.1 hf
  have hfl : m.facets.length = ts.length := by
    obtain ⟨o, rfl⟩ := hb.eq hM
    simp [meshOfO, facetsOf, weld_length, corners_length]
  have hkt : k < ts.length := by rw [← hfl]; exact (List.getElem?_eq_some_iff.1 hk).1
  obtain ⟨f', hf', h⟩ := facet_corners_get dbg M ts hM m hb k hkt
  rw [vecGet_of_getElem? hk, Except.ok.injEq] at hf'
  subst hf'
  exact ⟨ts[k], List.getElem_mem _, h⟩

section
variable [BEq (HMat ℝ)] [LawfulBEq (HMat ℝ)] [BEq (Vec ℝ 3)] [LawfulBEq (Vec ℝ 3)]

theorem eta3 {α : Type} (t : α × α × α) : (t.1, t.2.1, t.2.2) = t := rfl

theorem built_of_build (dbg : Bool) (M w : Nat) (trafo : HMat ℝ) (points : List (Vec ℝ 3)) (idx : List Nat) (hM : idx.length < M)
    (m : HalfedgeMesh (Vec ℝ 3)) (hm : buildTriangleHalfedgeMesh dbg M w trafo points idx = .ok m) :
    ∃ ts, 3 * ts.length < M ∧ BuiltFrom dbg M ts m := by
  rcases build_cases dbg M w trafo points idx (by omega) (by rintro rfl; exact build_debug_pre hm) with ⟨hi, he⟩ | ⟨_, he⟩
  swap
  · rw [he] at hm; simp at hm
  rw [he] at hm
  have hl := bufferTriangles_length trafo points idx
  have hM' : 3 * (bufferTriangles trafo points idx).length < M := by omega
  obtain ⟨m', hm', hb⟩ := C48_build_succeeds dbg M w (bufferTriangles trafo points idx) hM'
  rw [hm, Except.ok.injEq] at hm'
  subst hm'
  exact ⟨_, hM', hb⟩

theorem outward_build (dbg : Bool) (M w : Nat) (trafo : HMat ℝ) (A : Matrix (Fin 3) (Fin 3) ℝ) (b : Vec ℝ 3) (hA : A.det = 1)
    (htr : ∀ p, transformVec p trafo = affine A b p) (points : List (Vec ℝ 3)) (idx : List Nat) (hM : idx.length < M)
    (m : HalfedgeMesh (Vec ℝ 3)) (hm : buildTriangleHalfedgeMesh dbg M w trafo points idx = .ok m) (c : Vec ℝ 3)
    (h : ∀ t ∈ triples idx, side (mapTriangle (fun i => points.getD i 0) (reversed t)) c < 0 ∧
      ∀ p ∈ points, side (mapTriangle (fun i => points.getD i 0) (reversed t)) p ≤ 0) : OutwardMesh m (affine A b c) := by
  have hpts := build_points_mem dbg M w trafo points idx hM m hm
  rcases build_cases dbg M w trafo points idx (by omega) (by rintro rfl; exact build_debug_pre hm) with ⟨hi, he⟩ | ⟨_, he⟩
  swap
  · rw [he] at hm; simp at hm
  rw [he] at hm
  have hl := bufferTriangles_length trafo points idx
  have hM' : 3 * (bufferTriangles trafo points idx).length < M := by omega
  obtain ⟨m', hm', hb⟩ := C48_build_succeeds dbg M w (bufferTriangles trafo points idx) hM'
  rw [hm, Except.ok.injEq] at hm'
  subst hm'
  intro f hf
  obtain ⟨t, ht, h0, h1, h2, e, e0, e1, e2⟩ := facet_corners dbg M _ hM' m hb f hf
  refine ⟨h0, h1, h2, t.1, t.2.1, t.2.2, e, e0, e1, e2, ?_⟩
  rw [bufferTriangles, List.mem_map] at ht
  obtain ⟨x, hx, rfl⟩ := ht
  obtain ⟨hx1, hx2⟩ := h x hx
  have et : mapTriangle (fun i => transformVec (points.getD i 0) trafo) (reversed x) =
      mapTriangle (affine A b) (mapTriangle (fun i => points.getD i 0) (reversed x)) := by
    simp only [mapTriangle, htr]
  refine ⟨?_, ?_⟩
  · rw [eta3, et, side_affine, hA, one_mul]; exact hx1
  · intro v hv
    obtain ⟨p, hp, rfl⟩ := hpts v hv
    rw [eta3, et, htr, side_affine, hA, one_mul]; exact hx2 p hp
end
end Verif
