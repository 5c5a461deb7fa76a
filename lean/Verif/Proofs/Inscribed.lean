import Verif.Spec.Inscribed
import Verif.Props.Convex

set_option linter.unusedSectionVars false

/-
Flat triangles in solid bodies.
-/
namespace Verif
open Spec Matrix Real

/-- Read with the accessors of the mesh, every facet is a triangle with corners that satisfy `P`. -/
def FacetsSatisfy (m : HalfedgeMesh (Vec ℝ 3)) (P : Vec ℝ 3 → Vec ℝ 3 → Vec ℝ 3 → Prop) : Prop :=
  ∀ f ∈ m.facets, ∃ h0 h1 h2 p q r, calcHalfedges m f = .ok [h0, h1, h2] ∧ m.heVector h0 = .ok p ∧ m.heVector h1 = .ok q ∧
    m.heVector h2 = .ok r ∧ P p q r

/-- The points of the surface of a mesh: all points of all its facets. -/
def meshSurface (m : HalfedgeMesh (Vec ℝ 3)) : Set (Vec ℝ 3) :=
  {x | ∃ f ∈ m.facets, ∃ h0 h1 h2 p q r, calcHalfedges m f = .ok [h0, h1, h2] ∧ m.heVector h0 = .ok p ∧ m.heVector h1 = .ok q ∧
    m.heVector h2 = .ok r ∧ x ∈ flatTriangle p q r}

/-! ### Triangles in convex sets -/

theorem dp_sq_le (v w : Vec ℝ 3) : (v ⬝ᵥ w) ^ 2 ≤ (v ⬝ᵥ v) * (w ⬝ᵥ w) := by
  have := Finset.sum_mul_sq_le_sq_mul_sq Finset.univ v w
  simp only [dotProduct, ← sq] at *
  exact this

theorem dp_le {v w : Vec ℝ 3} {s t : ℝ} (hs : 0 ≤ s) (ht : 0 ≤ t) (hv : v ⬝ᵥ v ≤ s ^ 2) (hw : w ⬝ᵥ w ≤ t ^ 2) : v ⬝ᵥ w ≤ s * t := by
  have h0 : ∀ u : Vec ℝ 3, 0 ≤ u ⬝ᵥ u := fun u => Finset.sum_nonneg fun i _ => mul_self_nonneg _
  apply le_of_sq_le_sq _ (mul_nonneg hs ht)
  calc (v ⬝ᵥ w) ^ 2 ≤ (v ⬝ᵥ v) * (w ⬝ᵥ w) := dp_sq_le v w
    _ ≤ s ^ 2 * t ^ 2 := mul_le_mul hv hw (h0 w) (sq_nonneg s)
    _ = (s * t) ^ 2 := by ring
where le_of_sq_le_sq {x y : ℝ} (h : x ^ 2 ≤ y ^ 2) (hy : 0 ≤ y) : x ≤ y := (abs_le.1 (abs_le_of_sq_le_sq h hy)).2

/-- The length of a convex combination is at most the combination of the lengths. -/
theorem combo_le {u v w : Vec ℝ 3} {a b c x y z : ℝ} (ha : 0 ≤ a) (hb : 0 ≤ b) (hc : 0 ≤ c) (hx : 0 ≤ x) (hy : 0 ≤ y) (hz : 0 ≤ z)
    (hu : u ⬝ᵥ u ≤ x ^ 2) (hv : v ⬝ᵥ v ≤ y ^ 2) (hw : w ⬝ᵥ w ≤ z ^ 2) :
    (a • u + b • v + c • w) ⬝ᵥ (a • u + b • v + c • w) ≤ (a * x + b * y + c * z) ^ 2 := by
  have e : (a • u + b • v + c • w) ⬝ᵥ (a • u + b • v + c • w) = a ^ 2 * (u ⬝ᵥ u) + b ^ 2 * (v ⬝ᵥ v) + c ^ 2 * (w ⬝ᵥ w) +
      2 * (a * b) * (u ⬝ᵥ v) + 2 * (a * c) * (u ⬝ᵥ w) + 2 * (b * c) * (v ⬝ᵥ w) := by
    simp only [dotProduct, Fin.sum_univ_three, Pi.add_apply, Pi.smul_apply, smul_eq_mul]; ring
  have h1 := mul_le_mul_of_nonneg_left hu (sq_nonneg a)
  have h2 := mul_le_mul_of_nonneg_left hv (sq_nonneg b)
  have h3 := mul_le_mul_of_nonneg_left hw (sq_nonneg c)
  have h4 := mul_le_mul_of_nonneg_left (dp_le hx hy hu hv) (mul_nonneg ha hb)
  have h5 := mul_le_mul_of_nonneg_left (dp_le hx hz hu hw) (mul_nonneg ha hc)
  have h6 := mul_le_mul_of_nonneg_left (dp_le hy hz hv hw) (mul_nonneg hb hc)
  rw [e]
  nlinarith

theorem sdist_sq (x o : Vec ℝ 3) : Spec.dist x o = √((x - o) ⬝ᵥ (x - o)) := by
  unfold Spec.dist
  simp only [dotProduct, Pi.sub_apply, ← sq]

theorem sdist_le {x o : Vec ℝ 3} {r : ℝ} (hr : 0 ≤ r) : Spec.dist x o ≤ r ↔ (x - o) ⬝ᵥ (x - o) ≤ r ^ 2 := by
  rw [sdist_sq, Real.sqrt_le_left hr]

theorem flat_ball {p q s x o : Vec ℝ 3} {r : ℝ} (hr : 0 ≤ r) (hp : Spec.dist p o ≤ r) (hq : Spec.dist q o ≤ r) (hs : Spec.dist s o ≤ r)
    (hx : x ∈ flatTriangle p q s) : Spec.dist x o ≤ r := by
  obtain ⟨a, b, c, ha, hb, hc, h1, rfl⟩ := hx
  rw [sdist_le hr] at *
  have h := combo_le ha hb hc hr hr hr hp hq hs
  have e : a • p + b • q + c • s - o = a • (p - o) + b • (q - o) + c • (s - o) := by
    have : o = (a + b + c) • o := by rw [h1, one_smul]
    nth_rw 1 [this]
    module
  rw [e]
  calc _ ≤ _ := h
    _ = ((a + b + c) * r) ^ 2 := by ring
    _ = r ^ 2 := by rw [h1, one_mul]

theorem flat_cylinder {p q s x a b : Vec ℝ 3} {r : ℝ} (hp : p ∈ solidCylinder a b r) (hq : q ∈ solidCylinder a b r)
    (hs : s ∈ solidCylinder a b r) (hx : x ∈ flatTriangle p q s) : x ∈ solidCylinder a b r := by
  obtain ⟨t1, w1, h10, h11, h12, h13, rfl⟩ := hp
  obtain ⟨t2, w2, h20, h21, h22, h23, rfl⟩ := hq
  obtain ⟨t3, w3, h30, h31, h32, h33, rfl⟩ := hs
  obtain ⟨c1, c2, c3, hc1, hc2, hc3, h1, rfl⟩ := hx
  rw [← sq_abs] at h13 h23 h33
  have h := combo_le hc1 hc2 hc3 (abs_nonneg r) (abs_nonneg r) (abs_nonneg r) h13 h23 h33
  refine ⟨c1 * t1 + c2 * t2 + c3 * t3, c1 • w1 + c2 • w2 + c3 • w3, by positivity, by nlinarith, ?_, ?_, ?_⟩
  · simp only [add_dotProduct, smul_dotProduct, h12, h22, h32, smul_zero, add_zero]
  · calc _ ≤ _ := h
      _ = ((c1 + c2 + c3) * |r|) ^ 2 := by ring
      _ = r ^ 2 := by rw [h1, one_mul, sq_abs]
  · have : a = (c1 + c2 + c3) • a := by rw [h1, one_smul]
    nth_rw 7 [this]
    module

theorem flat_cone {p q s x a b : Vec ℝ 3} {r : ℝ} (hp : p ∈ solidCone a b r) (hq : q ∈ solidCone a b r)
    (hs : s ∈ solidCone a b r) (hx : x ∈ flatTriangle p q s) : x ∈ solidCone a b r := by
  obtain ⟨t1, w1, h10, h11, h12, h13, rfl⟩ := hp
  obtain ⟨t2, w2, h20, h21, h22, h23, rfl⟩ := hq
  obtain ⟨t3, w3, h30, h31, h32, h33, rfl⟩ := hs
  obtain ⟨c1, c2, c3, hc1, hc2, hc3, h1, rfl⟩ := hx
  have k : ∀ t : ℝ, ((1 - t) * r) ^ 2 = ((1 - t) * |r|) ^ 2 := by intro t; rw [mul_pow, mul_pow, sq_abs]
  rw [k] at h13 h23 h33
  have hp : ∀ t : ℝ, t ≤ 1 → 0 ≤ (1 - t) * |r| := fun t ht => mul_nonneg (by linarith) (abs_nonneg r)
  have h := combo_le hc1 hc2 hc3 (hp _ h11) (hp _ h21) (hp _ h31) h13 h23 h33
  refine ⟨c1 * t1 + c2 * t2 + c3 * t3, c1 • w1 + c2 • w2 + c3 • w3, by positivity, by nlinarith, ?_, ?_, ?_⟩
  · simp only [add_dotProduct, smul_dotProduct, h12, h22, h32, smul_zero, add_zero]
  · rw [k]
    calc _ ≤ _ := h
      _ = ((c1 + c2 + c3 - (c1 * t1 + c2 * t2 + c3 * t3)) * |r|) ^ 2 := by ring
      _ = _ := by rw [h1]
  · have : a = (c1 + c2 + c3) • a := by rw [h1, one_smul]
    nth_rw 7 [this]
    module

/-! ### Meshes built from an index buffer -/
section
variable [BEq (HMat ℝ)] [LawfulBEq (HMat ℝ)] [BEq (Vec ℝ 3)] [LawfulBEq (Vec ℝ 3)]

theorem satisfy_build (dbg : Bool) (M w : Nat) (trafo : HMat ℝ) (A : Matrix (Fin 3) (Fin 3) ℝ) (b : Vec ℝ 3)
    (htr : ∀ p, transformVec p trafo = affine A b p) (points : List (Vec ℝ 3)) (idx : List Nat) (hM : idx.length < M)
    (m : HalfedgeMesh (Vec ℝ 3)) (hm : buildTriangleHalfedgeMesh dbg M w trafo points idx = .ok m) (P : Vec ℝ 3 → Vec ℝ 3 → Vec ℝ 3 → Prop)
    (h : ∀ t ∈ triples idx, ∀ x, x = mapTriangle (fun i => points.getD i 0) (reversed t) →
      P (affine A b x.1) (affine A b x.2.1) (affine A b x.2.2)) : FacetsSatisfy m P := by
  rcases build_cases dbg M w trafo points idx (by omega) (by rintro rfl; exact build_debug_pre hm) with ⟨hi, he⟩ | ⟨_, he⟩
  swap
  · rw [he] at hm; simp at hm
  rw [he] at hm
  have hl := bufferTriangles_length trafo points idx
  have hM' : 3 * (bufferTriangles trafo points idx).length < M := by omega
  obtain ⟨m', hm', hb⟩ := C48_build_succeeds dbg M w (bufferTriangles trafo points idx) hM'
  rw [hm, Except.ok.injEq] at hm'
  subst hm'
  intro f hf
  obtain ⟨t, ht, h0, h1, h2, e, e0, e1, e2⟩ := facet_corners dbg M _ hM' m hb f hf
  refine ⟨h0, h1, h2, t.1, t.2.1, t.2.2, e, e0, e1, e2, ?_⟩
  rw [bufferTriangles, List.mem_map] at ht
  obtain ⟨x, hx, rfl⟩ := ht
  have := h x hx _ rfl
  simp only [mapTriangle, htr] at this ⊢
  exact this
end
end Verif
