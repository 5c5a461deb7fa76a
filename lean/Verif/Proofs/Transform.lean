import Verif.Model.Transform
import Verif.Spec.Rigid
import Verif.Proofs.Vec
import Mathlib.LinearAlgebra.Matrix.NonsingularInverse

set_option linter.unusedSectionVars false

/-
Lemmas on homogeneous transformations.
-/
namespace Verif
open Spec Matrix

section
variable {K : Type*} [Field K]

theorem transformVec_apply (v : Vec K 3) (m : HMat K) (i : Fin 3) :
    transformVec v m i = m i.castSucc 0 * v 0 + m i.castSucc 1 * v 1 + m i.castSucc 2 * v 2 + m i.castSucc 3 := by
  simp only [transformVec, toVec3, hmatVec, dot_eq, dotProduct, Fin.sum_univ_four]
  simp [toHvec]

theorem transformVec_eq {m : HMat K} {A : Matrix (Fin 3) (Fin 3) K} {b : Vec K 3} (h : Describes m A b) (v : Vec K 3) :
    transformVec v m = affine A b v := by
  funext i
  rw [transformVec_apply, affine, Pi.add_apply, mulVec, dotProduct, Fin.sum_univ_three]
  have h0 := h.1 i 0
  have h1 := h.1 i 1
  have h2 := h.1 i 2
  have h3 := h.2.1 i
  simp only [Fin.castSucc_zero, Fin.castSucc_one, show (2 : Fin 3).castSucc = (2 : Fin 4) from rfl] at h0 h1 h2
  rw [h0, h1, h2, h3]
end

section
variable {D : ℕ}
theorem affine_sub (A : Matrix (Fin D) (Fin D) ℝ) (b p q : Vec ℝ D) : affine A b p - affine A b q = A *ᵥ (p - q) := by
  simp only [affine, mulVec_sub]; abel

theorem _root_.Verif.Spec.Orthogonal.dp {A : Matrix (Fin D) (Fin D) ℝ} (h : Orthogonal A) (u v : Vec ℝ D) :
    (A *ᵥ u) ⬝ᵥ (A *ᵥ v) = u ⬝ᵥ v := by
  rw [dotProduct_mulVec, ← mulVec_transpose, mulVec_mulVec, h, one_mulVec]

theorem _root_.Verif.Spec.Orthogonal.dist {A : Matrix (Fin D) (Fin D) ℝ} (h : Orthogonal A) (b p q : Vec ℝ D) :
    Spec.dist (affine A b p) (affine A b q) = Spec.dist p q := by
  rw [spec_dist_eq, spec_dist_eq, affine_sub, h.dp]

theorem _root_.Verif.Spec.Orthogonal.injective {A : Matrix (Fin D) (Fin D) ℝ} (h : Orthogonal A) (b : Vec ℝ D) :
    Function.Injective (affine A b) := by
  intro p q hpq
  apply eq_of_dist_le_zero'
  rw [← h.dist b, hpq, spec_dist_eq]
  simp

theorem _root_.Verif.Spec.Orthogonal.surjective {A : Matrix (Fin D) (Fin D) ℝ} (h : Orthogonal A) (b : Vec ℝ D) :
    Function.Surjective (affine A b) := by
  intro q
  refine ⟨Aᵀ *ᵥ (q - b), ?_⟩
  have h' : A * Aᵀ = 1 := mul_eq_one_comm.1 h
  rw [affine, mulVec_mulVec, h', one_mulVec, sub_add_cancel]

/-- A bijection that preserves membership maps one set onto the other. -/
theorem image_eq_of_iff {X : Type*} {f : X → X} (hf : Function.Surjective f) {S S' : Set X} (h : ∀ p, p ∈ S ↔ f p ∈ S') :
    f '' S = S' := by
  ext q
  constructor
  · rintro ⟨p, hp, rfl⟩; exact (h p).1 hp
  · intro hq
    obtain ⟨p, rfl⟩ := hf q
    exact ⟨p, (h p).2 hq, rfl⟩
end
end Verif
