import Verif.Proofs.Transform
import Mathlib.LinearAlgebra.Matrix.Determinant.Basic
import Mathlib.Tactic.FieldSimp
import Mathlib.Tactic.LinearCombination

/-
Rotations taking the z-axis to a given unit vector exist: the hypothesis the builder theorems make about
`linal::rot_align` can be met for every direction.
-/
namespace Verif
open Spec Matrix

/-- A 4×4 matrix from its upper left block. -/
def hmatOfBlock (A : Matrix (Fin 3) (Fin 3) ℝ) : HMat ℝ :=
  ![![A 0 0, A 0 1, A 0 2, 0], ![A 1 0, A 1 1, A 1 2, 0], ![A 2 0, A 2 1, A 2 2, 0], ![0, 0, 0, 1]]

theorem hmatOfBlock_describes (A : Matrix (Fin 3) (Fin 3) ℝ) : Describes (hmatOfBlock A) A 0 := by
  refine ⟨?_, ?_, ?_, ?_⟩
  · intro i j; fin_cases i <;> fin_cases j <;> rfl
  · intro i; fin_cases i <;> rfl
  · intro j; fin_cases j <;> rfl
  · rfl

/-- A rotation taking the z-axis to `d`. -/
noncomputable def rotZ (d : Vec ℝ 3) : Matrix (Fin 3) (Fin 3) ℝ :=
  if d 2 = -1 then !![1, 0, 0; 0, -1, 0; 0, 0, -1]
  else !![1 - d 0 ^ 2 / (1 + d 2), -(d 0 * d 1) / (1 + d 2), d 0;
          -(d 0 * d 1) / (1 + d 2), 1 - d 1 ^ 2 / (1 + d 2), d 1;
          -d 0, -d 1, d 2]

theorem rotZ_spec {d : Vec ℝ 3} (hd : d 0 ^ 2 + d 1 ^ 2 + d 2 ^ 2 = 1) :
    Orthogonal (rotZ d) ∧ (rotZ d).det = 1 ∧ rotZ d *ᵥ ![0, 0, 1] = d := by
  unfold rotZ
  split
  · next h =>
    have h0 : d 0 = 0 := by rw [h] at hd; nlinarith [sq_nonneg (d 0), sq_nonneg (d 1)]
    have h1 : d 1 = 0 := by rw [h] at hd; nlinarith [sq_nonneg (d 0), sq_nonneg (d 1)]
    refine ⟨?_, ?_, ?_⟩
    · unfold Orthogonal
      ext i j; fin_cases i <;> fin_cases j <;> simp [Matrix.mul_apply, Fin.sum_univ_three]
    · simp [Matrix.det_fin_three]
    · funext i; fin_cases i <;> simp [Matrix.mulVec, dotProduct, Fin.sum_univ_three, h0, h1, h]
  · next h =>
    have hc : 1 + d 2 ≠ 0 := fun e => h (by linarith)
    obtain ⟨a, ha⟩ : ∃ a, d 0 = a := ⟨_, rfl⟩
    obtain ⟨b, hb⟩ : ∃ b, d 1 = b := ⟨_, rfl⟩
    obtain ⟨c, hc'⟩ : ∃ c, d 2 = c := ⟨_, rfl⟩
    obtain ⟨k, hk⟩ : ∃ k, (1 + c)⁻¹ = k := ⟨_, rfl⟩
    rw [ha, hb, hc'] at hd ⊢
    rw [hc'] at hc
    have hk1 : k * (1 + c) = 1 := by rw [← hk]; exact inv_mul_cancel₀ hc
    simp only [div_eq_mul_inv, hk]
    have key : k * (a ^ 2 + b ^ 2) = 1 - c := by
      have : a ^ 2 + b ^ 2 = (1 + c) * (1 - c) := by linear_combination hd
      rw [this, ← mul_assoc, hk1, one_mul]
    refine ⟨?_, ?_, ?_⟩
    · unfold Orthogonal
      ext i j; fin_cases i <;> fin_cases j <;>
        simp [Matrix.mul_apply, Fin.sum_univ_three]
      · linear_combination (a ^ 2 * k) * key - (a^2) * hk1
      · linear_combination (a * b * k) * key - (a*b) * hk1
      · linear_combination (-a) * key
      · linear_combination (a * b * k) * key - (a*b) * hk1
      · linear_combination (b ^ 2 * k) * key - (b^2) * hk1
      · linear_combination (-b) * key
      · linear_combination (-a) * key
      · linear_combination (-b) * key
      · linear_combination hd
    · simp [Matrix.det_fin_three]
      linear_combination (-2 * c - 1) * key + 2 * hd + (a ^ 2 + b ^ 2) * hk1
    · funext i; fin_cases i <;> simp [Matrix.mulVec, dotProduct, Fin.sum_univ_three, ha, hb, hc']

theorem rotatesZTo_rotZ {d : Vec ℝ 3} (hd : length d = 1) : RotatesZTo (hmatOfBlock (rotZ d)) d := by
  have h2 : d 0 ^ 2 + d 1 ^ 2 + d 2 ^ 2 = 1 := by
    have h := length_sq d
    rw [hd, dotProduct, Fin.sum_univ_three] at h
    linear_combination -h
  obtain ⟨h1, h2, h3⟩ := rotZ_spec h2
  exact ⟨rotZ d, 0, hmatOfBlock_describes _, h1, h2, h3⟩

/-- A function doing what the builders need of `linal::rot_align`. -/
noncomputable def rotAlignZ (_ d : Vec ℝ 4) : HMat ℝ := hmatOfBlock (rotZ (fun i => d i.castSucc))

theorem rotAlignZ_spec (u : Vec ℝ 4) {d : Vec ℝ 3} (hd : length d = 1) : RotatesZTo (rotAlignZ u (toHvec d)) d := by
  have : (fun i : Fin 3 => toHvec d i.castSucc) = d := by funext i; fin_cases i <;> rfl
  unfold rotAlignZ
  rw [this]
  exact rotatesZTo_rotZ hd

end Verif
