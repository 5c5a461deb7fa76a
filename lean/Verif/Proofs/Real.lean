import Verif.Model.Basic
import Mathlib.Analysis.Real.Sqrt
import Mathlib.Analysis.SpecialFunctions.Trigonometric.Arctan
import Mathlib.Algebra.BigOperators.Fin
import Mathlib.Tactic.Linarith
import Mathlib.Tactic.Ring

/-
Instantiation of the model at the real numbers.
-/
namespace Verif

noncomputable instance : HasSqrt ℝ := ⟨Real.sqrt⟩

@[simp] theorem sqrt_real (x : ℝ) : HasSqrt.sqrt x = Real.sqrt x := rfl

noncomputable instance : HasTrig ℝ := ⟨Real.cos, Real.sin, Real.arctan, Real.pi⟩

@[simp] theorem cos_real (x : ℝ) : HasTrig.cos x = Real.cos x := rfl
@[simp] theorem sin_real (x : ℝ) : HasTrig.sin x = Real.sin x := rfl
@[simp] theorem atan_real (x : ℝ) : HasTrig.atan x = Real.arctan x := rfl
@[simp] theorem pi_real : (HasTrig.pi : ℝ) = Real.pi := rfl

theorem foldl_add_eq_sum {M : Type*} [AddCommMonoid M] {D : ℕ} (f : Fin D → M) :
    Fin.foldl D (fun s i => s + f i) 0 = ∑ i, f i := by
  induction D with
  | zero => simp
  | succ n ih => rw [Fin.foldl_succ_last, Fin.sum_univ_castSucc, ih]

theorem stdAbs_eq {K : Type*} [AddCommGroup K] [LinearOrder K] [IsOrderedAddMonoid K] (x : K) : stdAbs x = |x| := by
  unfold stdAbs
  split
  · rename_i h; rw [abs_of_neg h]
  · rename_i h; rw [abs_of_nonneg (not_lt.1 h)]

theorem stdMin_eq {K : Type*} [LinearOrder K] (a b : K) : stdMin a b = min a b := by
  unfold stdMin
  split
  · rename_i h; rw [min_eq_right (le_of_lt h)]
  · rename_i h; rw [min_eq_left (not_lt.1 h)]

theorem stdMax_eq {K : Type*} [LinearOrder K] (a b : K) : stdMax a b = max a b := by
  unfold stdMax
  split
  · rename_i h; rw [max_eq_right (le_of_lt h)]
  · rename_i h; rw [max_eq_left (not_lt.1 h)]

end Verif
