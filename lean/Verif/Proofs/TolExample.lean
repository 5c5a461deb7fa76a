import Verif.Proofs.Tol

/-
Concrete tolerances used by the `example`s (enabled there with `attribute [local instance]`).
-/
namespace Verif

/-- Tolerance 1/1000 over ℚ. -/
@[reducible] def ratTol : Tol ℚ := strictTol ℚ (1 / 1000)
theorem ratTol_lawful : @LawfulTol ℚ _ _ _ ratTol := strictTol_lawful (by norm_num)

/-- Tolerance 1/1000 over ℝ. -/
@[reducible] noncomputable def realTol : Tol ℝ := strictTol ℝ (1 / 1000)
theorem realTol_lawful : @LawfulTol ℝ _ _ _ realTol := strictTol_lawful (by norm_num)

end Verif
