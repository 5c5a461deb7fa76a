import Mathlib.Analysis.Real.Sqrt
import Mathlib.Algebra.BigOperators.Fin

/-
Euclidean distance and length in `ℝ^D`, written out.
-/
namespace Verif.Spec

/-- Euclidean distance. -/
noncomputable def dist {D : ℕ} (a b : Fin D → ℝ) : ℝ := Real.sqrt (∑ i, (a i - b i) ^ 2)

/-- Euclidean length. -/
noncomputable def norm {D : ℕ} (v : Fin D → ℝ) : ℝ := Real.sqrt (∑ i, v i ^ 2)

end Verif.Spec
