import Verif.Spec.Rigid
import Mathlib.Analysis.SpecialFunctions.Trigonometric.Basic

/-
Corners of the exact cone and cylinder that the builders approximate.
-/
namespace Verif.Spec
open Matrix

/-- `n` equally spaced points on the circle around `c` with radius `r`, in the plane that the rotation `Q` makes of the plane `z = 0`. -/
def ring (Q : Matrix (Fin 3) (Fin 3) ℝ) (c : Fin 3 → ℝ) (r : ℝ) (n : ℕ) : Set (Fin 3 → ℝ) :=
  {e | ∃ i < n, e = c + Q *ᵥ ![r * Real.cos (2 * Real.pi * i / n), r * Real.sin (2 * Real.pi * i / n), 0]}

/-- Two lists of points agree up to `d` in each coordinate: each computed point is near an exact one and conversely. -/
def Approximates (ps : List (Fin 3 → ℝ)) (es : Set (Fin 3 → ℝ)) (d : ℝ) : Prop :=
  (∀ p ∈ ps, ∃ e ∈ es, ∀ c, |p c - e c| ≤ d) ∧ ∀ e ∈ es, ∃ p ∈ ps, ∀ c, |p c - e c| ≤ d

end Verif.Spec
