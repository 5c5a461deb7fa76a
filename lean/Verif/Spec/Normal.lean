import Verif.Spec.Euclid
import Mathlib.LinearAlgebra.Matrix.Determinant.Basic
import Mathlib.LinearAlgebra.LinearIndependent.Defs

/-
What the normal of a triangle and of a mesh vertex is, independent of the model.
-/
namespace Verif.Spec
open Matrix

/-- The triangle is not degenerate: its sides span a plane. -/
def NonDegenerate (t : (Fin 3 → ℝ) × (Fin 3 → ℝ) × (Fin 3 → ℝ)) : Prop :=
  LinearIndependent ℝ ![t.2.1 - t.1, t.2.2 - t.1]

/-- `n` is the unit normal of the triangle: length one, perpendicular to all sides, and the sides and the normal are
positively oriented (right-hand rule). -/
def IsNormal (t : (Fin 3 → ℝ) × (Fin 3 → ℝ) × (Fin 3 → ℝ)) (n : Fin 3 → ℝ) : Prop :=
  norm n = 1 ∧ n ⬝ᵥ (t.2.1 - t.1) = 0 ∧ n ⬝ᵥ (t.2.2 - t.2.1) = 0 ∧ n ⬝ᵥ (t.1 - t.2.2) = 0 ∧
    0 < det !![(t.2.1 - t.1) 0, (t.2.1 - t.1) 1, (t.2.1 - t.1) 2;
               (t.2.2 - t.1) 0, (t.2.2 - t.1) 1, (t.2.2 - t.1) 2;
               n 0, n 1, n 2]

/-- `v` has length one and the direction of `s`. -/
def IsUnitAlong (s v : Fin 3 → ℝ) : Prop := norm v = 1 ∧ ∃ c : ℝ, 0 < c ∧ s = c • v

end Verif.Spec
