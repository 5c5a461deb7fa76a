import Mathlib.LinearAlgebra.Matrix.Determinant.Basic
import Mathlib.Data.Real.Basic

/-
On which side of a triangle a point lies, independent of the model.
-/
namespace Verif.Spec
open Matrix

/-- The (signed) volume of the parallelepiped spanned by the triangle and a point: positive when the point lies on the side from which
the corners of the triangle are seen counterclockwise, zero when it lies in the plane of the triangle. -/
def side (t : (Fin 3 → ℝ) × (Fin 3 → ℝ) × (Fin 3 → ℝ)) (v : Fin 3 → ℝ) : ℝ :=
  det (Matrix.of ![t.2.1 - t.1, t.2.2 - t.1, v - t.1])

end Verif.Spec
