import Mathlib.LinearAlgebra.Matrix.Determinant.Basic
import Mathlib.Data.Real.Basic

/-
The volume enclosed by a triangulated surface, independent of the model.
-/
namespace Verif.Spec
open Matrix

/-- The volume enclosed by a closed surface of oriented triangles: the sum of the signed volumes of the tetrahedra with the apex `c` (positive
for triangles that turn counter-clockwise when seen from outside). -/
noncomputable def volume (c : Fin 3 → ℝ) (ts : List ((Fin 3 → ℝ) × (Fin 3 → ℝ) × (Fin 3 → ℝ))) : ℝ :=
  (ts.map fun t => det (Matrix.of ![t.1 - c, t.2.1 - c, t.2.2 - c]) / 6).sum

end Verif.Spec
