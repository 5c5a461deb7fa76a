import Verif.Spec.Euclid
import Mathlib.LinearAlgebra.CrossProduct

/-
The size and the shape of a triangle, independent of the model.
-/
namespace Verif.Spec
open Matrix

/-- Twice the area of the triangle. -/
noncomputable def twiceArea (t : (Fin 3 → ℝ) × (Fin 3 → ℝ) × (Fin 3 → ℝ)) : ℝ := norm ((t.2.1 - t.1) ⨯₃ (t.2.2 - t.1))

/-- The product of the lengths of the first two sides; divided by twice the area this is the reciprocal of the sine of the angle between them. -/
noncomputable def sidesProduct (t : (Fin 3 → ℝ) × (Fin 3 → ℝ) × (Fin 3 → ℝ)) : ℝ := norm (t.2.1 - t.1) * norm (t.2.2 - t.2.1)

/-- The area of a surface given by its triangles. -/
noncomputable def area (ts : List ((Fin 3 → ℝ) × (Fin 3 → ℝ) × (Fin 3 → ℝ))) : ℝ := (ts.map fun t => twiceArea t / 2).sum

end Verif.Spec
