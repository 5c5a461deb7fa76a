import Mathlib.Data.Fin.VecNotation
import Mathlib.Algebra.Field.Defs
import Mathlib.Algebra.BigOperators.Fin

/-
Corners of a parallelepiped.
-/
namespace Verif.Spec

/-- The corner of the parallelepiped at `o` with edge vectors `s` that is reached by going along the edges `i` with
`a i = true`. -/
def corner {K : Type*} [Field K] (o : Fin 3 → K) (s : Fin 3 → Fin 3 → K) (a : Fin 3 → Bool) : Fin 3 → K :=
  fun k => o k + ∑ i, (if a i then 1 else 0) * s i k

/-- All eight choices of edges. -/
def edgeChoices : List (Fin 3 → Bool) :=
  [![false, false, false], ![false, false, true], ![false, true, false], ![false, true, true],
   ![true, false, false], ![true, false, true], ![true, true, false], ![true, true, true]]

end Verif.Spec
