import Verif.Spec.Mesh
import Verif.Spec.Inscribed
import Verif.Spec.Convex

/-
What it means that a surface of triangles has no holes, independent of the model.
-/
namespace Verif.Spec

/-- Beside every edge of every triangle lies a triangle that uses this edge the other way round. -/
def NoBoundary {V : Type u} (ts : List (V × V × V)) : Prop :=
  ∀ a b, (a, b) ∈ directedEdges ts → (b, a) ∈ directedEdges ts

/-- All points of all triangles. -/
def surfaceOf (ts : List ((Fin 3 → ℝ) × (Fin 3 → ℝ) × (Fin 3 → ℝ))) : Set (Fin 3 → ℝ) :=
  {x | ∃ t ∈ ts, x ∈ flatTriangle t.1 t.2.1 t.2.2}

/-- The parameters at which the ray from `x` (without `x` itself) in the direction `d` hits a set. -/
def hits (S : Set (Fin 3 → ℝ)) (x d : Fin 3 → ℝ) : Set ℝ := {s | 0 < s ∧ x + s • d ∈ S}

end Verif.Spec
