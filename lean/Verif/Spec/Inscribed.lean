import Verif.Spec.Shapes
import Mathlib.Data.Matrix.Mul

/-
Solid bodies and flat triangles as point sets.
-/
namespace Verif.Spec
open Matrix

/-- The flat triangle with the corners `p`, `q`, `r`. -/
def flatTriangle (p q r : Fin 3 → ℝ) : Set (Fin 3 → ℝ) :=
  {x | ∃ a b c : ℝ, 0 ≤ a ∧ 0 ≤ b ∧ 0 ≤ c ∧ a + b + c = 1 ∧ x = a • p + b • q + c • r}

/-- The points whose distance from `o` is between `r` and `R`. -/
def shell (o : Fin 3 → ℝ) (r R : ℝ) : Set (Fin 3 → ℝ) := {x | r ≤ dist x o ∧ dist x o ≤ R}

/-- The solid cylinder with radius `r` whose axis goes from `a` to `b`. -/
def solidCylinder (a b : Fin 3 → ℝ) (r : ℝ) : Set (Fin 3 → ℝ) :=
  {x | ∃ (t : ℝ) (w : Fin 3 → ℝ), 0 ≤ t ∧ t ≤ 1 ∧ w ⬝ᵥ (b - a) = 0 ∧ w ⬝ᵥ w ≤ r ^ 2 ∧ x = a + t • (b - a) + w}

/-- The cylinder without its surface. -/
def openCylinder (a b : Fin 3 → ℝ) (r : ℝ) : Set (Fin 3 → ℝ) :=
  {x | ∃ (t : ℝ) (w : Fin 3 → ℝ), 0 < t ∧ t < 1 ∧ w ⬝ᵥ (b - a) = 0 ∧ w ⬝ᵥ w < r ^ 2 ∧ x = a + t • (b - a) + w}

/-- The solid cone with the base circle of radius `r` around `a` and the apex `b`. -/
def solidCone (a b : Fin 3 → ℝ) (r : ℝ) : Set (Fin 3 → ℝ) :=
  {x | ∃ (t : ℝ) (w : Fin 3 → ℝ), 0 ≤ t ∧ t ≤ 1 ∧ w ⬝ᵥ (b - a) = 0 ∧ w ⬝ᵥ w ≤ ((1 - t) * r) ^ 2 ∧ x = a + t • (b - a) + w}

/-- The cone without its surface. -/
def openCone (a b : Fin 3 → ℝ) (r : ℝ) : Set (Fin 3 → ℝ) :=
  {x | ∃ (t : ℝ) (w : Fin 3 → ℝ), 0 < t ∧ t < 1 ∧ w ⬝ᵥ (b - a) = 0 ∧ w ⬝ᵥ w < ((1 - t) * r) ^ 2 ∧ x = a + t • (b - a) + w}

/-- The solid parallelepiped at `o` with the edge vectors `s`. -/
def solidBox (o : Fin 3 → ℝ) (s : Fin 3 → Fin 3 → ℝ) : Set (Fin 3 → ℝ) :=
  {x | ∃ t : Fin 3 → ℝ, (∀ i, 0 ≤ t i ∧ t i ≤ 1) ∧ x = fun k => o k + ∑ i, t i * s i k}

/-- The faces of that parallelepiped. -/
def boxFaces (o : Fin 3 → ℝ) (s : Fin 3 → Fin 3 → ℝ) : Set (Fin 3 → ℝ) :=
  {x | ∃ t : Fin 3 → ℝ, (∀ i, 0 ≤ t i ∧ t i ≤ 1) ∧ (∃ i, t i = 0 ∨ t i = 1) ∧ x = fun k => o k + ∑ i, t i * s i k}

end Verif.Spec
