import Verif.Spec.Shapes
import Mathlib.LinearAlgebra.Matrix.Determinant.Basic

/-
Affine maps and rigid motions of space, and the circle as a point set.
-/
namespace Verif.Spec
open Matrix

/-- The affine map `p ↦ A p + b`. -/
def affine {K : Type*} [Semiring K] {D : ℕ} (A : Matrix (Fin D) (Fin D) K) (b p : Fin D → K) : Fin D → K := A *ᵥ p + b

/-- The 4×4 matrix `m` describes the affine map with matrix `A` and translation `b`:
upper left block `A`, last column `b`, last row `0 0 0 1`. -/
def Describes {K : Type*} [Semiring K] (m : Fin 4 → Fin 4 → K) (A : Matrix (Fin 3) (Fin 3) K) (b : Fin 3 → K) : Prop :=
  (∀ i j : Fin 3, m i.castSucc j.castSucc = A i j) ∧ (∀ i : Fin 3, m i.castSucc 3 = b i) ∧
  (∀ j : Fin 3, m 3 j.castSucc = 0) ∧ m 3 3 = 1

/-- The 4×4 matrix `m` maps the plane `z = 0` to itself by the affine map with matrix `A` and translation `b`
(only the entries that matter for `x` and `y` are constrained). -/
def DescribesPlanar {K : Type*} [Semiring K] (m : Fin 4 → Fin 4 → K) (A : Matrix (Fin 2) (Fin 2) K) (b : Fin 2 → K) : Prop :=
  (∀ i j : Fin 2, m (i.castLE (by decide)) (j.castLE (by decide)) = A i j) ∧
  (∀ i : Fin 2, m (i.castLE (by decide)) 3 = b i)

/-- `A` is orthogonal: `p ↦ A p + b` is a rigid motion. -/
def Orthogonal {D : ℕ} (A : Matrix (Fin D) (Fin D) ℝ) : Prop := Aᵀ * A = 1

/-- The 4×4 matrix `m` describes a rigid motion without reflection whose linear part maps the z-axis to `d`. -/
def RotatesZTo (m : Fin 4 → Fin 4 → ℝ) (d : Fin 3 → ℝ) : Prop :=
  ∃ A b, Describes m A b ∧ Orthogonal A ∧ A.det = 1 ∧ A *ᵥ ![0, 0, 1] = d

/-- The circle around `o` with radius `r` in the plane with normal `n`. -/
def circle (o n : Fin 3 → ℝ) (r : ℝ) : Set (Fin 3 → ℝ) := {p | dist p o = r ∧ (p - o) ⬝ᵥ n = 0}

end Verif.Spec
