import Verif.Spec.Euclid
import Mathlib.Order.Bounds.Basic
import Mathlib.Algebra.Order.Field.Basic
import Mathlib.Data.Set.Basic

/-
The geometric primitives as point sets, and the distance of two point sets.
-/
namespace Verif.Spec
variable {K : Type*} [Field K] [LinearOrder K] {D : ℕ}

/-- The point at parameter `t` when starting at `o` and moving along `d`. -/
def pointAt (o d : Fin D → K) (t : K) : Fin D → K := fun i => o i + t * d i

/-- The line through `o` with direction `d`. -/
def line (o d : Fin D → K) : Set (Fin D → K) := {p | ∃ t, p = pointAt o d t}

/-- The ray from `o` in direction `d`. -/
def ray (o d : Fin D → K) : Set (Fin D → K) := {p | ∃ t, 0 ≤ t ∧ p = pointAt o d t}

/-- The segment from `a` to `b`. -/
def segment (a b : Fin D → K) : Set (Fin D → K) := {p | ∃ t, 0 ≤ t ∧ t ≤ 1 ∧ p = fun i => a i + t * (b i - a i)}

/-- The segment from `a` to `b` prolonged at both ends by the fraction `e` of its length. -/
def segmentUpTo (e : K) (a b : Fin D → K) : Set (Fin D → K) :=
  {p | ∃ t, -e ≤ t ∧ t ≤ 1 + e ∧ p = fun i => a i + t * (b i - a i)}

/-- The ray from `o` in direction `d`, prolonged backwards by `e * |d|`. -/
def rayUpTo (e : K) (o d : Fin D → K) : Set (Fin D → K) := {p | ∃ t, -e ≤ t ∧ p = pointAt o d t}

/-- The plane through `o` with normal `n`. -/
def plane (o n : Fin D → K) : Set (Fin D → K) := {p | ∑ i, (p i - o i) * n i = 0}

/-- The surface of the sphere around `o` with radius `r`. -/
def sphere (o : Fin D → ℝ) (r : ℝ) : Set (Fin D → ℝ) := {p | dist p o = r}

/-- `r` is the smallest distance between a point of `S` and a point of `S'`. -/
def IsDistance (S S' : Set (Fin D → ℝ)) (r : ℝ) : Prop := IsLeast {x | ∃ p ∈ S, ∃ q ∈ S', x = dist p q} r

/-- `d` and `d'` are parallel. -/
def Parallel (d d' : Fin D → K) : Prop := ∀ i j, d i * d' j = d j * d' i

/-- `|d|² |d'|² - (d·d')²`, that is `|d|² |d'|² sin²(angle)`. -/
def gram (d d' : Fin D → K) : K := (∑ i, d i ^ 2) * (∑ i, d' i ^ 2) - (∑ i, d i * d' i) ^ 2

/-- `d` and `d'` are clearly not parallel: the squared sine of their angle exceeds `e`. -/
def AngleAbove (e : K) (d d' : Fin D → K) : Prop := e * ((∑ i, d i ^ 2) * ∑ i, d' i ^ 2) < gram d d'

end Verif.Spec
