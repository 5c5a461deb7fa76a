import Mathlib.Data.Real.Basic
import Mathlib.Algebra.Order.Field.Power

/-
What a binary floating point format and rounding to nearest are (IEEE 754), over the real numbers.
-/
namespace Verif.Spec

/-- `x` has `p` significant binary digits: it is `m · 2^e` with an integer `|m| < 2^p`.  With `emin = some k` the
exponent is bounded from below (`k = -149` for `float`, `-1074` for `double`: subnormal numbers included). -/
def Representable (p : ℕ) (emin : Option ℤ) (x : ℝ) : Prop :=
  ∃ m e : ℤ, |m| < 2 ^ p ∧ (∀ k, emin = some k → k ≤ e) ∧ x = m * (2 : ℝ) ^ e

/-- `rnd` rounds to a nearest representable number, and rounds `-x` like `x`.  How ties are broken is left open otherwise:
to even (the IEEE default) or away from zero are both covered. -/
structure Rounds (p : ℕ) (emin : Option ℤ) (rnd : ℝ → ℝ) : Prop where
  mem : ∀ x, Representable p emin (rnd x)
  nearest : ∀ x y, Representable p emin y → |rnd x - x| ≤ |y - x|
  odd : ∀ x, rnd (-x) = -rnd x

/-- The exponent of the grid on which squares of differences cannot underflow. -/
def gridExp (p : ℕ) (k : ℤ) : ℤ := max (k + p - 1) ((k + p) / 2)

/-- All numbers in a format without underflow; otherwise the multiples of `2 ^ gridExp`: for `double` the multiples of
`2^-511`, for `float` those of `2^-63`. -/
def OnGrid (p : ℕ) (emin : Option ℤ) (x : ℝ) : Prop :=
  ∀ k, emin = some k → ∃ n : ℤ, x = n * (2 : ℝ) ^ gridExp p k

/-- `x` and `y` differ by so much that the square of the difference cannot underflow to zero.  In a format without underflow this
is `x ≠ y`; for `double` the difference has to be `2^-537` at least, for `float` `2^-74`. -/
def Resolved (emin : Option ℤ) (x y : ℝ) : Prop :=
  x ≠ y ∧ ∀ k, emin = some k → (2 : ℝ) ^ ((k + 1) / 2) ≤ |x - y|

end Verif.Spec
