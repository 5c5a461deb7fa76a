import Mathlib.Order.Defs.LinearOrder
import Mathlib.Algebra.Order.Field.Basic

/-
Point sets of intervals and boxes, with slack `e`.
-/
namespace Verif.Spec
variable {K : Type*} [Field K] [LinearOrder K]

/-- `x` lies in `[lo, hi]` enlarged by `e`. -/
def inInterval (lo hi e x : K) : Prop := lo - e ≤ x ∧ x ≤ hi + e

/-- `p` lies in the box with corners `lo`, `hi` enlarged by `e`. -/
def inBox {D : ℕ} (lo hi : Fin D → K) (e : K) (p : Fin D → K) : Prop := ∀ i, inInterval (lo i) (hi i) e (p i)

end Verif.Spec
