import Mathlib.Algebra.Order.Field.Basic
import Mathlib.Algebra.Order.AbsoluteValue.Basic

/-
What comparing shapes "up to a tolerance" should mean, in terms of the list of their coordinates.
-/
namespace Verif.Spec
variable {K : Type*} [Field K] [LinearOrder K] [IsStrictOrderedRing K]

/-- Corresponding coordinates are related by `r`. -/
def Agree (r : K → K → Prop) (a b : List K) : Prop := List.Forall₂ r a b

/-- `eq` and `ne` compare the coordinates with tolerance `e`: equal if all differ by less than `e`, not equal if some differ by
more, reflexive, symmetric, and each the negation of the other. -/
structure ComparesUpTo {S : Type*} (e : K) (coords : S → List K) (eq ne : S → S → Bool) : Prop where
  near : ∀ l r, Agree (fun a b => |a - b| < e) (coords l) (coords r) → eq l r = true
  far : ∀ l r, eq l r = true → Agree (fun a b => |a - b| ≤ e) (coords l) (coords r)
  refl : ∀ l, eq l l = true
  symm : ∀ l r, eq l r = eq r l
  ne_iff : ∀ l r, ne l r = !eq l r

end Verif.Spec
