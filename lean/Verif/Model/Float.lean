import Verif.Model.Basic
import Verif.Spec.Float
import Mathlib.Analysis.Real.Sqrt
import Mathlib.Order.Fin.Basic
import Mathlib.Analysis.SpecialFunctions.Trigonometric.Basic

/-
Floating point numbers as a type the generic model can be instantiated with: the template parameter `TFloat` of
`/repo` (`KdTree.hpp:92-243`, `CuboidMeshBuilder.hpp:17-129`, ...) at `float` or `double`.
-/
namespace Verif
open Spec

/-- A binary format with a rounding rule.  `float` is `prec = 24`, `emin = some (-149)`; `double` is `prec = 53`,
`emin = some (-1074)`; `emin = none` is the format without underflow; `1` is a number of the format.
Simplifications: no largest exponent, hence no overflow, no infinities and no NaN; `-0.0` and `0.0` (which compare equal)
are the same number. -/
structure FloatFormat where
  prec : ℕ
  one_lt_prec : 1 < prec
  emin : Option ℤ
  one_mem : Representable prec emin 1
  rnd : ℝ → ℝ
  rounds : Rounds prec emin rnd

/-- The numbers of the format (the values a `TFloat` variable can hold). -/
def Fl (F : FloatFormat) : Type := {x : ℝ // Representable F.prec F.emin x}

namespace Fl
variable {F : FloatFormat}

/-- Every operation returns the rounded exact result. -/
def round (x : ℝ) : Fl F := ⟨F.rnd x, F.rounds.mem x⟩

/-- Comparisons are exact. -/
noncomputable instance : LinearOrder (Fl F) := inferInstanceAs (LinearOrder {x : ℝ // Representable F.prec F.emin x})

/-- `0.0`. -/
instance : Zero (Fl F) := ⟨⟨0, 0, (F.emin.getD 0), by simp, by intro k hk; simp [hk], by simp⟩⟩
/-- `1.0`. -/
instance : One (Fl F) := ⟨⟨1, F.one_mem⟩⟩
/-- `static_cast<TFloat>(n)` of an integer. -/
instance : NatCast (Fl F) := ⟨fun n => round n⟩
/-- `2.0`. -/
instance : OfNat (Fl F) 2 := ⟨round 2⟩
/-- `-x`, exact. -/
instance : Neg (Fl F) := ⟨fun a => ⟨-a.1, by
  obtain ⟨m, e, h1, h2, h3⟩ := a.2
  exact ⟨-m, e, by rwa [abs_neg], h2, by rw [h3]; push_cast; ring⟩⟩⟩
/-- `a + b`. -/
instance : Add (Fl F) := ⟨fun a b => round (a.1 + b.1)⟩
/-- `a - b`. -/
instance : Sub (Fl F) := ⟨fun a b => round (a.1 - b.1)⟩
/-- `a * b`. -/
instance : Mul (Fl F) := ⟨fun a b => round (a.1 * b.1)⟩
/-- `a / b` (used with `b ≠ 0` only). -/
noncomputable instance : Div (Fl F) := ⟨fun a b => round (a.1 / b.1)⟩
/-- `std::sqrt`, correctly rounded as IEEE 754 demands. -/
noncomputable instance : HasSqrt (Fl F) := ⟨fun a => round (Real.sqrt a.1)⟩

/-- What is assumed of the mathematical library: `std::cos` and `std::sin` are off by at most `2 ^ (1 - prec)` (two units in the last place
of numbers below one) for arguments up to eight, the constant pi (`linal::PI<T>`) by at most `2 ^ (2 - prec)` (one unit
in its last place).  Of the inverse tangent nothing is assumed. -/
structure LibAccurate (F : FloatFormat) [HasTrig (Fl F)] : Prop where
  cos : ∀ x : Fl F, |x.1| ≤ 8 → |(HasTrig.cos x).1 - Real.cos x.1| ≤ 2 * (2 : ℝ)⁻¹ ^ F.prec
  sin : ∀ x : Fl F, |x.1| ≤ 8 → |(HasTrig.sin x).1 - Real.sin x.1| ≤ 2 * (2 : ℝ)⁻¹ ^ F.prec
  pi : |(HasTrig.pi : Fl F).1 - Real.pi| ≤ 4 * (2 : ℝ)⁻¹ ^ F.prec
end Fl
end Verif
