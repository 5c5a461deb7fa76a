import Verif.Model.Float
import Verif.Model.Linal

/-
`float` and `double` with everything that `Model/Float.lean` leaves out: NaN, the infinities, overflow and the two zeros
(IEEE 754, rounding to nearest).  The generic model functions are instantiated with this type, too.
-/
namespace Verif
open Spec

/-- A binary format with a largest exponent: all finite numbers are below `2 ^ emax`.  `float` is `prec = 24`,
`emin = some (-149)`, `emax = 128`; `double` is `prec = 53`, `emin = some (-1074)`, `emax = 1024`. -/
structure IeeeFormat extends FloatFormat where
  emax : ℕ
  one_lt_emax : 1 < emax
  max_mem : Representable prec emin ((2 ^ prec - 1) * (2 : ℝ) ^ ((emax : ℤ) - prec))

/-- The values a `TFloat` variable can hold. -/
inductive Ieee (F : IeeeFormat)
  /-- Not a number (simplification: all of them are the same; nothing in `/repo` looks at their bits). -/
  | nan
  /-- The infinities; `true` is the negative one. -/
  | inf (neg : Bool)
  /-- `-0.0`. -/
  | negZero
  /-- A finite number; `fin 0` is `+0.0`. -/
  | fin (x : Fl F.toFloatFormat) (h : |x.1| < 2 ^ F.emax)

namespace Ieee
variable {F : IeeeFormat}

/-- The number meant by a finite value. -/
def val? : Ieee F → Option ℝ
  | nan => none
  | inf _ => none
  | negZero => some 0
  | fin x _ => some x.1

/-- The sign bit (of NaN: unspecified, never used). -/
noncomputable def signBit : Ieee F → Bool
  | nan => false
  | inf s => s
  | negZero => true
  | fin x _ => @decide (x.1 < 0) (Classical.propDecidable _)

/-- The result of an operation whose exact result is the real number `r`: rounded as if there were no largest exponent; too large
numbers overflow to infinity; zeros get the sign `s`. -/
noncomputable def ofReal (s : Bool) (r : ℝ) : Ieee F :=
  haveI := Classical.propDecidable
  let q : Fl F.toFloatFormat := Fl.round r
  if q.1 = 0 then (if s then negZero else fin 0 (by show |(0 : ℝ)| < _; rw [abs_zero]; positivity))
  else if h : |q.1| < 2 ^ F.emax then fin q h
  else inf (decide (q.1 < 0))

/-- `0.0`. -/
instance : Zero (Ieee F) := ⟨fin 0 (by show |(0 : ℝ)| < _; rw [abs_zero]; positivity)⟩
/-- `1.0`. -/
instance : One (Ieee F) := ⟨fin 1 (by
  show |(1 : ℝ)| < _; rw [abs_one]; exact one_lt_pow₀ (by norm_num) (by have := F.one_lt_emax; omega))⟩
/-- `2.0`. -/
noncomputable instance : OfNat (Ieee F) 2 := ⟨ofReal false 2⟩
/-- `static_cast<TFloat>(n)` of an integer. -/
noncomputable instance : NatCast (Ieee F) := ⟨fun n => ofReal false n⟩

/-- `-x`: the other sign bit. -/
noncomputable instance : Neg (Ieee F) := ⟨fun
  | nan => nan
  | inf s => inf (!s)
  | negZero => 0
  | fin x h => haveI := Classical.propDecidable; if x.1 = 0 then negZero else fin (-x) (by show |-x.1| < _; rwa [abs_neg])⟩

/-- `a + b`: `inf - inf` is NaN; an exact zero is `+0.0` unless both operands are negative zeros. -/
noncomputable instance : Add (Ieee F) := ⟨fun a b => match a, b with
  | nan, _ => nan
  | _, nan => nan
  | inf s, inf t => if s = t then inf s else nan
  | inf s, _ => inf s
  | _, inf t => inf t
  | a, b => ofReal (a.signBit && b.signBit) (a.val?.getD 0 + b.val?.getD 0)⟩

/-- `a - b` is `a + -b`. -/
noncomputable instance : Sub (Ieee F) := ⟨fun a b => a + -b⟩

/-- `a * b`: zero times infinity is NaN. -/
noncomputable instance : Mul (Ieee F) := ⟨fun a b => haveI := Classical.propDecidable; match a, b with
  | nan, _ => nan
  | _, nan => nan
  | inf s, b => if b.val? = some 0 then nan else inf (s ^^ b.signBit)
  | a, inf t => if a.val? = some 0 then nan else inf (a.signBit ^^ t)
  | a, b => ofReal (a.signBit ^^ b.signBit) (a.val?.getD 0 * b.val?.getD 0)⟩

/-- `a / b`: zero by zero and infinity by infinity are NaN, other numbers by zero infinite. -/
noncomputable instance : Div (Ieee F) := ⟨fun a b => haveI := Classical.propDecidable; match a, b with
  | nan, _ => nan
  | _, nan => nan
  | inf _, inf _ => nan
  | inf s, b => inf (s ^^ b.signBit)
  | a, inf t => ofReal (a.signBit ^^ t) 0
  | a, b =>
    if b.val? = some 0 then (if a.val? = some 0 then nan else inf (a.signBit ^^ b.signBit))
    else ofReal (a.signBit ^^ b.signBit) (a.val?.getD 0 / b.val?.getD 0)⟩

/-- `std::sqrt`: NaN for negative numbers; of `-0.0` it is `-0.0`. -/
noncomputable instance : HasSqrt (Ieee F) := ⟨fun
  | nan => nan
  | inf true => nan
  | inf false => inf false
  | negZero => negZero
  | fin x _ => haveI := Classical.propDecidable; if x.1 < 0 then nan else ofReal false (Real.sqrt x.1)⟩

/-- `a < b`: false if one of them is NaN; both zeros are equal. -/
instance : LT (Ieee F) := ⟨fun
  | nan, _ => False
  | _, nan => False
  | inf s, inf t => s = true ∧ t = false
  | inf s, _ => s = true
  | _, inf t => t = false
  | a, b => a.val?.getD 0 < b.val?.getD 0⟩

noncomputable instance : DecidableLT (Ieee F) := fun _ _ => Classical.propDecidable _

/-- `a == b`: false if one of them is NaN (even for the same NaN); both zeros are equal. -/
noncomputable instance : BEq (Ieee F) := ⟨fun a b => match a, b with
  | nan, _ => false
  | _, nan => false
  | inf s, inf t => s == t
  | inf _, _ => false
  | _, inf _ => false
  | a, b => @decide (a.val? = b.val?) (Classical.propDecidable _)⟩

/-- `linal::vec::operator==` with IEEE numbers, assumed to compare the coordinates exactly (see DESIGN.md, trusted base). -/
noncomputable instance instBEqVec {D : Nat} : BEq (Vec (Ieee F) D) := ⟨fun u v => haveI := Classical.propDecidable; decide (∀ i, (u i == v i) = true)⟩

theorem max_lt (F : IeeeFormat) : ((2 : ℝ) ^ F.prec - 1) * (2 : ℝ) ^ ((F.emax : ℤ) - F.prec) < 2 ^ F.emax := by
  have h : (2 : ℝ) ^ F.emax = 2 ^ F.prec * (2 : ℝ) ^ ((F.emax : ℤ) - F.prec) := by
    rw [← zpow_natCast, ← zpow_natCast, ← zpow_add₀ (by norm_num)]; congr 1; ring
  rw [h]
  have : (0 : ℝ) < (2 : ℝ) ^ ((F.emax : ℤ) - F.prec) := by positivity
  nlinarith

theorem max_nonneg (F : IeeeFormat) : 0 ≤ ((2 : ℝ) ^ F.prec - 1) * (2 : ℝ) ^ ((F.emax : ℤ) - F.prec) :=
  mul_nonneg (sub_nonneg.2 (one_le_pow₀ (by norm_num))) (by positivity)

/-- `std::numeric_limits<TFloat>::max()` and `lowest()`: the largest finite number and its negative. -/
noncomputable instance : HasLimits (Ieee F) where
  maxVal := fin ⟨_, F.max_mem⟩ (by rw [abs_of_nonneg (max_nonneg F)]; exact max_lt F)
  lowest := fin (-⟨_, F.max_mem⟩) (by show |-_| < _; rw [abs_neg, abs_of_nonneg (max_nonneg F)]; exact max_lt F)

end Ieee
end Verif
