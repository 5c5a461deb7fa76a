import Verif.Model.Linal

/-
Model of `Interval.hpp` and `Intersect/IntersectInterval.hpp`.
-/
namespace Verif

/-- `class Interval` (`Interval.hpp:12-34`). -/
structure Interval (T : Type u) where
  start : T
  stop : T
  deriving Repr, DecidableEq

/-- `Interval::operator==` (`Interval.hpp:29-32`). -/
def Interval.beq {T : Type u} [Tol T] (l r : Interval T) : Bool := isEq l.start r.start && isEq l.stop r.stop

/-- `intersect(Interval, Interval, Interval&)` (`Intersect/IntersectInterval.hpp:15-63`): the return code and the
final value of the out parameter `out`. -/
def intersectInterval {T : Type u} [Tol T] (lhs rhs out : Interval T) : Nat × Interval T :=
  let a := lhs.start
  let b := lhs.stop
  let c := rhs.start
  let d := rhs.stop
  if isLess b c || isGreater a d then (0, out)
  else if isGreater b c then
    if isLess a d then
      let out := if isLess a c then { out with start := c } else { out with start := a }
      let out := if isGreater b d then { out with stop := d } else { out with stop := b }
      (2, out)
    else (1, { out with start := a })
  else (1, { out with start := b })

end Verif
