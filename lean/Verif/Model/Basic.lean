/-
Shared vocabulary of the model: vectors, C++ failure outcomes and the few `std::` functions used everywhere.
-/
namespace Verif

/-- `linal::vec<T, D>`: `D` coordinates of type `T` (external type, used throughout `/repo`).
Simplification: storage layout is dropped, a vector is its coordinate function. -/
abbrev Vec (T : Type u) (D : Nat) : Type u := Fin D → T

/-- The ways a C++ call can fail to return normally.  `Utils/Assert.hpp` (`GEO_ASSERT`, debug builds),
indexing a `std::vector` out of range and dereferencing an empty `std::optional` (both undefined behaviour),
a thrown exception (`KdTree.hpp:130,144`), a loop that never ends, using a pointer to an object that does not exist (any
more), and a floating point result that is infinite or
NaN although the inputs are finite (not an error in C++, but outside of exact arithmetic). -/
inductive Fault
  | assertFailed
  | outOfRange
  | emptyOptional
  | exception
  | diverges
  | dangling
  | notFinite
  deriving DecidableEq, Repr

/-- Result of a C++ call: a value or a fault. -/
abbrev Res (α : Type u) := Except Fault α

/-- `GEO_ASSERT(c)` (`Utils/Assert.hpp`): traps in a debug build (`dbg = true`), is ignored otherwise. -/
def geoAssert (dbg : Bool) (c : Bool) : Res PUnit.{u+1} :=
  if dbg && !c then .error .assertFailed else .ok ⟨⟩

/-- `v[i]` on a `std::vector`: undefined behaviour when out of range. -/
def vecGet {α : Type u} (l : List α) (i : Nat) : Res α :=
  match l[i]? with
  | some a => .ok a
  | none => .error .outOfRange

/-- `std::sqrt` (C++ standard library). -/
class HasSqrt (T : Type u) where
  sqrt : T → T

/-- `std::cos`, `std::sin`, `std::atan` and `linal::PI` (external). -/
class HasTrig (T : Type u) where
  cos : T → T
  sin : T → T
  atan : T → T
  pi : T

/-- `std::abs` on a floating point value. -/
def stdAbs {T : Type u} [Zero T] [LT T] [DecidableLT T] [Neg T] (x : T) : T :=
  if x < 0 then -x else x

/-- `std::min(a, b)`: `(b < a) ? b : a`. -/
def stdMin {T : Type u} [LT T] [DecidableLT T] (a b : T) : T := if b < a then b else a

/-- `std::max(a, b)`: `(a < b) ? b : a`. -/
def stdMax {T : Type u} [LT T] [DecidableLT T] (a b : T) : T := if a < b then b else a

end Verif
