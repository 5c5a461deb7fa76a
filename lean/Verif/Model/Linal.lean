import Verif.Model.Basic

/-
The external library `linal` (github.com/timow-gh/LinAl), as far as `/repo` uses it.
Its source is not part of `/repo`; the definitions here are the assumed behaviour (see DESIGN.md, trusted base).
-/
namespace Verif

/-- `linal/utils/eps.hpp`: comparisons with an absolute tolerance (last argument) and the default tolerance
`linal::eps<T>::value`.  Only the interface: the laws assumed about it are in `Verif.LawfulTol`. -/
class Tol (T : Type u) where
  eps : T
  isLess : T → T → T → Bool
  isGreater : T → T → T → Bool
  isLessEq : T → T → T → Bool
  isGreaterEq : T → T → T → Bool
  isEq : T → T → T → Bool
  isZero : T → T → Bool

section
variable {T : Type u} [Tol T]
/-- `linal::isLess(a, b)` with the default tolerance. -/
def isLess (a b : T) : Bool := Tol.isLess a b Tol.eps
/-- `linal::isGreater(a, b)` with the default tolerance. -/
def isGreater (a b : T) : Bool := Tol.isGreater a b Tol.eps
/-- `linal::isLessEq(a, b)` with the default tolerance. -/
def isLessEq (a b : T) : Bool := Tol.isLessEq a b Tol.eps
/-- `linal::isGreaterEq(a, b)` with the default tolerance. -/
def isGreaterEq (a b : T) : Bool := Tol.isGreaterEq a b Tol.eps
/-- `linal::isEq(a, b)` with the default tolerance. -/
def isEq (a b : T) : Bool := Tol.isEq a b Tol.eps
/-- `linal::isZero(a)` with the default tolerance. -/
def isZero (a : T) : Bool := Tol.isZero a Tol.eps
end

/-- `for (i = 0; i < D; ++i) if (!p(i)) return false; return true;` -/
def forallFin (D : Nat) (p : Fin D → Bool) : Bool := Fin.foldl D (fun b i => b && p i) true

/-- `linal::is_equal(u, v)` (used in `AABB.hpp:137` and others): componentwise `isEq`. -/
def isEqualVec {T : Type u} [Tol T] {D : Nat} (u v : Vec T D) : Bool := forallFin D (fun i => isEq (u i) (v i))

section
variable {T : Type u} {D : Nat}

/-- vector `+`. -/
def vadd [Add T] (u v : Vec T D) : Vec T D := fun i => u i + v i
/-- vector `-`. -/
def vsub [Sub T] (u v : Vec T D) : Vec T D := fun i => u i - v i
/-- vector times scalar. -/
def vscale [Mul T] (v : Vec T D) (s : T) : Vec T D := fun i => v i * s
/-- vector divided by scalar. -/
def vdiv [Div T] (v : Vec T D) (s : T) : Vec T D := fun i => v i / s
/-- `linal::dot`. -/
def dot [Zero T] [Add T] [Mul T] (u v : Vec T D) : T := Fin.foldl D (fun s i => s + u i * v i) 0
/-- `linal::length`. -/
def length [Zero T] [Add T] [Mul T] [HasSqrt T] (v : Vec T D) : T := HasSqrt.sqrt (dot v v)
/-- `linal::normalize`.  (A zero vector gives NaN in C++; callers below state `v ≠ 0` where it matters.) -/
def normalize [Zero T] [Add T] [Mul T] [Div T] [HasSqrt T] (v : Vec T D) : Vec T D := vdiv v (length v)
/-- `linal::projection(u, v)`: the part of `u` along `v`. -/
def projection [Zero T] [Add T] [Mul T] [Div T] (u v : Vec T D) : Vec T D := vscale v (dot u v / dot v v)
/-- `linal::rejection(u, v)`: the part of `u` perpendicular to `v`. -/
def rejection [Zero T] [Add T] [Sub T] [Mul T] [Div T] (u v : Vec T D) : Vec T D := vsub u (projection u v)
/-- `linal::cross`. -/
def cross [Sub T] [Mul T] (u v : Vec T 3) : Vec T 3 := fun i =>
  if i = 0 then u 1 * v 2 - u 2 * v 1
  else if i = 1 then u 2 * v 0 - u 0 * v 2
  else u 0 * v 1 - u 1 * v 0
end

/-- `std::numeric_limits<T>::max()` and `::lowest()`. -/
class HasLimits (T : Type u) where
  maxVal : T
  lowest : T

end Verif
