/-
Model of `src/include/Geometry/Handle.hpp` and `src/include/Geometry/HalfedgeMesh/MeshIndices.hpp`.
The value type is an unsigned type with `M` values, modelled as a natural number below `M`.
-/
namespace Verif

/-- `Handle<T>` (`Handle.hpp:10-36`). -/
structure Handle where
  value : Nat

/-- `Handle()` (`Handle.hpp:16-18,35`): `m_value = nullHandle`, which is `value_type{}`. -/
def Handle.default : Handle := ⟨0⟩

/-- `VertexIndex()`, `HalfedgeIndex()`, `FacetIndex()` (`MeshIndices.hpp:16-19,32-35,48-51`). -/
def Handle.defaultIndex (M : Nat) : Handle := ⟨M - 1⟩

/-- `Handle::is_valid` (`Handle.hpp:25`); `invalidHandles` is the largest value (`Handle.hpp:15`). -/
def Handle.isValid (M : Nat) (h : Handle) : Bool := h.value != M - 1

/-- `operator==` (`Handle.hpp:27`). -/
def Handle.eq (a b : Handle) : Bool := a.value == b.value
/-- `operator!=` (`Handle.hpp:28`). -/
def Handle.ne (a b : Handle) : Bool := !Handle.eq b a
/-- `operator<` (`Handle.hpp:29`). -/
def Handle.lt (a b : Handle) : Bool := a.value < b.value
/-- `operator>` (`Handle.hpp:30`). -/
def Handle.gt (a b : Handle) : Bool := Handle.lt b a
/-- `operator<=` (`Handle.hpp:31`). -/
def Handle.le (a b : Handle) : Bool := !Handle.lt b a
/-- `operator>=` (`Handle.hpp:32`). -/
def Handle.ge (a b : Handle) : Bool := !Handle.lt a b

end Verif
