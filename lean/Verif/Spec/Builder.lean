/-
Index buffers of triangle meshes.
-/
namespace Verif.Spec

/-- The complete triples of a list, in order. -/
def triples {α : Type u} : List α → List (α × α × α)
  | a :: b :: c :: rest => (a, b, c) :: triples rest
  | _ => []

/-- A triangle with the opposite orientation. -/
def reversed {α : Type u} (t : α × α × α) : α × α × α := (t.2.2, t.2.1, t.1)

end Verif.Spec
