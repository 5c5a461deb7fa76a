/-
Specification of a point dictionary with "first insertion wins", independent of the tree model.
-/
namespace Verif.Spec

/-- The entries a dictionary holds after the insertions `h` (oldest first): every entry whose key is not
equal to the key of an earlier one. -/
def firstEntries {V : Type u} {P : Type v} [BEq V] (h : List (V × P)) : List (V × P) :=
  h.foldl (fun acc e => if acc.any (fun x => x.1 == e.1) then acc else acc ++ [e]) []

/-- `a` comes before `b` in every coordinate or is equal there, and they are different points. -/
def Increasing {T : Type u} {D : Nat} [LT T] [BEq (Fin D → T)] (a b : Fin D → T) : Prop := (a == b) = false ∧ ∀ i, ¬ b i < a i

end Verif.Spec
