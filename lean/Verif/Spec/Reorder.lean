import Mathlib.Data.List.Basic

/-
The same triangles in another order, independent of the model.
-/
namespace Verif.Spec

/-- The same oriented triangle, possibly starting at another corner. -/
def Turned {V : Type u} (t t' : V × V × V) : Prop := t' = t ∨ t' = (t.2.1, t.2.2, t.1) ∨ t' = (t.2.2, t.1, t.2.1)

/-- The same oriented triangles, in any order and each starting at any corner. -/
def Reordered {V : Type u} (ts ts' : List (V × V × V)) : Prop := ∃ us, ts.Perm us ∧ List.Forall₂ Turned us ts'

end Verif.Spec
