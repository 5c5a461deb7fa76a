import Verif.Spec.Builder

/-
Replacing points by earlier points that they compare equal to, for a comparison that need not be transitive.
-/
namespace Verif.Spec

/-- Walk through the points and keep a list of those seen so far: a point that a kept point compares equal to is replaced by the first such
point, any other point is kept. -/
def snapFrom {V : Type u} [BEq V] : List V → List V → List V
  | _, [] => []
  | kept, c :: cs =>
    match kept.find? (· == c) with
    | some r => r :: snapFrom kept cs
    | none => c :: snapFrom (kept ++ [c]) cs

/-- The triangles with every corner replaced by the first kept corner that compares equal to it. -/
def snapTriangles {V : Type u} [BEq V] (ts : List (V × V × V)) : List (V × V × V) :=
  triples (snapFrom [] (ts.flatMap fun t => [t.1, t.2.1, t.2.2]))

end Verif.Spec
