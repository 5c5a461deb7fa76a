import Verif.Model.Mesh
import Verif.Model.Linal

/-
Model of `HalfedgeMesh/DebugHelper.hpp`.  An output stream is the list of the items inserted into it; how `std::ostream` formats an
integer or a floating-point number is not modelled.
-/
namespace Verif

/-- One item inserted with `<<`. -/
inductive Out (T : Type) where
  /-- A string literal. -/
  | text (s : String)
  /-- An index (`get_value()`). -/
  | idx (n : Nat)
  /-- A coordinate. -/
  | num (x : T)
  /-- `std::endl`. -/
  | endl

section
variable {T : Type}
open Out

/-- `print_inline(os, vec3)` (`DebugHelper.hpp:12-16`). -/
def printInlineVec (v : Vec T 3) : List (Out T) := [text "vec: ", num (v 0), text " ", num (v 1), text " ", num (v 2)]

/-- `print(os, vec3)` (`DebugHelper.hpp:18-23`). -/
def printVec (v : Vec T 3) : List (Out T) := printInlineVec v ++ [endl]

/-- `print(os, std::vector<vec3>&)` (`DebugHelper.hpp:25-32`). -/
def printVecs (vs : List (Vec T 3)) : List (Out T) := vs.flatMap printVec

/-- `print(os, Vertex)` (`DebugHelper.hpp:34-43`). -/
def printVertex (m : HalfedgeMesh (Vec T 3)) (v : MeshVertex) : Res (List (Out T)) := do
  let p ← m.vector v
  return [text "Vertex index: ", idx v.idx, text "; "] ++ printInlineVec p ++ [endl]

/-- `print_inline(os, Facet)` (`DebugHelper.hpp:54-58`). -/
def printInlineFacet (m : HalfedgeMesh (Vec T 3)) (f : Facet) : Res (List (Out T)) := do
  let h ← m.facetHalfedge f
  return [text "Facet halfedge index: ", idx h.facet]

/-- `print(os, Facet)` (`DebugHelper.hpp:60-65`). -/
def printFacet (m : HalfedgeMesh (Vec T 3)) (f : Facet) : Res (List (Out T)) := do
  let o ← printInlineFacet m f
  return o ++ [endl]

/-- `print(os, Halfedge)` (`DebugHelper.hpp:76-90`). -/
def printHalfedge (m : HalfedgeMesh (Vec T 3)) (h : Halfedge) : Res (List (Out T)) := do
  let f ← m.heFacet h
  let v ← m.heVertex h
  let p ← m.heVector h
  return [text "Halfedge index: ", idx f.he, text "; Halfedge vertex index: ", idx v.idx, text "; Opposite halfedge index: ", idx h.opp,
    text "; Vertex vector, "] ++ printInlineVec p ++ [text "; ", text "Facet index: ", idx h.facet, endl]

/-- The three `print(os, const std::vector<..>&)` (`DebugHelper.hpp:45-52`, `67-74`, `92-99`): one element after the other. -/
def printAll {A : Type} (print : A → Res (List (Out T))) : List A → Res (List (Out T))
  | [] => .ok []
  | a :: l => do
    let o ← print a
    let os ← printAll print l
    return o ++ os
end
end Verif
