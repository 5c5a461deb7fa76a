import Verif.Spec.Mesh
import Mathlib.Logic.Relation

/-
Surfaces that are connected and have no pinched vertex.
-/
namespace Verif.Spec
open Relation

variable {V : Type u}

/-- The triangles `t` and `t'` have a common edge that starts or ends at `v` and is run through in opposite directions. -/
def EdgeAt (v : V) (t t' : V × V × V) : Prop :=
  ∃ b, (v, b) ∈ directedEdges [t] ∧ (b, v) ∈ directedEdges [t'] ∨ (b, v) ∈ directedEdges [t] ∧ (v, b) ∈ directedEdges [t']

/-- The surface is connected: from every triangle one can walk to every other one across common edges. -/
def OnePiece (ts : List (V × V × V)) : Prop :=
  ∀ t ∈ ts, ∀ t' ∈ ts, ReflTransGen (fun x y => y ∈ ts ∧ ∃ v, EdgeAt v x y) t t'

/-- The triangles around `v` form one fan: from every triangle with the corner `v` one can walk to every other one across edges at `v`. -/
def OneFan (ts : List (V × V × V)) (v : V) : Prop :=
  ∀ t ∈ ts, ∀ t' ∈ ts, v ∈ corners [t] → v ∈ corners [t'] → ReflTransGen (fun x y => y ∈ ts ∧ EdgeAt v x y) t t'

end Verif.Spec
