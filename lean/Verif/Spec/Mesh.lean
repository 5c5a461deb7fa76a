/-
What a triangle mesh built from a list of triangles should be, independent of the model.
-/
namespace Verif.Spec

/-- The corner points of a list of triangles, in order. -/
def corners {V : Type u} (ts : List (V × V × V)) : List V := ts.flatMap fun t => [t.1, t.2.1, t.2.2]

/-- The directed edges (start, end) of a list of triangles, in order: the k-th one starts at the k-th corner. -/
def directedEdges {V : Type u} (ts : List (V × V × V)) : List (V × V) :=
  ts.flatMap fun t => [(t.1, t.2.1), (t.2.1, t.2.2), (t.2.2, t.1)]

/-- The corner following corner `k` in the same triangle. -/
def nextCorner (k : Nat) : Nat := 3 * (k / 3) + (k % 3 + 1) % 3

/-- The corner preceding corner `k` in the same triangle. -/
def prevCorner (k : Nat) : Nat := 3 * (k / 3) + (k % 3 + 2) % 3

/-- A closed, consistently oriented surface: every directed edge is used by exactly one triangle corner and its reverse
is used as well. -/
def ClosedOriented {V : Type u} (ts : List (V × V × V)) : Prop :=
  (directedEdges ts).Nodup ∧ ∀ a b, (a, b) ∈ directedEdges ts → (b, a) ∈ directedEdges ts

/-- Apply a function to all corners. -/
def mapTriangle {V : Type u} {W : Type v} (f : V → W) (t : V × V × V) : W × W × W := (f t.1, f t.2.1, f t.2.2)

end Verif.Spec
