/-
How the outcome of a debug build relates to that of a release build.
-/
namespace Verif.Spec

/-- The debug build has the outcome of the release build (a value, or a failure such as reading out of range), unless it stops at an
assertion; the release build never stops at an assertion.  `stop` is that failure. -/
def SameUnlessStopped {ε : Type u} {α : Type v} (stop : ε) (debug release : Except ε α) : Prop :=
  (debug = release ∨ debug = .error stop) ∧ release ≠ .error stop

end Verif.Spec
