import Verif.Model.Handle
import Mathlib.Tactic.Tauto

/-
C70: handles.
-/
namespace Verif

/-- **C70** The six comparisons are those of a total order on the handles: exactly one of `<`, `==`, `>` holds, `<` is
transitive, `<=` is "less or equal", `>=` and `>` are the converses, `==` is equality and `!=` its negation. -/
theorem C70_order (a b c : Handle) :
    (Handle.eq a b = true ↔ a = b) ∧ (Handle.ne a b = true ↔ a ≠ b) ∧
    (Handle.lt a b = true ∨ Handle.eq a b = true ∨ Handle.gt a b = true) ∧
    ¬ (Handle.lt a b = true ∧ Handle.eq a b = true) ∧ ¬ (Handle.lt a b = true ∧ Handle.gt a b = true) ∧
    ¬ (Handle.gt a b = true ∧ Handle.eq a b = true) ∧
    (Handle.lt a b = true → Handle.lt b c = true → Handle.lt a c = true) ∧
    (Handle.le a b = true ↔ Handle.lt a b = true ∨ a = b) ∧ (Handle.ge a b = true ↔ Handle.gt a b = true ∨ a = b) ∧
    (Handle.gt a b = true ↔ Handle.lt b a = true) := by
  obtain ⟨a⟩ := a; obtain ⟨b⟩ := b; obtain ⟨c⟩ := c
  simp only [Handle.eq, Handle.ne, Handle.lt, Handle.gt, Handle.le, Handle.ge, Handle.mk.injEq, beq_iff_eq,
    ne_eq, decide_eq_true_eq, Bool.not_eq_true', decide_eq_false_iff_not, beq_eq_false_iff_ne]
  refine ⟨?_, ?_, ?_, ?_, ?_, ?_, ?_, ?_, ?_, ?_⟩ <;> first | tauto | omega

/-- **C70** Of the `M` values exactly one is invalid, the largest; the index types are invalid by default. -/
theorem C70_invalid (M : Nat) (hM : 0 < M) :
    (∃ i, i < M ∧ (Handle.mk i).isValid M = false ∧ ∀ j < M, (Handle.mk j).isValid M = false → j = i) ∧
    (∀ i, i + 1 < M → (Handle.mk i).isValid M = true) ∧
    (Handle.defaultIndex M).isValid M = false := by
  refine ⟨⟨M - 1, by omega, by simp [Handle.isValid], ?_⟩, ?_, by simp [Handle.isValid, Handle.defaultIndex]⟩
  · intro j hj h
    simpa [Handle.isValid] using h
  · intro i hi
    simp [Handle.isValid]; omega

/-- **C70** The remaining claim is false: a default constructed plain `Handle` is valid (it equals the handle of
element 0). -/
theorem C70_counterexample (M : Nat) (hM : 1 < M) :
    Handle.default.isValid M = true ∧ Handle.eq Handle.default ⟨0⟩ = true := by
  constructor
  · simp [Handle.isValid, Handle.default]; omega
  · rfl

example : Handle.lt ⟨3⟩ ⟨5⟩ = true ∧ Handle.le ⟨5⟩ ⟨5⟩ = true ∧ Handle.gt ⟨3⟩ ⟨5⟩ = false := by decide
example : (Handle.mk 255).isValid 256 = false ∧ (Handle.mk 254).isValid 256 = true := by decide
example : Handle.default.isValid (2 ^ 64) = true := (C70_counterexample (2 ^ 64) (by decide)).1
/-- Three handles in order, and the invalid one of an 8-bit index type. -/
example : Handle.lt ⟨3⟩ ⟨9⟩ = true := (C70_order ⟨3⟩ ⟨5⟩ ⟨9⟩).2.2.2.2.2.2.1 rfl rfl
example : (Handle.mk 254).isValid 256 = true ∧ (Handle.defaultIndex 256).isValid 256 = false :=
  ⟨(C70_invalid 256 (by decide)).2.1 254 (by decide), (C70_invalid 256 (by decide)).2.2⟩
end Verif
