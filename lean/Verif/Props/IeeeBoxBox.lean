import Verif.Props.IeeeBox
import Verif.Proofs.Tol

set_option linter.unusedSectionVars false

/-
C169: boxes with NaN or infinite corners, tested against each other.
-/
namespace Verif
open Spec Ieee

section
variable {F : IeeeFormat} {D : Nat}

section
attribute [local instance] tolExact

theorem lessEq_exact (a b : Ieee F) : isLessEq a b = true ↔ a ≠ nan ∧ b ≠ nan ∧ ord a ≤ ord b := by
  show (decide (a < b) || (a == b)) = true ↔ _
  rw [Bool.or_eq_true, decide_eq_true_iff, beq_iff, le_iff_lt_or_eq]
  by_cases hb : b = nan
  · subst hb
    simp
  by_cases ha : a = nan
  · subst ha
    simp
  rw [lt_iff_ord hb]
  tauto

theorem greaterEq_exact (a b : Ieee F) : isGreaterEq a b = true ↔ a ≠ nan ∧ b ≠ nan ∧ ord b ≤ ord a := by
  show (decide (b < a) || (a == b)) = true ↔ _
  rw [Bool.or_eq_true, decide_eq_true_iff, beq_iff, le_iff_lt_or_eq]
  by_cases hb : b = nan
  · subst hb
    simp
  by_cases ha : a = nan
  · subst ha
    simp
  rw [lt_iff_ord ha, @eq_comm _ (ord a)]
  tauto

/-- **C169** With exact comparisons, two boxes are found apart exactly if, in some coordinate, the maximum of one and the minimum of the other are numbers (infinite ones
allowed) with the maximum not above the minimum. Missing: a NaN corner keeps nothing apart (`C169_counterexample`). -/
theorem C169_apart_partial (l r : AABB (Ieee F) D) : aabbIsIntersecting l r = false ↔
    ∃ i, (l.max i ≠ nan ∧ r.min i ≠ nan ∧ ord (l.max i) ≤ ord (r.min i)) ∨ (r.max i ≠ nan ∧ l.min i ≠ nan ∧ ord (r.max i) ≤ ord (l.min i)) := by
  unfold aabbIsIntersecting
  rw [forallFin_false_iff]
  refine exists_congr fun i => ?_
  rw [Bool.not_eq_false', Bool.or_eq_true, lessEq_exact, greaterEq_exact]
  tauto
end

variable [Tol (Ieee F)]

/-- **C169** (it is false) A box of NaNs counts as valid and not empty, meets every box, and the intersection with it is the first of the two: the answer depends on the
order. (If comparisons with NaN are false.) -/
theorem C169_counterexample (h1 : ∀ a : Ieee F, isLessEq nan a = false ∧ isLessEq a nan = false)
    (h2 : ∀ a : Ieee F, isGreaterEq nan a = false ∧ isGreaterEq a nan = false) (h3 : isGreater (nan : Ieee F) nan = false) (b : AABB (Ieee F) D) (dbg : Bool)
    (hb : b.isValid = true) :
    (⟨fun _ => nan, fun _ => nan⟩ : AABB (Ieee F) D).isValid = true ∧ (⟨fun _ => nan, fun _ => nan⟩ : AABB (Ieee F) D).isEmpty = false ∧
      aabbIsIntersecting b ⟨fun _ => nan, fun _ => nan⟩ = true ∧ aabbIsIntersecting ⟨fun _ => nan, fun _ => nan⟩ b = true ∧
      aabbIntersect dbg b ⟨fun _ => nan, fun _ => nan⟩ = .ok b ∧
      aabbIntersect dbg ⟨fun _ => nan, fun _ => nan⟩ b = .ok ⟨fun _ => nan, fun _ => nan⟩ := by
  have n1 : ∀ a : Ieee F, ¬ a < nan := fun a h => by cases a <;> exact h
  have n2 : ∀ a : Ieee F, ¬ nan < a := fun a h => by cases a <;> exact h
  have hv : (⟨fun _ => nan, fun _ => nan⟩ : AABB (Ieee F) D).isValid = true := by
    unfold AABB.isValid
    rw [forallFin_iff]
    intro i
    simp [h2]
  have e1 : (forallFin D fun i => !(isLessEq (b.max i) nan || isGreaterEq (b.min i) nan)) = true := by
    rw [forallFin_iff]
    intro i
    simp [h1, h2]
  have e2 : (forallFin D fun i => !(isLessEq nan (b.min i) || isGreaterEq nan (b.max i))) = true := by
    rw [forallFin_iff]
    intro i
    simp [h1, h2]
  refine ⟨hv, ?_, e1, e2, ?_, ?_⟩
  · unfold AABB.isEmpty
    rw [Bool.not_eq_false', forallFin_iff]
    intro i
    simp [h3]
  · unfold aabbIntersect
    simp only [e1, if_true]
    have : (⟨fun i => stdMax (b.min i) nan, fun i => stdMin (b.max i) nan⟩ : AABB (Ieee F) D) = b := by
      simp only [stdMax, stdMin, if_neg (n1 _), if_neg (n2 _)]
    unfold AABB.mk?
    simp only [this, hb, geoAssert_true]
    rfl
  · unfold aabbIntersect
    simp only [e2, if_true]
    have : (⟨fun i => stdMax nan (b.min i), fun i => stdMin nan (b.max i)⟩ : AABB (Ieee F) D) = ⟨fun _ => nan, fun _ => nan⟩ := by
      simp only [stdMax, stdMin, if_neg (n1 _), if_neg (n2 _)]
    unfold AABB.mk?
    simp only [this, hv, geoAssert_true]
    rfl
end

section Examples
attribute [local instance] tolExact

/-- The half space below 3 and the half space above 3 are apart. -/
example : aabbIsIntersecting (⟨![inf true, inf true], ![inf false, ie64 3]⟩ : AABB (Ieee double64) 2) ⟨![inf true, ie64 3], ![inf false, inf false]⟩ = false :=
  (C169_apart_partial _ _).2 ⟨1, .inl ⟨(fun h => by cases h), (fun h => by cases h), le_refl _⟩⟩

/-- With a NaN in the coordinate in which they are apart, they meet. -/
example : aabbIsIntersecting (⟨![ie64 0, ie64 0], ![ie64 4, nan]⟩ : AABB (Ieee double64) 2) ⟨![ie64 1, ie64 7], ![ie64 2, ie64 9]⟩ = true := by
  rw [← Bool.not_eq_false, C169_apart_partial]
  rintro ⟨i, h⟩
  have o : ∀ (n : ℤ) (hn : |n| < 2 ^ 53), ord (ie64 n hn) = ((n : ℝ) : EReal) := fun n hn => rfl
  fin_cases i
  · rcases h with ⟨-, -, h⟩ | ⟨-, -, h⟩
    · have h : ord (ie64 4) ≤ ord (ie64 1) := h
      rw [o, o, EReal.coe_le_coe_iff] at h; norm_num at h
    · have h : ord (ie64 2) ≤ ord (ie64 0) := h
      rw [o, o, EReal.coe_le_coe_iff] at h; norm_num at h
  · rcases h with ⟨h, -, -⟩ | ⟨-, -, h⟩
    · exact h rfl
    · have h : ord (ie64 9) ≤ ord (ie64 0) := h
      rw [o, o, EReal.coe_le_coe_iff] at h; norm_num at h

/-- The box from (0, 0) to (4, 5) and the box of NaNs. -/
example : aabbIsIntersecting (⟨![ie64 0, ie64 0], ![ie64 4, ie64 5]⟩ : AABB (Ieee double64) 2) ⟨fun _ => nan, fun _ => nan⟩ = true := by
  refine (C169_counterexample (F := double64) (fun a => ?_) (fun a => ?_) (by show decide (_ < _) = _; simp) ⟨![ie64 0, ie64 0], ![ie64 4, ie64 5]⟩ true ?_).2.2.1
  · constructor <;> rw [← Bool.not_eq_true, lessEq_exact] <;> tauto
  · constructor <;> rw [← Bool.not_eq_true, greaterEq_exact] <;> tauto
  · unfold AABB.isValid
    rw [forallFin_iff]
    have o : ∀ (n : ℤ) (hn : |n| < 2 ^ 53), ord (ie64 n hn) = ((n : ℝ) : EReal) := fun n hn => rfl
    intro i
    rw [Bool.not_eq_true', ← Bool.not_eq_true, greaterEq_exact]
    rintro ⟨-, -, h⟩
    fin_cases i
    · have h : ord (ie64 4) ≤ ord (ie64 0) := h
      rw [o, o, EReal.coe_le_coe_iff] at h; norm_num at h
    · have h : ord (ie64 5) ≤ ord (ie64 0) := h
      rw [o, o, EReal.coe_le_coe_iff] at h; norm_num at h
end Examples
end Verif
