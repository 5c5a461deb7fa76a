import Verif.Model.Linal
import Verif.Proofs.Real
import Mathlib.Algebra.Order.Field.Basic
import Mathlib.Algebra.Order.Field.Rat

/-
Laws assumed of the tolerance comparisons of `linal`, and consequences.
-/
namespace Verif

/-- Assumed behaviour of `linal::isLess` and friends over exact numbers, for a positive tolerance: `isLess a b e`
is decided by `b - a > e`; what happens at exactly `b - a = e` is left open. -/
class LawfulTol (K : Type*) [Field K] [LinearOrder K] [IsStrictOrderedRing K] [Tol K] : Prop where
  eps_pos : 0 < (Tol.eps : K)
  isLess_of : ∀ {a b e : K}, 0 < e → a + e < b → Tol.isLess a b e = true
  of_isLess : ∀ {a b e : K}, 0 < e → Tol.isLess a b e = true → a + e ≤ b
  isGreater_eq : ∀ a b e : K, 0 < e → Tol.isGreater a b e = Tol.isLess b a e
  isLessEq_eq : ∀ a b e : K, 0 < e → Tol.isLessEq a b e = !Tol.isLess b a e
  isGreaterEq_eq : ∀ a b e : K, 0 < e → Tol.isGreaterEq a b e = !Tol.isLess a b e
  isEq_eq : ∀ a b e : K, 0 < e → Tol.isEq a b e = (!Tol.isLess a b e && !Tol.isLess b a e)
  isZero_eq : ∀ a e : K, 0 < e → Tol.isZero a e = Tol.isEq a 0 e

/-- Witness 1: `isLess a b e := b - a > e`. -/
@[reducible] def strictTol (K : Type*) [Field K] [LinearOrder K] (e : K) : Tol K where
  eps := e
  isLess a b e := decide (a + e < b)
  isGreater a b e := decide (b + e < a)
  isLessEq a b e := !decide (b + e < a)
  isGreaterEq a b e := !decide (a + e < b)
  isEq a b e := !decide (a + e < b) && !decide (b + e < a)
  isZero a e := !decide (a + e < 0) && !decide (0 + e < a)

/-- Witness 2: `isEq a b e := |a - b| < e`, `isLess := a < b && !isEq`. -/
@[reducible] def looseTol (K : Type*) [Field K] [LinearOrder K] (e : K) : Tol K where
  eps := e
  isLess a b e := decide (a + e ≤ b)
  isGreater a b e := decide (b + e ≤ a)
  isLessEq a b e := !decide (b + e ≤ a)
  isGreaterEq a b e := !decide (a + e ≤ b)
  isEq a b e := !decide (a + e ≤ b) && !decide (b + e ≤ a)
  isZero a e := !decide (a + e ≤ 0) && !decide (0 + e ≤ a)

section
variable {K : Type*} [Field K] [LinearOrder K] [IsStrictOrderedRing K]

theorem strictTol_lawful {e : K} (he : 0 < e) : @LawfulTol K _ _ _ (strictTol K e) := by
  let _ := strictTol K e
  exact {
    eps_pos := he
    isLess_of := fun _ h => decide_eq_true h
    of_isLess := fun _ h => (of_decide_eq_true h).le
    isGreater_eq := fun _ _ _ _ => rfl
    isLessEq_eq := fun _ _ _ _ => rfl
    isGreaterEq_eq := fun _ _ _ _ => rfl
    isEq_eq := fun _ _ _ _ => rfl
    isZero_eq := fun _ _ _ => rfl }

theorem looseTol_lawful {e : K} (he : 0 < e) : @LawfulTol K _ _ _ (looseTol K e) := by
  let _ := looseTol K e
  exact {
    eps_pos := he
    isLess_of := fun _ h => decide_eq_true h.le
    of_isLess := fun _ h => of_decide_eq_true h
    isGreater_eq := fun _ _ _ _ => rfl
    isLessEq_eq := fun _ _ _ _ => rfl
    isGreaterEq_eq := fun _ _ _ _ => rfl
    isEq_eq := fun _ _ _ _ => rfl
    isZero_eq := fun _ _ _ => rfl }

variable [Tol K] [LawfulTol K]

/-- The default tolerance. -/
abbrev eps : K := Tol.eps

theorem eps_pos : (0 : K) < eps := LawfulTol.eps_pos

theorem isLess_true {a b : K} (h : a + eps < b) : isLess a b = true := LawfulTol.isLess_of eps_pos h
theorem of_isLess {a b : K} (h : isLess a b = true) : a + eps ≤ b := LawfulTol.of_isLess eps_pos h
theorem of_not_isLess {a b : K} (h : isLess a b = false) : b ≤ a + eps := by
  by_contra hc; rw [isLess_true (not_le.1 hc)] at h; cases h
theorem not_isLess {a b : K} (h : b < a + eps) : isLess a b = false := by
  by_contra hc; exact absurd (of_isLess (by simpa using hc)) (not_le.2 h)
theorem not_isLess_of_le {a b : K} (h : b ≤ a) : isLess a b = false := not_isLess (by have := eps_pos (K := K); linarith)

theorem isGreater_eq (a b : K) : isGreater a b = isLess b a := LawfulTol.isGreater_eq _ _ _ eps_pos
theorem isLessEq_eq (a b : K) : isLessEq a b = !isLess b a := LawfulTol.isLessEq_eq _ _ _ eps_pos
theorem isGreaterEq_eq (a b : K) : isGreaterEq a b = !isLess a b := LawfulTol.isGreaterEq_eq _ _ _ eps_pos
theorem isEq_eq (a b : K) : isEq a b = (!isLess a b && !isLess b a) := LawfulTol.isEq_eq _ _ _ eps_pos
theorem isZero_eq (a : K) : isZero a = (!isLess a 0 && !isLess 0 a) := by
  rw [isZero, LawfulTol.isZero_eq _ _ eps_pos]; exact isEq_eq a 0

theorem of_isZero {a : K} (h : isZero a = true) : |a| ≤ eps := by
  rw [isZero_eq] at h; simp only [Bool.and_eq_true, Bool.not_eq_true'] at h
  have h1 := of_not_isLess h.1; have h2 := of_not_isLess h.2
  rw [abs_le]; constructor <;> linarith
theorem of_not_isZero {a : K} (h : isZero a = false) : eps ≤ |a| := by
  rw [isZero_eq] at h
  simp only [Bool.and_eq_false_iff, Bool.not_eq_false'] at h
  rcases h with h | h
  · have := of_isLess h; rw [le_abs]; right; linarith
  · have := of_isLess h; rw [le_abs]; left; linarith
theorem isZero_true {a : K} (h : |a| < eps) : isZero a = true := by
  by_contra hc; exact absurd (of_not_isZero (by simpa using hc)) (not_le.2 h)
theorem isZero_false {a : K} (h : eps < |a|) : isZero a = false := by
  by_contra hc; exact absurd (of_isZero (by simpa using hc)) (not_le.2 h)
theorem ne_zero_of_not_isZero {a : K} (h : isZero a = false) : a ≠ 0 := by
  rintro rfl; have := of_not_isZero h; have := eps_pos (K := K); simp at *; linarith

/-! The same facts for a tolerance `e` passed explicitly. -/
namespace TolE
variable {e a b : K}
theorem less_true (he : 0 < e) (h : a + e < b) : Tol.isLess a b e = true := LawfulTol.isLess_of he h
theorem of_less (he : 0 < e) (h : Tol.isLess a b e = true) : a + e ≤ b := LawfulTol.of_isLess he h
theorem of_not_less (he : 0 < e) (h : Tol.isLess a b e = false) : b ≤ a + e := by
  by_contra hc; rw [less_true he (not_le.1 hc)] at h; cases h
theorem less_false (he : 0 < e) (h : b < a + e) : Tol.isLess a b e = false := by
  by_contra hc; exact absurd (of_less he (by simpa using hc)) (not_le.2 h)
theorem greater_eq (he : 0 < e) (a b : K) : Tol.isGreater a b e = Tol.isLess b a e := LawfulTol.isGreater_eq _ _ _ he
theorem lessEq_eq (he : 0 < e) (a b : K) : Tol.isLessEq a b e = !Tol.isLess b a e := LawfulTol.isLessEq_eq _ _ _ he
theorem greaterEq_eq (he : 0 < e) (a b : K) : Tol.isGreaterEq a b e = !Tol.isLess a b e := LawfulTol.isGreaterEq_eq _ _ _ he
theorem zero_eq (he : 0 < e) (a : K) : Tol.isZero a e = (!Tol.isLess a 0 e && !Tol.isLess 0 a e) := by
  rw [LawfulTol.isZero_eq _ _ he]; exact LawfulTol.isEq_eq _ _ _ he
theorem of_zero (he : 0 < e) (h : Tol.isZero a e = true) : |a| ≤ e := by
  rw [zero_eq he] at h; simp only [Bool.and_eq_true, Bool.not_eq_true'] at h
  have h1 := of_not_less he h.1; have h2 := of_not_less he h.2
  rw [abs_le]; constructor <;> linarith
theorem of_not_zero (he : 0 < e) (h : Tol.isZero a e = false) : e ≤ |a| := by
  rw [zero_eq he] at h
  simp only [Bool.and_eq_false_iff, Bool.not_eq_false'] at h
  rcases h with h | h
  · have := of_less he h; rw [le_abs]; right; linarith
  · have := of_less he h; rw [le_abs]; left; linarith
theorem zero_true (he : 0 < e) (h : |a| < e) : Tol.isZero a e = true := by
  by_contra hc; exact absurd (of_not_zero he (by simpa using hc)) (not_le.2 h)
theorem zero_false (he : 0 < e) (h : e < |a|) : Tol.isZero a e = false := by
  by_contra hc; exact absurd (of_zero he (by simpa using hc)) (not_le.2 h)
theorem ne_zero (he : 0 < e) (h : Tol.isZero a e = false) : a ≠ 0 := by
  rintro rfl; have := of_not_zero he h; simp at this; linarith
end TolE
end

theorem forallFin_iff {D : ℕ} (p : Fin D → Bool) : forallFin D p = true ↔ ∀ i, p i = true := by
  unfold forallFin
  induction D with
  | zero => simp
  | succ n ih =>
    rw [Fin.foldl_succ_last, Bool.and_eq_true, ih]
    constructor
    · rintro ⟨h1, h2⟩ i
      exact Fin.lastCases h2 h1 i
    · intro h; exact ⟨fun i => h _, h _⟩

theorem forallFin_false_iff {D : ℕ} (p : Fin D → Bool) : forallFin D p = false ↔ ∃ i, p i = false := by
  rw [← Bool.not_eq_true, forallFin_iff]; simp

end Verif
