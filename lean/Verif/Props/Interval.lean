import Verif.Proofs.TolExample
import Verif.Model.Interval
import Verif.Proofs.Tol
import Verif.Spec.Box
import Mathlib.Tactic.NormNum

/-
Properties C06, C07.  `K` is any ordered field (exact arithmetic).
-/
namespace Verif
variable {K : Type*} [Field K] [LinearOrder K] [IsStrictOrderedRing K] [Tol K] [LawfulTol K]

/-- Length of the common part of two intervals (negative: length of the gap). -/
def Spec.overlap (l r : Interval K) : K := min l.stop r.stop - max l.start r.start

theorem intersectInterval_code (l r o : Interval K) : (intersectInterval l r o).1 =
    if isLess l.stop r.start || isLess r.stop l.start then 0
    else if isLess r.start l.stop && isLess l.start r.stop then 2 else 1 := by
  simp only [intersectInterval, isGreater_eq]
  cases isLess l.stop r.start <;> cases isLess r.stop l.start <;> cases isLess r.start l.stop <;>
    cases isLess l.start r.stop <;> simp

/-- **C06** code 0 means separated, for all intervals: it is returned when the gap is larger than eps, and only when
the gap is at least eps. -/
theorem C06_code_zero (l r o : Interval K) (hl : l.start ≤ l.stop) (hr : r.start ≤ r.stop) :
    (Spec.overlap l r < -eps → (intersectInterval l r o).1 = 0) ∧
    ((intersectInterval l r o).1 = 0 → Spec.overlap l r ≤ -eps) := by
  have he := eps_pos (K := K)
  rw [intersectInterval_code]
  unfold Spec.overlap
  constructor
  · intro h
    have : min l.stop r.stop + eps < max l.start r.start := by linarith
    rw [min_add, min_lt_iff, lt_max_iff, lt_max_iff] at this
    rcases this with (h | h) | (h | h)
    · linarith
    · simp [isLess_true h]
    · simp [isLess_true h]
    · linarith
  · intro h
    have : isLess l.stop r.start = true ∨ isLess r.stop l.start = true := by
      by_contra hc
      simp only [not_or, Bool.not_eq_true] at hc
      simp only [hc.1, hc.2, Bool.or_self, Bool.false_eq_true, if_false] at h
      split at h <;> simp at h
    rcases this with h | h <;> have := of_isLess h
    · have h1 := min_le_left l.stop r.stop
      have h2 := le_max_right l.start r.start
      linarith
    · have h1 := min_le_right l.stop r.stop
      have h2 := le_max_left l.start r.start
      linarith

/-- **C06** (partial: intervals longer than eps; see `C06_degenerate_counterexample` for the rest).
The return code is 0, 1 or 2; it is 2 when the overlap is larger than eps (and only if it is at least eps), and 1
when the intervals touch within eps. -/
theorem C06_code_partial (l r o : Interval K) (hl : l.start + eps < l.stop) (hr : r.start + eps < r.stop) :
    ((intersectInterval l r o).1 = 0 ∨ (intersectInterval l r o).1 = 1 ∨ (intersectInterval l r o).1 = 2) ∧
    (eps < Spec.overlap l r → (intersectInterval l r o).1 = 2) ∧
    ((intersectInterval l r o).1 = 2 → eps ≤ Spec.overlap l r) ∧
    (|Spec.overlap l r| < eps → (intersectInterval l r o).1 = 1) ∧
    ((intersectInterval l r o).1 = 1 → |Spec.overlap l r| ≤ eps) := by
  have he := eps_pos (K := K)
  have hcode : (intersectInterval l r o).1 = 0 ∨ (intersectInterval l r o).1 = 1 ∨ (intersectInterval l r o).1 = 2 := by
    rw [intersectInterval_code]; split
    · simp
    · split <;> simp
  have h2a : eps < Spec.overlap l r → (intersectInterval l r o).1 = 2 := by
    intro h
    unfold Spec.overlap at h
    have h1 : max l.start r.start + eps < min l.stop r.stop := by linarith
    rw [lt_min_iff, max_add, max_lt_iff, max_lt_iff] at h1
    obtain ⟨⟨a1, a2⟩, ⟨a3, a4⟩⟩ := h1
    rw [intersectInterval_code, isLess_true a2, isLess_true a3, not_isLess_of_le (by linarith), not_isLess_of_le (by linarith)]
    simp
  have h2b : (intersectInterval l r o).1 = 2 → eps ≤ Spec.overlap l r := by
    rw [intersectInterval_code]
    intro h
    split at h
    · simp at h
    · split at h
      · rename_i hc
        rw [Bool.and_eq_true] at hc
        have b1 := of_isLess hc.1
        have b2 := of_isLess hc.2
        unfold Spec.overlap
        rw [le_sub_iff_add_le, add_comm, le_min_iff, max_add, max_le_iff, max_le_iff]
        refine ⟨⟨by linarith, b1⟩, ⟨b2, by linarith⟩⟩
      · simp at h
  have h0 := C06_code_zero l r o (by linarith) (by linarith)
  refine ⟨hcode, h2a, h2b, ?_, ?_⟩
  · intro h
    rw [abs_lt] at h
    rcases hcode with c | c | c
    · have := h0.2 c; linarith [h.1]
    · exact c
    · have := h2b c; linarith [h.2]
  · intro h
    rw [abs_le]
    constructor
    · by_contra hc
      have := h0.1 (not_le.1 hc)
      rw [h] at this; cases this
    · by_contra hc
      have := h2a (not_le.1 hc)
      rw [h] at this; cases this

/-- **C06** is false for intervals that are a single point: `[1,1]` and `[0,2]` have exactly one common point, yet the
code says "interval" (2) instead of "single point" (1). -/
theorem C06_degenerate_counterexample (h : (eps : K) < 1) (o : Interval K) :
    (intersectInterval ⟨1, 1⟩ ⟨0, 2⟩ o).1 = 2 ∧
    ∀ x : K, (Spec.inInterval 1 1 0 x ∧ Spec.inInterval 0 2 0 x) ↔ x = 1 := by
  have he := eps_pos (K := K)
  refine ⟨?_, ?_⟩
  · rw [intersectInterval_code, isLess_true (a := (0:K)) (b := 1) (by linarith), isLess_true (a := (1:K)) (b := 2) (by linarith),
      not_isLess_of_le (a := (1:K)) (b := 0) (by linarith), not_isLess_of_le (a := (2:K)) (b := 1) (by linarith)]
    simp
  · intro x
    simp only [Spec.inInterval, sub_zero, add_zero]
    constructor
    · rintro ⟨⟨h1, h2⟩, _⟩; exact le_antisymm h2 h1
    · rintro rfl; exact ⟨⟨le_refl _, le_refl _⟩, by linarith, by linarith⟩

/-- **C07** code 2: the written interval is the common part: it contains every common point, and each of its points is
common up to eps. -/
theorem C07_result_two (l r o : Interval K) (h : (intersectInterval l r o).1 = 2) :
    (∀ x, Spec.inInterval l.start l.stop 0 x → Spec.inInterval r.start r.stop 0 x →
      Spec.inInterval (intersectInterval l r o).2.start (intersectInterval l r o).2.stop 0 x) ∧
    (∀ x, Spec.inInterval (intersectInterval l r o).2.start (intersectInterval l r o).2.stop 0 x →
      Spec.inInterval l.start l.stop eps x ∧ Spec.inInterval r.start r.stop eps x) := by
  have he := eps_pos (K := K)
  have hs : (intersectInterval l r o).2 =
      ⟨if isLess l.start r.start then r.start else l.start, if isLess r.stop l.stop then r.stop else l.stop⟩ := by
    simp only [intersectInterval, isGreater_eq] at h ⊢
    revert h
    cases isLess l.stop r.start <;> cases isLess r.stop l.start <;> cases isLess r.start l.stop <;>
      cases isLess l.start r.stop <;> cases isLess l.start r.start <;> cases isLess r.stop l.stop <;> simp
  rw [hs]
  simp only [Spec.inInterval, sub_zero, add_zero]
  constructor
  · rintro x ⟨h1, h2⟩ ⟨h3, h4⟩
    constructor <;> split <;> assumption
  · rintro x ⟨h1, h2⟩
    cases c1 : isLess l.start r.start <;> cases c2 : isLess r.stop l.stop <;>
      simp only [c1, c2, Bool.false_eq_true, if_false, if_true] at h1 h2 <;>
      first
        | (have d1 := of_isLess c1) | (have d1 := of_not_isLess c1)
    all_goals first
        | (have d2 := of_isLess c2) | (have d2 := of_not_isLess c2)
    all_goals exact ⟨⟨by linarith, by linarith⟩, ⟨by linarith, by linarith⟩⟩

/-- **C07** code 1: the written start is common to both intervals up to eps; code 0 writes nothing. -/
theorem C07_result_one (l r o : Interval K) (hl : l.start ≤ l.stop) (hr : r.start ≤ r.stop) :
    ((intersectInterval l r o).1 = 1 →
      Spec.inInterval l.start l.stop eps (intersectInterval l r o).2.start ∧
      Spec.inInterval r.start r.stop eps (intersectInterval l r o).2.start ∧
      (intersectInterval l r o).2.stop = o.stop) ∧
    ((intersectInterval l r o).1 = 0 → (intersectInterval l r o).2 = o) := by
  have he := eps_pos (K := K)
  simp only [intersectInterval, isGreater_eq]
  cases c1 : isLess l.stop r.start <;> cases c2 : isLess r.stop l.start <;> cases c3 : isLess r.start l.stop <;>
    cases c4 : isLess l.start r.stop <;> simp [Spec.inInterval]
  all_goals
    have d1 := of_not_isLess c1
    have d2 := of_not_isLess c2
    first | (have d3 := of_not_isLess c3) | (have d3 := of_isLess c3)
    first | (have d4 := of_not_isLess c4) | (have d4 := of_isLess c4)
  all_goals refine ⟨⟨?_, ?_⟩, ?_, ?_⟩ <;> linarith

/-- **C07** argument order: same code, and the written bounds agree up to eps. -/
theorem C07_symmetric (l r o : Interval K) (hl : l.start ≤ l.stop) (hr : r.start ≤ r.stop) :
    (intersectInterval l r o).1 = (intersectInterval r l o).1 ∧
    |(intersectInterval l r o).2.start - (intersectInterval r l o).2.start| ≤ eps ∧
    |(intersectInterval l r o).2.stop - (intersectInterval r l o).2.stop| ≤ eps := by
  have he := eps_pos (K := K)
  refine ⟨?_, ?_⟩
  · rw [intersectInterval_code, intersectInterval_code, Bool.or_comm, Bool.and_comm]
  · simp only [intersectInterval, isGreater_eq]
    cases c1 : isLess l.stop r.start <;> cases c2 : isLess r.stop l.start <;> cases c3 : isLess r.start l.stop <;>
      cases c4 : isLess l.start r.stop <;> cases c5 : isLess l.start r.start <;> cases c6 : isLess r.stop l.stop <;>
      cases c7 : isLess r.start l.start <;> cases c8 : isLess l.stop r.stop <;>
      simp only [Bool.or_true, Bool.or_false, Bool.false_eq_true, if_true, if_false, sub_self, abs_zero,
        eps_pos.le, and_self, and_true, true_and]
    all_goals
      have d1 := of_not_isLess c1
      have d2 := of_not_isLess c2
      first | (have d3 := of_not_isLess c3) | (have d3 := of_isLess c3)
      first | (have d4 := of_not_isLess c4) | (have d4 := of_isLess c4)
      first | (have d5 := of_not_isLess c5) | (have d5 := of_isLess c5)
      first | (have d6 := of_not_isLess c6) | (have d6 := of_isLess c6)
      first | (have d7 := of_not_isLess c7) | (have d7 := of_isLess c7)
      first | (have d8 := of_not_isLess c8) | (have d8 := of_isLess c8)
    all_goals simp only [abs_le]
    all_goals first
      | exact ⟨by linarith, by linarith⟩
      | exact ⟨⟨by linarith, by linarith⟩, by linarith, by linarith⟩

section Examples
attribute [local instance] ratTol ratTol_lawful
example : (intersectInterval (⟨0, 3⟩ : Interval ℚ) ⟨1, 5⟩ ⟨0, 0⟩) = (2, ⟨1, 3⟩) := by decide +kernel
example : (intersectInterval (⟨0, 1⟩ : Interval ℚ) ⟨1, 5⟩ ⟨0, 0⟩) = (1, ⟨1, 0⟩) := by decide +kernel
example : (intersectInterval (⟨0, 1⟩ : Interval ℚ) ⟨2, 5⟩ ⟨0, 0⟩).1 = 0 := by decide +kernel
example : ((⟨0, 3⟩ : Interval ℚ).start + eps < 3) ∧ (eps : ℚ) < Spec.overlap ⟨0, 3⟩ ⟨1, 5⟩ := by
  constructor <;> norm_num [Spec.overlap, eps, Tol.eps]
/-! The theorems applied. -/
example : (intersectInterval (⟨0, 1⟩ : Interval ℚ) ⟨2, 5⟩ ⟨0, 0⟩).1 = 0 :=
  (C06_code_zero ⟨0, 1⟩ ⟨2, 5⟩ ⟨0, 0⟩ (by norm_num) (by norm_num)).1 (by norm_num [Spec.overlap, eps, Tol.eps])
example : (intersectInterval (⟨0, 3⟩ : Interval ℚ) ⟨1, 5⟩ ⟨0, 0⟩).1 = 2 :=
  (C06_code_partial ⟨0, 3⟩ ⟨1, 5⟩ ⟨0, 0⟩ (by norm_num [eps, Tol.eps]) (by norm_num [eps, Tol.eps])).2.1 (by norm_num [Spec.overlap, eps, Tol.eps])
/-- A common point only. -/
example : (intersectInterval (⟨0, 1⟩ : Interval ℚ) ⟨1, 5⟩ ⟨0, 0⟩).1 = 1 :=
  (C06_code_partial ⟨0, 1⟩ ⟨1, 5⟩ ⟨0, 0⟩ (by norm_num [eps, Tol.eps]) (by norm_num [eps, Tol.eps])).2.2.2.1 (by norm_num [Spec.overlap, eps, Tol.eps])
example : (intersectInterval (⟨1, 1⟩ : Interval ℚ) ⟨0, 2⟩ ⟨7, 8⟩).1 = 2 :=
  (C06_degenerate_counterexample (by norm_num [eps, Tol.eps]) ⟨7, 8⟩).1
/-- Everything common to [0, 3] and [1, 5] is in the result. -/
example (x : ℚ) (h1 : Spec.inInterval 0 3 0 x) (h2 : Spec.inInterval 1 5 0 x) :
    Spec.inInterval (intersectInterval (⟨0, 3⟩ : Interval ℚ) ⟨1, 5⟩ ⟨0, 0⟩).2.start (intersectInterval (⟨0, 3⟩ : Interval ℚ) ⟨1, 5⟩ ⟨0, 0⟩).2.stop 0 x :=
  (C07_result_two ⟨0, 3⟩ ⟨1, 5⟩ ⟨0, 0⟩ (by decide +kernel)).1 x h1 h2
example : Spec.inInterval 0 1 eps (intersectInterval (⟨0, 1⟩ : Interval ℚ) ⟨1, 5⟩ ⟨0, 0⟩).2.start :=
  ((C07_result_one (⟨0, 1⟩ : Interval ℚ) ⟨1, 5⟩ ⟨0, 0⟩ (by norm_num) (by norm_num)).1 (by decide +kernel)).1
example : (intersectInterval (⟨0, 3⟩ : Interval ℚ) ⟨1, 5⟩ ⟨0, 0⟩).1 = (intersectInterval (⟨1, 5⟩ : Interval ℚ) ⟨0, 3⟩ ⟨0, 0⟩).1 :=
  (C07_symmetric ⟨0, 3⟩ ⟨1, 5⟩ ⟨0, 0⟩ (by norm_num) (by norm_num)).1
end Examples
end Verif
