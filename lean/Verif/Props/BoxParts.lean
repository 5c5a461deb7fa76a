import Verif.Props.AABB
import Verif.Proofs.Vec
import Mathlib.Tactic.Ring

set_option linter.unusedSectionVars false

/-
C78: the centre of a box and the box made from a corner and an edge length.
-/
namespace Verif
open Spec
variable {K : Type} [Field K] [LinearOrder K] [IsStrictOrderedRing K] {D : ℕ}

theorem AABB.center_eq (b : AABB K D) (i : Fin D) : b.center i = (b.min i + b.max i) / 2 := by
  have h : b.center i = b.min i + (b.max i - b.min i) / 2 := rfl
  rw [h]; field_simp; ring

/-- **C78** The box is symmetric about its centre: a point is in it exactly when its mirror image is. -/
theorem C78_center (b : AABB K D) (e : K) (p : Vec K D) :
    inBox b.min b.max e p ↔ inBox b.min b.max e fun i => 2 * b.center i - p i := by
  unfold inBox inInterval
  apply forall_congr'
  intro i
  dsimp only
  rw [AABB.center_eq]
  constructor <;> rintro ⟨h1, h2⟩ <;> constructor <;> linarith

/-- **C78** The centre of a box that is not inverted lies in the box, half an edge from either face. -/
theorem C78_center_inside (b : AABB K D) (h : ∀ i, b.min i ≤ b.max i) :
    inBox b.min b.max 0 b.center ∧ ∀ i, b.center i - b.min i = (b.max i - b.min i) / 2 ∧
      b.max i - b.center i = (b.max i - b.min i) / 2 := by
  refine ⟨fun i => ?_, fun i => ?_⟩
  · have := h i
    rw [AABB.center_eq]
    unfold inInterval
    constructor <;> linarith
  · rw [AABB.center_eq]; constructor <;> ring

/-- **C78** `AABB(min, extend)` fails exactly for a negative edge in a debug build; else it is the cube over `min` of that edge. -/
theorem C78_extend (dbg : Bool) (m : Vec K D) (x : K) :
    (dbg = true ∧ x < 0 ∧ AABB.ofExtend dbg m x = .error .assertFailed) ∨
      ((dbg = true → 0 ≤ x) ∧ ∃ b : AABB K D, AABB.ofExtend dbg m x = .ok b ∧
        ∀ p, inBox b.min b.max 0 p ↔ ∀ i, 0 ≤ p i - m i ∧ p i - m i ≤ x) := by
  have ok : ∃ b : AABB K D, (pure ⟨m, fun i => m i + x⟩ : Res (AABB K D)) = .ok b ∧
      ∀ p, inBox b.min b.max 0 p ↔ ∀ i, 0 ≤ p i - m i ∧ p i - m i ≤ x := by
    refine ⟨_, rfl, fun p => forall_congr' fun i => ?_⟩
    unfold inInterval
    dsimp only
    constructor <;> rintro ⟨h1, h2⟩ <;> constructor <;> linarith
  unfold AABB.ofExtend geoAssert
  cases dbg with
  | false => right; exact ⟨nofun, ok⟩
  | true =>
    by_cases h : 0 ≤ x
    · right
      simp only [h, decide_true, Bool.not_true, Bool.and_false]
      exact ⟨fun _ => trivial, ok⟩
    · left
      refine ⟨rfl, not_le.1 h, ?_⟩
      simp only [h, decide_false, Bool.not_false, Bool.and_true, if_true]
      rfl

/-- **C78** The two checked constructors disagree: `AABB(min, 0)` goes through, and the box it makes is one that `AABB(min, max)`
refuses. -/
theorem C78_extend_zero [Tol K] [LawfulTol K] (m : Vec K (D + 1)) : ∃ b : AABB K (D + 1), AABB.ofExtend true m 0 = .ok b ∧
    b.isValid = false ∧ AABB.mk? true b.min b.max = .error .assertFailed := by
  have hv : AABB.isValid (⟨m, fun i => m i + 0⟩ : AABB K (D + 1)) = false := by
    by_contra hc
    have := (C13_valid_partial _).1 (by simpa using hc) (0 : Fin (D + 1))
    have := eps_pos (K := K)
    dsimp only at *
    linarith
  refine ⟨⟨m, fun i => m i + 0⟩, ?_, hv, ?_⟩
  · unfold AABB.ofExtend geoAssert
    simp
  · unfold AABB.mk? geoAssert
    dsimp only
    rw [hv]; rfl

/-- **C71**, any direction: a release build returns the extreme scalar products with whatever direction is given.  A debug build does the same if the
length of the direction is one up to less than the tolerance, and stops at the assertion if it is off by more. -/
theorem C71_any_direction [Tol ℝ] [LawfulTol ℝ] [HasLimits ℝ] (dir : Vec ℝ D) (pts : List (Vec ℝ D)) (hne : pts ≠ [])
    (hlim : ∀ p ∈ pts, HasLimits.lowest ≤ ∑ i, p i * dir i ∧ ∑ i, p i * dir i ≤ HasLimits.maxVal) :
    ∃ m, extremePointsAlongDirection false dir pts = .ok m ∧
      IsLeast {x | ∃ p ∈ pts, x = ∑ i, p i * dir i} m.min ∧ IsGreatest {x | ∃ p ∈ pts, x = ∑ i, p i * dir i} m.max ∧
      (|Spec.norm dir - 1| < Tol.eps → extremePointsAlongDirection true dir pts = .ok m) ∧
      (Tol.eps < |Spec.norm dir - 1| → extremePointsAlongDirection true dir pts = .error .assertFailed) := by
  have hemp : (!pts.isEmpty) = true := by cases pts with
    | nil => exact absurd rfl hne
    | cons => rfl
  obtain ⟨h1, h2⟩ := extremeLoop_isLeast dir pts hne hlim
  refine ⟨_, rfl, h1, h2, fun h => ?_, fun h => ?_⟩
  · have hlen : isEq (length dir) (1 : ℝ) = true := by
      rw [← spec_norm_eq, isEq_eq, not_isLess, not_isLess]
      · rfl
      · have := (abs_lt.1 h).2; unfold eps; linarith
      · have := (abs_lt.1 h).1; unfold eps; linarith
    simp only [extremePointsAlongDirection, hlen, hemp]
    rfl
  · have hlen : isEq (length dir) (1 : ℝ) = false := by
      rw [← spec_norm_eq, isEq_eq]
      rcases lt_abs.1 h with h | h
      · rw [isLess_true (a := 1) (b := Spec.norm dir) (by unfold eps; linarith), Bool.not_true, Bool.and_false]
      · rw [isLess_true (a := Spec.norm dir) (b := 1) (by unfold eps; linarith), Bool.not_true, Bool.false_and]
    simp only [extremePointsAlongDirection, hlen, hemp]
    rfl

section
attribute [local instance] realTol realTol_lawful
/-- A direction of length five. -/
example : letI : HasLimits ℝ := ⟨1000, -1000⟩
    ∃ m, extremePointsAlongDirection false (![3, 4] : Vec ℝ 2) [![5, 0], ![0, 10]] = .ok m ∧ 40 ≤ m.max := by
  let : HasLimits ℝ := ⟨1000, -1000⟩
  obtain ⟨m, h1, -, h2, -⟩ := C71_any_direction (![3, 4] : Vec ℝ 2) [![5, 0], ![0, 10]] (by simp) (by
    intro p hp
    simp only [List.mem_cons, List.not_mem_nil, or_false] at hp
    show (-1000 : ℝ) ≤ _ ∧ _ ≤ (1000 : ℝ)
    rcases hp with rfl | rfl <;> simp [Fin.sum_univ_two] <;> norm_num)
  exact ⟨m, h1, h2.2 ⟨![0, 10], by simp, by simp [Fin.sum_univ_two]; norm_num⟩⟩
end

section Examples
attribute [local instance] ratTol ratTol_lawful
example : (⟨![0, 2], ![4, 8]⟩ : AABB ℚ 2).center 1 = 5 := by decide +kernel
example : inBox ![(0 : ℚ), 2] ![4, 8] 0 (⟨![0, 2], ![4, 8]⟩ : AABB ℚ 2).center :=
  (C78_center_inside ⟨![0, 2], ![4, 8]⟩ (by decide +kernel)).1
example : inBox ![(0 : ℚ), 2] ![4, 8] 0 (fun i => 2 * (⟨![0, 2], ![4, 8]⟩ : AABB ℚ 2).center i - ![1, 3] i) :=
  (C78_center (⟨![0, 2], ![4, 8]⟩ : AABB ℚ 2) 0 ![1, 3]).1 (by unfold inBox inInterval; decide +kernel)
example : AABB.ofExtend true ![(1 : ℚ), 2] (-1) = .error .assertFailed := by
  rcases C78_extend true ![(1 : ℚ), 2] (-1) with ⟨-, -, h⟩ | ⟨h, -⟩
  · exact h
  · exact absurd (h rfl) (by norm_num)
example : ∃ b : AABB ℚ 2, AABB.ofExtend true ![(1 : ℚ), 2] 3 = .ok b ∧ inBox b.min b.max 0 ![4, 5] := by
  rcases C78_extend true ![(1 : ℚ), 2] 3 with ⟨-, h, -⟩ | ⟨-, b, h, hb⟩
  · exact absurd h (by norm_num)
  · exact ⟨b, h, (hb _).2 (by decide +kernel)⟩
example : ∃ b : AABB ℚ 2, AABB.ofExtend true ![(1 : ℚ), 2] 0 = .ok b ∧ b.isValid = false ∧ AABB.mk? true b.min b.max = .error .assertFailed :=
  C78_extend_zero _
end Examples
end Verif
