import Verif.Model.CylinderUnused
import Verif.Proofs.Builder
import Verif.Proofs.Real
import Verif.Spec.Mesh
import Verif.Spec.Builder

/-
The members of `CylinderMeshBuilder` that nothing calls (claim C133).
-/
namespace Verif
open Spec

set_option linter.unusedSectionVars false

theorem subM_small {M a b : Nat} (hb : b ≤ a) (ha : a < M) : subM M a b = a - b := by
  unfold subM
  rw [show a + (M - b) = (a - b) + M by omega, Nat.add_mod_right, Nat.mod_eq_of_lt (by omega)]

section
variable {T : Type} [Zero T] [Add T] [Mul T] [Div T] [Neg T] [OfNat T 2] [NatCast T] [HasTrig T]

/-- **C133 (as stated: false)** `calc_cylinder_points` accesses its vector of `n` points at index `n`, for every count that is not extreme. -/
theorem C133_points_counterexample (M n : Nat) (hn : 1 ≤ n) (hM : 2 * n < M) (radius height : T) :
    calcCylinderPoints M radius height n = .error .outOfRange := by
  have hl : (discretizeCircleXY [] radius n).length = n := by simp [discretizeCircleXY]
  unfold calcCylinderPoints
  dsimp only
  rw [hl, toIdx, Nat.mod_eq_of_lt (show n < M by omega), Nat.mod_eq_of_lt hM, subM_small (by omega) hM, loopIncl, if_pos (by omega), ok_bind,
    show 2 * n - 1 + 1 - n = (n - 1) + 1 by omega, List.range'_succ, List.foldlM_cons, vecGet_none hl.le]
  rfl
end

example : calcCylinderPoints 65536 (1 : ℝ) 5 20 = .error .outOfRange := C133_points_counterexample 65536 20 (by norm_num) (by norm_num) 1 5

section
variable {M n : Nat}

/-- What `calc_circle_buffer_indices` writes, without the reduction modulo `M`. -/
theorem circleBuffer_eq {mid s k : Nat} (hk : 1 ≤ k) (hM : s + k < M) : calcCircleBufferIndices M mid s (s + k) =
    ((List.range' (s + 1) (k - 1)).flatMap fun i => [mid, i - 1, i]) ++ [mid, s, s + k - 1] := by
  unfold calcCircleBufferIndices
  dsimp only
  rw [Nat.mod_eq_of_lt (show s + 1 < M by omega), subM_small (by omega) hM, show s + k - (s + 1) = k - 1 by omega]
  congr 1
  rw [List.flatMap_def, List.flatMap_def]
  congr 1
  refine List.map_congr_left fun i hi => ?_
  rw [List.mem_range'_1] at hi
  rw [subM_small (by omega) (by omega)]

theorem cylinderIndices_eq (hn : 1 ≤ n) (hM : 2 * n + 2 < M) : calcCylinderTriangleIndices M (2 * n + 2) n =
    ((List.range' 1 (n - 1)).flatMap fun i => [2 * n, i - 1, i]) ++ [2 * n, 0, n - 1] ++
    ((List.range' 1 (n - 1)).flatMap fun i => [i, i + n, i + n - 1, i, i + n - 1, i - 1]) ++
    [2 * n - 1, n - 1, 0, 2 * n - 1, 0, n] ++
    (((List.range' (n + 1) (n - 1)).flatMap fun i => [2 * n + 1, i - 1, i]) ++ [2 * n + 1, n, 2 * n - 1]) := by
  unfold calcCylinderTriangleIndices
  dsimp only
  rw [toIdx, Nat.mod_eq_of_lt hM, Nat.mod_eq_of_lt (show 2 * n < M by omega), subM_small (by omega) hM, subM_small (by omega) hM,
    subM_small (by omega) (show 2 * n < M by omega), subM_small (a := n) (by omega) (by omega)]
  have h1 := circleBuffer_eq (M := M) (mid := 2 * n + 2 - 2) (s := 0) (k := n) hn (by omega)
  have h2 := circleBuffer_eq (M := M) (mid := 2 * n + 2 - 1) (s := n) (k := n) hn (by omega)
  rw [Nat.zero_add] at h1
  rw [← two_mul] at h2
  rw [h1, h2]
  congr 3
  rw [List.flatMap_def, List.flatMap_def]
  congr 1
  refine List.map_congr_left fun i hi => ?_
  rw [List.mem_range'_1] at hi
  rw [Nat.mod_eq_of_lt (show i + n < M by omega), subM_small (by omega) (by omega), subM_small (by omega) (by omega)]

/-- **C133 (as stated: false)** The surface described by `calc_cylinder_triangle_indices` is not consistently oriented, whatever the count: two triangles of the
bottom use the edge from its centre to the first point of the circle in the same direction. -/
theorem C133_indices_counterexample (hn : 2 ≤ n) (hM : 2 * n + 2 < M) :
    ¬ ClosedOriented (triples (calcCylinderTriangleIndices M (2 * n + 2) n)) := by
  rintro ⟨h, -⟩
  rw [cylinderIndices_eq (by omega) hM, show n - 1 = (n - 2) + 1 by omega, List.range'_succ, List.flatMap_cons] at h
  simp only [List.append_assoc] at h
  rw [triples_append_three, triples_append _ _ (by
    rw [List.length_flatMap]; simp), triples_append_three] at h
  simp [directedEdges] at h

/-- **C133 (partial)** The indices are those of `4 n` triangles whose corners are among the `2 n + 2` points expected, the bottom, the top and every point of
both circles included.  Missing: the orientation, and points to go with them. -/
theorem C133_partial (hn : 1 ≤ n) (hM : 2 * n + 2 < M) :
    (triples (calcCylinderTriangleIndices M (2 * n + 2) n)).length = 4 * n ∧
    ∀ i, i ∈ calcCylinderTriangleIndices M (2 * n + 2) n ↔ i < 2 * n + 2 := by
  rw [triples_length, cylinderIndices_eq hn hM]
  constructor
  · simp only [List.length_append, List.length_flatMap]
    simp
    omega
  · intro i
    simp only [List.mem_append, List.mem_flatMap, List.mem_range'_1, List.mem_cons, List.not_mem_nil, or_false]
    constructor
    · rintro ((((⟨j, hj, h⟩ | h) | ⟨j, hj, h⟩) | h) | (⟨j, hj, h⟩ | h)) <;> omega
    · intro h
      by_cases h0 : i = 2 * n
      · left; left; left; right; left; exact h0
      by_cases h1 : i = 2 * n + 1
      · right; right; left; exact h1
      by_cases h2 : i = 0
      · left; left; left; right; right; left; exact h2
      by_cases h3 : i < n
      · left; left; left; left; exact ⟨i, by omega, by simp⟩
      by_cases h4 : i = n
      · right; right; right; left; exact h4
      · right; left; exact ⟨i, by omega, by simp⟩
end

example : ¬ ClosedOriented (triples (calcCylinderTriangleIndices 65536 42 20)) :=
  C133_indices_counterexample (n := 20) (by norm_num) (by norm_num)
example : 41 ∈ calcCylinderTriangleIndices 65536 42 20 := ((C133_partial (n := 20) (by norm_num) (by norm_num)).2 41).2 (by norm_num)
end Verif
