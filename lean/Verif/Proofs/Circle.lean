import Mathlib.Analysis.SpecialFunctions.Trigonometric.Angle
import Mathlib.Tactic.LinearCombination
import Verif.Model.MeshBuilder
import Verif.Proofs.Real
import Verif.Proofs.Vec

set_option linter.unusedSectionVars false

/-
Points on a circle.
-/
namespace Verif
open Real

theorem cos_sin_inj_of_abs_lt {a b : ℝ} (h : |a - b| < 2 * π) (hc : cos a = cos b) (hs : sin a = sin b) : a = b := by
  have := Real.Angle.cos_sin_inj hc hs
  rw [Real.Angle.angle_eq_iff_two_pi_dvd_sub] at this
  obtain ⟨k, hk⟩ := this
  have hpi := Real.pi_pos
  have : k = 0 := by
    by_contra hk0
    have h1 : (1 : ℝ) ≤ |(k : ℝ)| := by
      have := Int.one_le_abs hk0
      exact_mod_cast this
    rw [hk, abs_mul, abs_of_pos (by positivity : 0 < 2 * π)] at h
    nlinarith
  rw [this] at hk
  simp at hk
  linarith

/-- The angle of the `i`-th of `n` points, `s = ±1` being the direction. -/
noncomputable def azimuth (n : Nat) (s : ℝ) (i : Nat) : ℝ := i * (s * (2 * π / n))

theorem azimuth_inj {n : Nat} {s : ℝ} (hs : s = 1 ∨ s = -1) {i j : Nat} (hi : i < n) (hj : j < n)
    (hc : cos (azimuth n s i) = cos (azimuth n s j)) (hs' : sin (azimuth n s i) = sin (azimuth n s j)) : i = j := by
  have hn : (0 : ℝ) < n := by exact_mod_cast (by omega : 0 < n)
  have hpi := Real.pi_pos
  have hd : azimuth n s i - azimuth n s j = s * (2 * π) * (((i : ℝ) - j) / n) := by unfold azimuth; ring
  have hij : |((i : ℝ) - j) / n| < 1 := by
    rw [abs_div, abs_of_pos hn, div_lt_one hn, abs_lt]
    have h1 : (i : ℝ) < n := by exact_mod_cast hi
    have h2 : (j : ℝ) < n := by exact_mod_cast hj
    have h3 : (0 : ℝ) ≤ i := by positivity
    have h4 : (0 : ℝ) ≤ j := by positivity
    constructor <;> linarith
  have hsabs : |s * (2 * π)| = 2 * π := by
    rcases hs with rfl | rfl
    · rw [one_mul, abs_of_pos (by positivity)]
    · rw [neg_mul, one_mul, abs_neg, abs_of_pos (by positivity)]
  have := cos_sin_inj_of_abs_lt (by rw [hd, abs_mul, hsabs]; nlinarith [Real.pi_pos]) hc hs'
  have h0 : s * (2 * π) * (((i : ℝ) - j) / n) = 0 := by rw [← hd, this, sub_self]
  have hs0 : s * (2 * π) ≠ 0 := by
    intro h; rw [h, abs_zero] at hsabs; linarith
  rcases mul_eq_zero.1 h0 with h | h
  · exact absurd h hs0
  · rw [div_eq_zero_iff] at h
    rcases h with h | h
    · have : (i : ℝ) = j := by linarith
      exact_mod_cast this
    · exact absurd h hn.ne'

theorem azimuth_next {n : Nat} (s : ℝ) (hs : s = 1 ∨ s = -1) {i : Nat} (hi : i < n) :
    cos (azimuth n s ((i + 1) % n)) = cos (azimuth n s i + s * (2 * π / n)) ∧
    sin (azimuth n s ((i + 1) % n)) = sin (azimuth n s i + s * (2 * π / n)) := by
  have hn : (0 : ℝ) < n := by exact_mod_cast (by omega : 0 < n)
  by_cases h : i + 1 < n
  · rw [Nat.mod_eq_of_lt h]
    have : azimuth n s (i + 1) = azimuth n s i + s * (2 * π / n) := by unfold azimuth; push_cast; ring
    rw [this]; exact ⟨rfl, rfl⟩
  · have hin : i + 1 = n := by omega
    rw [hin, Nat.mod_self]
    have h0 : azimuth n s 0 = 0 := by simp [azimuth]
    have h1 : azimuth n s i + s * (2 * π / n) = s * (2 * π) := by
      have : (i : ℝ) = n - 1 := by
        have : ((i + 1 : ℕ) : ℝ) = n := by rw [hin]
        push_cast at this; linarith
      unfold azimuth
      rw [this]; field_simp; ring
    rw [h0, h1]
    rcases hs with rfl | rfl <;> simp

def dirSign (dir : CircleDir) : ℝ := if dir = .cw then -1 else 1

theorem dirSign_cases (dir : CircleDir) : dirSign dir = 1 ∨ dirSign dir = -1 := by
  cases dir <;> simp [dirSign]

/-- The `i`-th point. -/
noncomputable def circlePt (r : ℝ) (n : Nat) (s : ℝ) (i : Nat) : Vec ℝ 3 :=
  vec3 (cos (azimuth n s i) * r) (sin (azimuth n s i) * r) 0

theorem discretizeCircle_eq (c : Vec ℝ 3) (r : ℝ) (n : Nat) (dir : CircleDir) :
    discretizeCircle c r n dir = (List.range n).map fun i => c + circlePt r n (dirSign dir) i := by
  unfold discretizeCircle
  apply List.map_congr_left
  intro i _
  simp only [vadd_eq, circlePt, azimuth, cos_real, sin_real, pi_real, dirSign]
  cases dir <;> simp

theorem discretizeCircleXY_eq (ps : List (Vec ℝ 3)) (r : ℝ) (n : Nat) :
    discretizeCircleXY ps r n = ps ++ discretizeCircle (0 : Vec ℝ 3) r n .ccw := by
  rw [discretizeCircle_eq]
  unfold discretizeCircleXY
  dsimp only
  congr 1
  apply List.map_congr_left
  intro i _
  simp [circlePt, azimuth, dirSign]

@[simp] theorem vec3_0 {T : Type} (x y z : T) : vec3 x y z 0 = x := rfl
@[simp] theorem vec3_1 {T : Type} (x y z : T) : vec3 x y z 1 = y := rfl
@[simp] theorem vec3_2 {T : Type} (x y z : T) : vec3 x y z 2 = z := rfl

theorem vec3_zero : (vec3 0 0 0 : Vec ℝ 3) = 0 := by funext i; fin_cases i <;> rfl

theorem circlePt_inj {r : ℝ} (hr : r ≠ 0) {n : Nat} {s : ℝ} (hs : s = 1 ∨ s = -1) {i j : Nat} (hi : i < n) (hj : j < n)
    (h : circlePt r n s i = circlePt r n s j) : i = j := by
  have h0 := congrFun h 0
  have h1 := congrFun h 1
  simp only [circlePt, vec3_0, vec3_1] at h0 h1
  exact azimuth_inj hs hi hj (mul_right_cancel₀ hr h0) (mul_right_cancel₀ hr h1)

theorem dp3 (u v : Vec ℝ 3) : u ⬝ᵥ v = u 0 * v 0 + u 1 * v 1 + u 2 * v 2 := by
  rw [dotProduct, Fin.sum_univ_three]

theorem circlePt_dp (r : ℝ) (n : Nat) (s : ℝ) (i : Nat) : circlePt r n s i ⬝ᵥ circlePt r n s i = r ^ 2 := by
  rw [dp3]
  simp only [circlePt, vec3_0, vec3_1, vec3_2]
  linear_combination r ^ 2 * Real.sin_sq_add_cos_sq (azimuth n s i)
end Verif
