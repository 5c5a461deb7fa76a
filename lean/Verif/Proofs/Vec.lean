import Verif.Model.Linal
import Verif.Spec.Shapes
import Verif.Proofs.Real
import Mathlib.Data.Matrix.Mul
import Mathlib.Tactic.FieldSimp
import Mathlib.Tactic.Positivity
import Mathlib.Tactic.LinearCombination
import Mathlib.Algebra.Order.BigOperators.Ring.Finset

/-
Vector algebra: the model's operations as Mathlib's, and the two minimisation lemmas.
-/
namespace Verif
open Matrix
set_option linter.unusedSectionVars false

section
variable {K : Type*} [Field K] {D : ℕ}

theorem dot_eq (u v : Vec K D) : dot u v = u ⬝ᵥ v := foldl_add_eq_sum _
theorem vadd_eq (u v : Vec K D) : vadd u v = u + v := rfl
theorem vsub_eq (u v : Vec K D) : vsub u v = u - v := rfl
theorem vscale_eq (v : Vec K D) (s : K) : vscale v s = s • v := by
  funext i; simp [vscale, mul_comm]
theorem vdiv_eq (v : Vec K D) (s : K) : vdiv v s = s⁻¹ • v := by
  funext i; simp [vdiv, div_eq_mul_inv, mul_comm]
theorem projection_eq (u v : Vec K D) : projection u v = (u ⬝ᵥ v / (v ⬝ᵥ v)) • v := by
  rw [projection, vscale_eq, dot_eq, dot_eq]
theorem rejection_eq (u v : Vec K D) : rejection u v = u - (u ⬝ᵥ v / (v ⬝ᵥ v)) • v := by
  rw [rejection, vsub_eq, projection_eq]

theorem pointAt_eq (o d : Vec K D) (t : K) : Spec.pointAt o d t = o + t • d := rfl

theorem dp_sub_self (u v : Vec K D) : (u - v) ⬝ᵥ (u - v) = u ⬝ᵥ u - 2 * (u ⬝ᵥ v) + v ⬝ᵥ v := by
  rw [sub_dotProduct, dotProduct_sub, dotProduct_sub, dotProduct_comm v u]; ring

theorem dp_add_self (u v : Vec K D) : (u + v) ⬝ᵥ (u + v) = u ⬝ᵥ u + 2 * (u ⬝ᵥ v) + v ⬝ᵥ v := by
  rw [add_dotProduct, dotProduct_add, dotProduct_add, dotProduct_comm v u]; ring

theorem dp_smul_self (t : K) (v : Vec K D) : (t • v) ⬝ᵥ (t • v) = t ^ 2 * (v ⬝ᵥ v) := by
  rw [smul_dotProduct, dotProduct_smul]; simp only [smul_eq_mul]; ring
end

section
variable {K : Type*} [Field K] [LinearOrder K] [IsStrictOrderedRing K] {D : ℕ}

theorem dp_self_nonneg (v : Vec K D) : 0 ≤ v ⬝ᵥ v := Finset.sum_nonneg fun _ _ => mul_self_nonneg _

theorem dp_self_eq_zero {v : Vec K D} : v ⬝ᵥ v = 0 ↔ v = 0 := by
  constructor
  · intro h
    have := (Finset.sum_eq_zero_iff_of_nonneg (fun i _ => mul_self_nonneg (v i))).1 h
    funext i; exact mul_self_eq_zero.1 (this i (Finset.mem_univ i))
  · rintro rfl; simp

theorem dp_self_pos {v : Vec K D} (h : v ≠ 0) : 0 < v ⬝ᵥ v :=
  lt_of_le_of_ne (dp_self_nonneg v) (fun e => h (dp_self_eq_zero.1 e.symm))

/-- Cauchy–Schwarz. -/
theorem dp_mul_dp_le (u v : Vec K D) : (u ⬝ᵥ v) ^ 2 ≤ (u ⬝ᵥ u) * (v ⬝ᵥ v) := by
  by_cases hv : v = 0
  · subst hv; simp
  · have hp := dp_self_pos hv
    have h := dp_self_nonneg ((v ⬝ᵥ v) • u - (u ⬝ᵥ v) • v)
    rw [dp_sub_self, dp_smul_self, dp_smul_self, smul_dotProduct, dotProduct_smul] at h
    simp only [smul_eq_mul] at h
    have : 0 ≤ (v ⬝ᵥ v) * ((u ⬝ᵥ u) * (v ⬝ᵥ v) - (u ⬝ᵥ v) ^ 2) := by nlinarith
    nlinarith [nonneg_of_mul_nonneg_right this hp]
end

/-! ### Real lengths -/
section
variable {D : ℕ}

theorem length_eq (v : Vec ℝ D) : length v = Real.sqrt (v ⬝ᵥ v) := by
  rw [length, sqrt_real, dot_eq]

theorem spec_norm_eq (v : Vec ℝ D) : Spec.norm v = length v := by
  rw [length_eq]; unfold Spec.norm dotProduct; simp only [sq]

theorem spec_dist_eq (a b : Vec ℝ D) : Spec.dist a b = Real.sqrt ((a - b) ⬝ᵥ (a - b)) := by
  unfold Spec.dist dotProduct; congr 1
  refine Finset.sum_congr rfl fun i _ => ?_
  simp [sq]

theorem length_vsub (a b : Vec ℝ D) : length (vsub a b) = Spec.dist a b := by
  rw [length_eq, spec_dist_eq, vsub_eq]

theorem length_nonneg (v : Vec ℝ D) : 0 ≤ length v := by rw [length_eq]; exact Real.sqrt_nonneg _

theorem length_sq (v : Vec ℝ D) : length v ^ 2 = v ⬝ᵥ v := by
  rw [length_eq, Real.sq_sqrt (dp_self_nonneg v)]

theorem length_pos {v : Vec ℝ D} (h : v ≠ 0) : 0 < length v := by
  rw [length_eq]; exact Real.sqrt_pos.2 (dp_self_pos h)

theorem normalize_eq (v : Vec ℝ D) : normalize v = (length v)⁻¹ • v := by rw [normalize, vdiv_eq]

theorem normalize_dp_self {v : Vec ℝ D} (h : v ≠ 0) : normalize v ⬝ᵥ normalize v = 1 := by
  have hp := length_pos h
  rw [normalize_eq, dp_smul_self, ← length_sq]; field_simp

theorem length_normalize {v : Vec ℝ D} (h : v ≠ 0) : length (normalize v) = 1 := by
  rw [length_eq, normalize_dp_self h, Real.sqrt_one]

theorem normalize_ne_zero {v : Vec ℝ D} (h : v ≠ 0) : normalize v ≠ 0 := by
  intro e; have := normalize_dp_self h; rw [e] at this; simp at this

theorem line_normalize (o : Vec ℝ D) {d : Vec ℝ D} (h : d ≠ 0) : Spec.line o (normalize d) = Spec.line o d := by
  have hp := length_pos h
  ext p; constructor
  · rintro ⟨t, rfl⟩; refine ⟨t * (length d)⁻¹, ?_⟩
    rw [pointAt_eq, pointAt_eq, normalize_eq, smul_smul]
  · rintro ⟨t, rfl⟩; refine ⟨t * length d, ?_⟩
    rw [pointAt_eq, pointAt_eq, normalize_eq, smul_smul, mul_assoc, mul_inv_cancel₀ hp.ne', mul_one]

theorem ray_normalize (o : Vec ℝ D) {d : Vec ℝ D} (h : d ≠ 0) : Spec.ray o (normalize d) = Spec.ray o d := by
  have hp := length_pos h
  ext p; constructor
  · rintro ⟨t, ht, rfl⟩; refine ⟨t * (length d)⁻¹, by positivity, ?_⟩
    rw [pointAt_eq, pointAt_eq, normalize_eq, smul_smul]
  · rintro ⟨t, ht, rfl⟩; refine ⟨t * length d, by positivity, ?_⟩
    rw [pointAt_eq, pointAt_eq, normalize_eq, smul_smul, mul_assoc, mul_inv_cancel₀ hp.ne', mul_one]

theorem plane_normalize (o : Vec ℝ 3) {n : Vec ℝ 3} (h : n ≠ 0) : Spec.plane o (normalize n) = Spec.plane o n := by
  have hp := length_pos h
  ext p
  have : ∑ i, (p i - o i) * normalize n i = (length n)⁻¹ * ∑ i, (p i - o i) * n i := by
    rw [Finset.mul_sum]; refine Finset.sum_congr rfl fun i _ => ?_
    rw [normalize_eq]; simp; ring
  simp only [Spec.plane, Set.mem_ofPred_eq, this]
  simp [hp.ne']

theorem dist_comm' (a b : Vec ℝ D) : Spec.dist a b = Spec.dist b a := by
  unfold Spec.dist; congr 1; exact Finset.sum_congr rfl fun i _ => by ring

theorem dist_nonneg' (a b : Vec ℝ D) : 0 ≤ Spec.dist a b := Real.sqrt_nonneg _

theorem eq_of_dist_le_zero' {a b : Vec ℝ D} (h : Spec.dist a b ≤ 0) : a = b := by
  rw [spec_dist_eq] at h
  have h0 := Real.sqrt_eq_zero (dp_self_nonneg _) |>.1 (le_antisymm h (Real.sqrt_nonneg _))
  exact sub_eq_zero.1 (dp_self_eq_zero.1 h0)

/-- A point is a nearest point of a set when no other point of the set is nearer. -/
theorem IsDistance_intro {S S' : Set (Vec ℝ D)} {p q : Vec ℝ D} (hp : p ∈ S) (hq : q ∈ S')
    (h : ∀ p' ∈ S, ∀ q' ∈ S', (p - q) ⬝ᵥ (p - q) ≤ (p' - q') ⬝ᵥ (p' - q')) :
    Spec.IsDistance S S' (Spec.dist p q) := by
  refine ⟨⟨p, hp, q, hq, rfl⟩, ?_⟩
  rintro x ⟨p', hp', q', hq', rfl⟩
  rw [spec_dist_eq, spec_dist_eq]
  exact Real.sqrt_le_sqrt (h p' hp' q' hq')
end

/-! ### Minimisation -/
section
variable {K : Type*} [Field K] [LinearOrder K] [IsStrictOrderedRing K] {D : ℕ}

/-- Completing the square in `|w - t d|²`. -/
theorem sq_line (w : Vec K D) {d : Vec K D} (hd : d ≠ 0) (t : K) :
    (w - t • d) ⬝ᵥ (w - t • d) =
      (w - (w ⬝ᵥ d / (d ⬝ᵥ d)) • d) ⬝ᵥ (w - (w ⬝ᵥ d / (d ⬝ᵥ d)) • d) + (t - w ⬝ᵥ d / (d ⬝ᵥ d)) ^ 2 * (d ⬝ᵥ d) := by
  have hp := (dp_self_pos hd).ne'
  rw [dp_sub_self, dp_sub_self, dp_smul_self, dp_smul_self, dotProduct_smul, dotProduct_smul]
  simp only [smul_eq_mul]
  field_simp; ring

/-- A pair of parameters whose connecting vector `r` is orthogonal to both directions is a minimum. -/
theorem sq_two_lines {w d e : Vec K D} {t₀ s₀ : K}
    (h1 : (w + t₀ • d - s₀ • e) ⬝ᵥ d = 0) (h2 : (w + t₀ • d - s₀ • e) ⬝ᵥ e = 0) (t s : K) :
    (w + t • d - s • e) ⬝ᵥ (w + t • d - s • e) =
      (w + t₀ • d - s₀ • e) ⬝ᵥ (w + t₀ • d - s₀ • e) +
        ((t - t₀) • d - (s - s₀) • e) ⬝ᵥ ((t - t₀) • d - (s - s₀) • e) := by
  have : w + t • d - s • e = (w + t₀ • d - s₀ • e) + ((t - t₀) • d - (s - s₀) • e) := by
    simp only [sub_smul]; abel
  rw [this, dp_add_self]
  have : (w + t₀ • d - s₀ • e) ⬝ᵥ ((t - t₀) • d - (s - s₀) • e) = 0 := by
    rw [dotProduct_sub, dotProduct_smul, dotProduct_smul, h1, h2]; simp
  rw [this]; ring
end
end Verif
