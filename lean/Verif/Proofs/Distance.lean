import Verif.Model.Distance
import Verif.Proofs.Vec
import Verif.Proofs.Tol
import Verif.Proofs.Res
import Mathlib.Tactic.FinCases

/-
Helper lemmas for the distance functions.
-/
namespace Verif
open Matrix
set_option linter.unusedSectionVars false

section
variable {K : Type*} [Field K] [LinearOrder K] [IsStrictOrderedRing K] {D : ℕ}

theorem gram_eq (d e : Vec K D) : Spec.gram d e = (d ⬝ᵥ d) * (e ⬝ᵥ e) - (d ⬝ᵥ e) * (d ⬝ᵥ e) := by
  simp only [Spec.gram, dotProduct, sq]

theorem gram_nonneg (d e : Vec K D) : 0 ≤ Spec.gram d e := by
  rw [gram_eq]; have := dp_mul_dp_le d e; nlinarith

theorem gram_comm (d e : Vec K D) : Spec.gram d e = Spec.gram e d := by
  rw [gram_eq, gram_eq, dotProduct_comm e d]; ring

theorem gram_smul (d e : Vec K D) (a b : K) : Spec.gram (a • d) (b • e) = a ^ 2 * b ^ 2 * Spec.gram d e := by
  rw [gram_eq, gram_eq]
  simp only [smul_dotProduct, dotProduct_smul, smul_eq_mul]; ring

theorem gram_eq_zero_of_parallel {d e : Vec K D} (h : Spec.Parallel d e) : Spec.gram d e = 0 := by
  unfold Spec.gram
  rw [sub_eq_zero, sq, Finset.sum_mul_sum, Finset.sum_mul_sum]
  refine Finset.sum_congr rfl fun i _ => Finset.sum_congr rfl fun j _ => ?_
  have := h i j
  linear_combination (d i * e j) * this

theorem parallel_of_gram_eq_zero {d e : Vec K D} (hd : d ≠ 0) (h : Spec.gram d e = 0) :
    e = (e ⬝ᵥ d / (d ⬝ᵥ d)) • d := by
  have hp := dp_self_pos hd
  have : (e - (e ⬝ᵥ d / (d ⬝ᵥ d)) • d) ⬝ᵥ (e - (e ⬝ᵥ d / (d ⬝ᵥ d)) • d) = 0 := by
    rw [dp_sub_self, dp_smul_self, dotProduct_smul]
    rw [gram_eq] at h
    simp only [smul_eq_mul]
    rw [dotProduct_comm d e] at h
    field_simp
    linear_combination h
  exact sub_eq_zero.1 (dp_self_eq_zero.1 this)

/-- Two lines that are not parallel have a pair of parameters with a common perpendicular. -/
theorem exists_critical {w d e : Vec K D} (hg : Spec.gram d e ≠ 0) :
    ∃ t s : K, (w + t • d - s • e) ⬝ᵥ d = 0 ∧ (w + t • d - s • e) ⬝ᵥ e = 0 := by
  refine ⟨((d ⬝ᵥ e) * (e ⬝ᵥ w) - (e ⬝ᵥ e) * (d ⬝ᵥ w)) / Spec.gram d e,
    ((d ⬝ᵥ d) * (e ⬝ᵥ w) - (d ⬝ᵥ e) * (d ⬝ᵥ w)) / Spec.gram d e, ?_, ?_⟩
  all_goals
    simp only [sub_dotProduct, add_dotProduct, smul_dotProduct, smul_eq_mul]
    simp only [dotProduct_comm w d, dotProduct_comm w e, dotProduct_comm e d]
    field_simp
    rw [gram_eq]; ring

theorem Parallel.smul {d e : Vec K D} (h : Spec.Parallel d e) (a b : K) : Spec.Parallel (a • d) (b • e) := by
  intro i j; have := h i j; simp only [Pi.smul_apply, smul_eq_mul]; linear_combination a * b * this

variable [Tol K] [LawfulTol K]

/-- Both branches of `closest_point_on_line_parameters`. -/
theorem closest_cases {e : K} (he : 0 < e) (ls ld rs rd : Vec K D) :
    (closestPointOnLineParameters ls ld rs rd e = none ∧ Tol.isZero (Spec.gram ld rd) e = true) ∨
    ∃ p, closestPointOnLineParameters ls ld rs rd e = some p ∧ Tol.isZero (Spec.gram ld rd) e = false ∧
      Spec.gram ld rd ≠ 0 ∧
      ((ls - rs) + p.t • ld - p.s • rd) ⬝ᵥ ld = 0 ∧ ((ls - rs) + p.t • ld - p.s • rd) ⬝ᵥ rd = 0 := by
  unfold closestPointOnLineParameters
  simp only [dot_eq, vsub_eq, ← gram_eq]
  rcases hz : Tol.isZero (Spec.gram ld rd) e with _ | _
  · right
    have hne := TolE.ne_zero he hz
    refine ⟨_, if_neg (by simp), rfl, hne, ?_, ?_⟩
    all_goals
      simp only [sub_dotProduct, add_dotProduct, smul_dotProduct, smul_eq_mul, dotProduct_sub]
      simp only [dotProduct_comm ls ld, dotProduct_comm rs ld, dotProduct_comm ls rd, dotProduct_comm rs rd, dotProduct_comm rd ld]
      field_simp
      rw [gram_eq]; ring
  · left; exact ⟨rfl, rfl⟩

/-- Moving on the line through two parameter pairs does not increase the distance when going towards the minimum. -/
theorem sq_two_lines_convex {w d e : Vec K D} {t₀ s₀ : K}
    (h1 : (w + t₀ • d - s₀ • e) ⬝ᵥ d = 0) (h2 : (w + t₀ • d - s₀ • e) ⬝ᵥ e = 0) (t s l : K) (hl : 0 ≤ l) (hl1 : l ≤ 1) :
    (w + (t₀ + l * (t - t₀)) • d - (s₀ + l * (s - s₀)) • e) ⬝ᵥ (w + (t₀ + l * (t - t₀)) • d - (s₀ + l * (s - s₀)) • e) ≤
      (w + t • d - s • e) ⬝ᵥ (w + t • d - s • e) := by
  rw [sq_two_lines h1 h2, sq_two_lines h1 h2 t s]
  have : (t₀ + l * (t - t₀) - t₀) • d - (s₀ + l * (s - s₀) - s₀) • e = l • ((t - t₀) • d - (s - s₀) • e) := by
    rw [smul_sub, smul_smul, smul_smul]; congr 2 <;> ring
  rw [this, dp_smul_self]
  have hn := dp_self_nonneg ((t - t₀) • d - (s - s₀) • e)
  have : l ^ 2 ≤ 1 := by nlinarith
  nlinarith
end

section
variable {D : ℕ}

theorem dist_triangle' (a b c : Vec ℝ D) : Spec.dist a c ≤ Spec.dist a b + Spec.dist b c := by
  rw [spec_dist_eq, spec_dist_eq, spec_dist_eq]
  set u := a - b
  set v := b - c
  have : a - c = u + v := by simp [u, v]
  rw [this, dp_add_self]
  apply Real.sqrt_le_iff.2
  have hu := dp_self_nonneg u
  have hv := dp_self_nonneg v
  refine ⟨by positivity, ?_⟩
  have h := dp_mul_dp_le u v
  have h2 : u ⬝ᵥ v ≤ Real.sqrt (u ⬝ᵥ u) * Real.sqrt (v ⬝ᵥ v) := by
    rw [← Real.sqrt_mul hu]; exact Real.le_sqrt_of_sq_le h
  nlinarith [Real.sq_sqrt hu, Real.sq_sqrt hv]

/-- point/line distance for any non-zero stored direction -/
theorem distVecLine_spec (v o : Vec ℝ D) {n : Vec ℝ D} (hn : n ≠ 0) :
    Spec.IsDistance {v} (Spec.line o n) (distVecLine v ⟨o, n⟩) := by
  have e1 : distVecLine v ⟨o, n⟩ = Spec.dist v (Spec.pointAt o n ((v - o) ⬝ᵥ n / (n ⬝ᵥ n))) := by
    rw [distVecLine, rejection_eq, length_eq, dist_comm', spec_dist_eq, vsub_eq, pointAt_eq]
    have : (v - o) ⬝ᵥ n = - ((o - v) ⬝ᵥ n) := by rw [← neg_dotProduct, neg_sub]
    rw [this, neg_div, neg_smul]
    congr 2 <;> (simp only; abel)
  rw [e1]
  refine IsDistance_intro rfl ⟨_, rfl⟩ ?_
  rintro p rfl q ⟨t, rfl⟩
  rw [pointAt_eq, pointAt_eq, ← sub_sub, ← sub_sub, sq_line (p - o) hn t]
  have := dp_self_nonneg n
  have : 0 ≤ (t - (p - o) ⬝ᵥ n / (n ⬝ᵥ n)) ^ 2 * (n ⬝ᵥ n) := by positivity
  linarith

theorem distVecLine_sq_le (v o : Vec ℝ D) {n : Vec ℝ D} (hn : n ≠ 0) (t : ℝ) :
    distVecLine v ⟨o, n⟩ ≤ Spec.dist v (Spec.pointAt o n t) :=
  (distVecLine_spec v o hn).2 ⟨v, rfl, _, ⟨t, rfl⟩, rfl⟩

theorem isDistance_symm {S S' : Set (Vec ℝ D)} {r : ℝ} (h : Spec.IsDistance S S' r) : Spec.IsDistance S' S r := by
  have : {x | ∃ p ∈ S, ∃ q ∈ S', x = Spec.dist p q} = {x | ∃ p ∈ S', ∃ q ∈ S, x = Spec.dist p q} := by
    ext x; constructor
    · rintro ⟨p, hp, q, hq, rfl⟩; exact ⟨q, hq, p, hp, dist_comm' _ _⟩
    · rintro ⟨p, hp, q, hq, rfl⟩; exact ⟨q, hq, p, hp, dist_comm' _ _⟩
  unfold Spec.IsDistance at *; rwa [← this]

/-- Triple product form of the distance of two skew lines. -/
theorem triple_sq (r d e : Vec ℝ 3) (h1 : r ⬝ᵥ d = 0) (h2 : r ⬝ᵥ e = 0) :
    (r ⬝ᵥ cross d e) ^ 2 = (r ⬝ᵥ r) * Spec.gram d e := by
  have : (r ⬝ᵥ cross d e) ^ 2 = (r ⬝ᵥ r) * Spec.gram d e
      - (r ⬝ᵥ d) * ((r ⬝ᵥ d) * (e ⬝ᵥ e) - (d ⬝ᵥ e) * (r ⬝ᵥ e)) + (r ⬝ᵥ e) * ((r ⬝ᵥ d) * (d ⬝ᵥ e) - (d ⬝ᵥ d) * (r ⬝ᵥ e)) := by
    rw [gram_eq]; simp [dotProduct, Fin.sum_univ_three, cross]; ring
  rw [this, h1, h2]; ring

theorem cross_dp_self (d e : Vec ℝ 3) : cross d e ⬝ᵥ cross d e = Spec.gram d e := by
  rw [gram_eq]; simp [dotProduct, Fin.sum_univ_three, cross]; ring
theorem dp_cross_left (d e : Vec ℝ 3) : d ⬝ᵥ cross d e = 0 := by
  simp [dotProduct, Fin.sum_univ_three, cross]; ring
theorem dp_cross_right (d e : Vec ℝ 3) : e ⬝ᵥ cross d e = 0 := by
  simp [dotProduct, Fin.sum_univ_three, cross]; ring
theorem cross_anti (d e : Vec ℝ 3) : cross e d = - cross d e := by
  funext i; fin_cases i <;> simp [cross] <;> ring

theorem gram_normalize {d e : Vec ℝ D} (hd : d ≠ 0) (he : e ≠ 0) :
    Spec.gram (normalize d) (normalize e) * ((d ⬝ᵥ d) * (e ⬝ᵥ e)) = Spec.gram d e := by
  have h1 := length_pos hd
  have h2 := length_pos he
  rw [normalize_eq, normalize_eq, gram_smul, ← length_sq, ← length_sq]
  field_simp

theorem angle_iff {d e : Vec ℝ D} (hd : d ≠ 0) (he : e ≠ 0) (c : ℝ) :
    Spec.AngleAbove c d e ↔ c < Spec.gram (normalize d) (normalize e) := by
  have h1 := dp_self_pos hd
  have h2 := dp_self_pos he
  have h3 : 0 < (d ⬝ᵥ d) * (e ⬝ᵥ e) := by positivity
  unfold Spec.AngleAbove
  rw [← gram_normalize hd he]
  have e1 : (∑ i, d i ^ 2) = d ⬝ᵥ d := by simp [dotProduct, sq]
  have e2 : (∑ i, e i ^ 2) = e ⬝ᵥ e := by simp [dotProduct, sq]
  rw [e1, e2]
  exact mul_lt_mul_iff_left₀ h3

theorem parallel_normalize {d e : Vec ℝ D} (h : Spec.Parallel d e) : Spec.Parallel (normalize d) (normalize e) := by
  rw [normalize_eq, normalize_eq]; exact Parallel.smul h _ _

theorem Ray.make_eq [Tol ℝ] {dbg : Bool} {o d : Vec ℝ D} {r : Ray ℝ D} (h : Ray.make dbg o d = .ok r) :
    r = ⟨o, normalize d⟩ := by
  unfold Ray.make at h
  rw [geoAssert_bind] at h
  split at h
  · cases h
  · cases h; rfl

theorem Ray.make_ok [Tol ℝ] {dbg : Bool} {o d : Vec ℝ D} (h : Tol.eps < length d) :
    Ray.make dbg o d = .ok ⟨o, normalize d⟩ := by
  unfold Ray.make
  rw [geoAssert_bind, decide_eq_true h]; simp; rfl
end
end Verif
