import Verif.Proofs.Circle
import Verif.Spec.Rigid

set_option linter.unusedSectionVars false

/-
C55: circle discretisation.
-/
namespace Verif
open Spec Real

/-- **C55** Discretising a circle gives `n` pairwise different points of the circle around the centre, parallel to the
xy-plane, neighbours (cyclically) being at the same distance `2 r sin(π/n)`. -/
theorem C55_discretize (c : Vec ℝ 3) (r : ℝ) (hr : 0 < r) (n : Nat) (dir : CircleDir) :
    (discretizeCircle c r n dir).length = n ∧ (discretizeCircle c r n dir).Nodup ∧
    (∀ p ∈ discretizeCircle c r n dir, p ∈ circle c ![0, 0, 1] r) ∧
    ∀ i < n, ∃ p q, (discretizeCircle c r n dir)[i]? = some p ∧ (discretizeCircle c r n dir)[(i + 1) % n]? = some q ∧
      Spec.dist p q = 2 * r * sin (π / n) := by
  rw [discretizeCircle_eq]
  have hs := dirSign_cases dir
  generalize dirSign dir = s at hs
  refine ⟨by simp, ?_, ?_, ?_⟩
  · rw [List.nodup_map_iff_inj_on List.nodup_range]
    intro i hi j hj h
    exact circlePt_inj hr.ne' hs (List.mem_range.1 hi) (List.mem_range.1 hj) (add_left_cancel h)
  · intro p hp
    obtain ⟨i, _, rfl⟩ := List.mem_map.1 hp
    constructor
    · rw [spec_dist_eq, add_sub_cancel_left, circlePt_dp, Real.sqrt_sq hr.le]
    · rw [add_sub_cancel_left, dp3]
      simp [circlePt]
  · intro i hi
    have hn : 0 < n := by omega
    refine ⟨_, _, by rw [List.getElem?_map, List.getElem?_range hi]; rfl,
      by rw [List.getElem?_map, List.getElem?_range (Nat.mod_lt _ hn)]; rfl, ?_⟩
    obtain ⟨hc, hsn⟩ := azimuth_next s hs hi
    have hsin : 0 ≤ sin (π / n) := by
      apply Real.sin_nonneg_of_nonneg_of_le_pi (by positivity)
      apply div_le_self Real.pi_pos.le
      exact_mod_cast hn
    have hcs : cos (s * (2 * π / n)) = cos (2 * (π / n)) := by
      rcases hs with rfl | rfl
      · congr 1; ring
      · rw [neg_mul, one_mul, Real.cos_neg]; congr 1; ring
    rw [spec_dist_eq, add_sub_add_left_eq_sub, dp3, ← Real.sqrt_sq (show 0 ≤ 2 * r * sin (π / n) by positivity)]
    congr 1
    simp only [Pi.sub_apply, circlePt, vec3_0, vec3_1, vec3_2, hc, hsn]
    generalize azimuth n s i = θ
    generalize hφ : s * (2 * π / n) = φ at *
    have h2 : cos φ = 1 - 2 * sin (π / n) ^ 2 := by
      rw [hcs, Real.cos_two_mul']; linarith [Real.sin_sq_add_cos_sq (π / n)]
    have e1 := Real.sin_sq_add_cos_sq θ
    have e2 := Real.sin_sq_add_cos_sq φ
    rw [Real.cos_add, Real.sin_add]
    have : (cos θ * r - (cos θ * cos φ - sin θ * sin φ) * r) * (cos θ * r - (cos θ * cos φ - sin θ * sin φ) * r) +
        (sin θ * r - (sin θ * cos φ + cos θ * sin φ) * r) * (sin θ * r - (sin θ * cos φ + cos θ * sin φ) * r) +
        (0 - 0) * (0 - 0) = r ^ 2 * (2 - 2 * cos φ) := by
      linear_combination r ^ 2 * (1 - 2 * cos φ + cos φ ^ 2 + sin φ ^ 2) * e1 + r ^ 2 * e2
    rw [this, h2]; ring

/-- **C55** The first point lies on the x-axis; the points run counter-clockwise (seen from above) for `CCW` and clockwise
for `CW`. -/
theorem C55_direction (c : Vec ℝ 3) (r : ℝ) (hr : 0 < r) (n : Nat) (hn : 3 ≤ n) (dir : CircleDir) :
    (discretizeCircle c r n dir)[0]? = some (c + ![r, 0, 0]) ∧
    ∀ i < n, ∃ p q, (discretizeCircle c r n dir)[i]? = some p ∧ (discretizeCircle c r n dir)[(i + 1) % n]? = some q ∧
      (dir = .ccw → 0 < (p 0 - c 0) * (q 1 - c 1) - (p 1 - c 1) * (q 0 - c 0)) ∧
      (dir = .cw → (p 0 - c 0) * (q 1 - c 1) - (p 1 - c 1) * (q 0 - c 0) < 0) := by
  rw [discretizeCircle_eq]
  constructor
  · rw [List.getElem?_map, List.getElem?_range (by omega)]
    simp only [Option.map_some, Option.some.injEq, add_right_inj]
    funext j
    fin_cases j <;> simp [circlePt, azimuth]
  · intro i hi
    have hs := dirSign_cases dir
    refine ⟨_, _, by rw [List.getElem?_map, List.getElem?_range hi]; rfl,
      by rw [List.getElem?_map, List.getElem?_range (Nat.mod_lt _ (by omega))]; rfl, ?_⟩
    obtain ⟨hc, hsn⟩ := azimuth_next (dirSign dir) hs hi
    simp only [Pi.add_apply, add_sub_cancel_left, circlePt, vec3_0, vec3_1, hc, hsn]
    generalize azimuth n (dirSign dir) i = θ
    have e1 := Real.sin_sq_add_cos_sq θ
    have key : ∀ φ, cos θ * r * (sin (θ + φ) * r) - sin θ * r * (cos (θ + φ) * r) = r ^ 2 * sin φ := by
      intro φ
      rw [Real.cos_add, Real.sin_add]
      linear_combination r ^ 2 * sin φ * e1
    rw [key]
    have hn' : (3 : ℝ) ≤ n := by exact_mod_cast hn
    have hpos : 0 < sin (2 * π / n) := by
      apply Real.sin_pos_of_pos_of_lt_pi (by positivity)
      rw [div_lt_iff₀ (by linarith)]
      nlinarith [Real.pi_pos]
    refine ⟨?_, ?_⟩
    · rintro rfl
      simp only [dirSign, reduceCtorEq, if_false, one_mul]
      positivity
    · rintro rfl
      simp only [dirSign, if_true, neg_mul, one_mul, Real.sin_neg]
      have : 0 < r ^ 2 * sin (2 * π / n) := by positivity
      linarith

/-- **C55** The variant writing to a vector appends the points of the counter-clockwise circle around the origin. -/
theorem C55_discretize_xy (ps : List (Vec ℝ 3)) (r : ℝ) (hr : 0 < r) (n : Nat) :
    ∃ qs, discretizeCircleXY ps r n = ps ++ qs ∧ qs.length = n ∧ qs.Nodup ∧ (∀ p ∈ qs, p ∈ circle 0 ![0, 0, 1] r) ∧
      ∀ i < n, ∃ p q, qs[i]? = some p ∧ qs[(i + 1) % n]? = some q ∧ Spec.dist p q = 2 * r * sin (π / n) ∧
        (3 ≤ n → 0 < p 0 * q 1 - p 1 * q 0) := by
  obtain ⟨h1, h2, h3, h4⟩ := C55_discretize 0 r hr n .ccw
  refine ⟨_, discretizeCircleXY_eq ps r n, h1, h2, h3, ?_⟩
  intro i hi
  obtain ⟨p, q, hp, hq, hd⟩ := h4 i hi
  refine ⟨p, q, hp, hq, hd, ?_⟩
  intro hn
  obtain ⟨p', q', hp', hq', h, _⟩ := (C55_direction 0 r hr n hn .ccw).2 i hi
  rw [hp, Option.some.injEq] at hp'
  rw [hq, Option.some.injEq] at hq'
  subst hp' hq'
  simpa using h rfl

/-- C55: four points of the circle of radius 3 around (1, 2, 5), clockwise. -/
example : (discretizeCircle ![1, 2, 5] (3 : ℝ) 4 .cw).length = 4 ∧
    (discretizeCircle ![1, 2, 5] (3 : ℝ) 4 .cw)[0]? = some (![1, 2, 5] + ![(3 : ℝ), 0, 0]) :=
  ⟨(C55_discretize ![1, 2, 5] 3 (by norm_num) 4 .cw).1, (C55_direction ![1, 2, 5] 3 (by norm_num) 4 (by decide) .cw).1⟩
example : ∃ qs, discretizeCircleXY [![7, 7, 7]] (3 : ℝ) 4 = [![7, 7, 7]] ++ qs ∧ qs.length = 4 := by
  obtain ⟨qs, h1, h2, -⟩ := C55_discretize_xy [![7, 7, 7]] 3 (by norm_num) 4
  exact ⟨qs, h1, h2⟩

end Verif
