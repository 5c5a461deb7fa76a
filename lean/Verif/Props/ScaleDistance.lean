import Verif.Props.Scale
import Verif.Props.Distance

/-
Property C108 (independence of the unit of length), the distances of a point to a ray and to a segment.
-/
namespace Verif
open Matrix
set_option linter.unusedSectionVars false

variable {D : ℕ} {k : ℝ}

/-- Distances to the points of a ray scale. -/
theorem ray_distance_scaled (hk : 0 < k) {v o d : Vec ℝ D} {m : ℝ} (h : Spec.IsDistance {v} (Spec.ray o d) m) :
    Spec.IsDistance {fun i => k * v i} (Spec.ray (fun i => k * o i) d) (k * m) := by
  have hp : ∀ t : ℝ, Spec.dist (fun i => k * v i) (Spec.pointAt (fun i => k * o i) d (k * t)) = k * Spec.dist v (Spec.pointAt o d t) := by
    intro t
    rw [Spec.dist, Spec.dist, ← Real.sqrt_sq hk.le, ← Real.sqrt_mul (sq_nonneg _), Finset.mul_sum, Real.sqrt_sq hk.le]
    congr 1
    refine Finset.sum_congr rfl fun i _ => ?_
    simp only [Spec.pointAt]; ring
  obtain ⟨⟨p, hp0, q, ⟨t, ht, rfl⟩, hm⟩, hmin⟩ := h
  cases hp0
  refine ⟨⟨_, rfl, _, ⟨k * t, by positivity, rfl⟩, ?_⟩, ?_⟩
  · rw [hp, hm]
  · rintro x ⟨p, rfl, q, ⟨s, hs, rfl⟩, rfl⟩
    have : s = k * (s / k) := by field_simp
    rw [this, hp]
    exact mul_le_mul_of_nonneg_left (hmin ⟨v, rfl, _, ⟨s / k, by positivity, rfl⟩, rfl⟩) hk.le

/-- **C108** The distance of a point to a ray scales up to the tolerance, which does not.  Partial: it does not scale exactly, see
`C108_ray_counterexample`. -/
theorem C108_ray_partial [Tol ℝ] [LawfulTol ℝ] (hk : 0 < k) (dbg : Bool) (v o d : Vec ℝ D) (hd : d ≠ 0) (r : Ray ℝ D)
    (hr : Ray.make dbg o d = .ok r) :
    k * distRayVec r v - k * eps ≤ distRayVec (r.scaled k) (fun i => k * v i) ∧
    distRayVec (r.scaled k) (fun i => k * v i) ≤ k * distRayVec r v + eps := by
  obtain ⟨m, hm, h1, h2⟩ := C21_point_ray dbg v o d hd r hr
  have hr' : Ray.make false (fun i => k * o i) d = .ok (r.scaled k) := by
    cases Ray.make_eq hr
    rfl
  obtain ⟨m', hm', h3, h4⟩ := C21_point_ray false (fun i => k * v i) (fun i => k * o i) d hd _ hr'
  have he := hm'.unique (ray_distance_scaled hk hm)
  subst he
  constructor
  · nlinarith
  · nlinarith

/-- **C108** The distance of a point to a ray does not scale exactly: a point just in front of the origin counts as behind it. -/
theorem C108_ray_counterexample [Tol ℝ] [LawfulTol ℝ] :
    ∃ (r : Ray ℝ 2) (v : Vec ℝ 2) (k : ℝ), 0 < k ∧ Spec.norm r.direction = 1 ∧
      distRayVec (r.scaled k) (fun i => k * v i) ≠ k * distRayVec r v := by
  have he := eps_pos (K := ℝ)
  refine ⟨⟨0, ![1, 0]⟩, ![2 * eps, 0], 1 / 4, by norm_num, ?_, ?_⟩
  · simp [Spec.norm, Fin.sum_univ_two]
  · have h1 : distRayVec (⟨0, ![1, 0]⟩ : Ray ℝ 2) ![2 * eps, 0] = 0 := by
      unfold distRayVec
      have : dot (vsub ![2 * eps, 0] (0 : Vec ℝ 2)) ![1, 0] = 2 * (eps : ℝ) := by
        rw [dot_eq, vsub_eq]; simp [dotProduct, Fin.sum_univ_two]
      simp only [this, isGreater_eq]
      rw [isLess_true (by linarith), if_pos rfl, rejection_eq, length_eq, Real.sqrt_eq_zero']
      rw [vsub_eq]
      simp [dotProduct, Fin.sum_univ_two]
    have h2 : distRayVec ((⟨0, ![1, 0]⟩ : Ray ℝ 2).scaled (1 / 4)) (fun i => 1 / 4 * (![2 * eps, 0] : Vec ℝ 2) i) = eps / 2 := by
      unfold distRayVec
      have h3 : vsub (fun i => 1 / 4 * (![2 * eps, 0] : Vec ℝ 2) i) ((⟨0, ![1, 0]⟩ : Ray ℝ 2).scaled (1 / 4)).origin = ![eps / 2, 0] := by
        funext i; fin_cases i <;> simp [vsub, Ray.scaled]; ring
      have h4 : vsub ((⟨0, ![1, 0]⟩ : Ray ℝ 2).scaled (1 / 4)).origin (fun i => 1 / 4 * (![2 * eps, 0] : Vec ℝ 2) i) = ![-(eps / 2), 0] := by
        funext i; fin_cases i <;> simp [vsub, Ray.scaled]; ring
      have h5 : dot (![eps / 2, 0] : Vec ℝ 2) ((⟨0, ![1, 0]⟩ : Ray ℝ 2).scaled (1 / 4)).direction = eps / 2 := by
        rw [dot_eq]; simp [dotProduct, Fin.sum_univ_two, Ray.scaled]
      simp only [h3, h4, h5, isGreater_eq]
      rw [not_isLess (by linarith), if_neg (by simp), length_eq, Real.sqrt_eq_iff_mul_self_eq (dp_self_nonneg _) (by linarith)]
      simp [dotProduct, Fin.sum_univ_two]
    rw [h1, h2]
    intro h
    linarith

/-- **C108** The distance of a point to a segment scales with the unit of length exactly if the foot point is at or before the source; for
every other point there is a unit in which the result differs. -/
theorem C108_segment_exact (a b v : Vec ℝ D) (hab : a ≠ b) :
    (∀ k : ℝ, 0 < k → distSegmentVec ((⟨a, b⟩ : Segment ℝ D).scaled k) (fun i => k * v i) = k * distSegmentVec ⟨a, b⟩ v) ↔
      (∑ i, (v i - a i) * (b i - a i)) ≤ 0 := by
  have hne : b - a ≠ 0 := sub_ne_zero.2 (Ne.symm hab)
  have hL := length_pos hne
  set S := (v - a) ⬝ᵥ (b - a) with hS
  have hd : ∑ i, (v i - a i) * (b i - a i) = S := rfl
  rw [hd]
  set L := length (b - a) with hLdef
  have hscale : ∀ k : ℝ, 0 < k → distSegmentVec ((⟨a, b⟩ : Segment ℝ D).scaled k) (fun i => k * v i) =
      k * Spec.dist v (a + (min (max (k * S / L) 0) 1) • (b - a)) := by
    intro k hk
    have e1 : (fun i => k * v i) = k • v := rfl
    have e2 : (⟨a, b⟩ : Segment ℝ D).scaled k = ⟨k • a, k • b⟩ := rfl
    rw [e1, e2, distSegmentVec_eq]
    have e3 : k • b - k • a = fun i => k * (b - a) i := by rw [← smul_sub]; rfl
    have e4 : length (k • b - k • a) = k * L := by rw [e3, length_scaled hk]
    have e5 : (k • v - k • a) ⬝ᵥ (k • b - k • a) = k * (k * S) := by
      rw [← smul_sub, ← smul_sub, smul_dotProduct, dotProduct_smul, smul_eq_mul, smul_eq_mul]
    rw [e4, e5, mul_div_mul_left _ _ hk.ne']
    have e6 : ∀ u : ℝ, k • a + u • (k • b - k • a) = k • (a + u • (b - a)) := by
      intro u; rw [← smul_sub, smul_add, smul_comm]
    rw [e6, spec_dist_eq, spec_dist_eq, ← smul_sub, dp_smul_self, Real.sqrt_mul (by positivity), Real.sqrt_sq hk.le]
  have hone : distSegmentVec ⟨a, b⟩ v = Spec.dist v (a + (min (max (S / L) 0) 1) • (b - a)) := distSegmentVec_eq a b v
  constructor
  · intro h
    by_contra hcon
    have hpos : 0 < S := not_le.1 hcon
    have hg : ∀ u : ℝ, 0 < u → u ≤ 1 → Spec.dist v (a + u • (b - a)) = distSegmentVec ⟨a, b⟩ v := by
      intro u hu hu1
      have hk : 0 < u * L / S := by positivity
      have h1 := h _ hk
      rw [hscale _ hk] at h1
      have h2 : u * L / S * S / L = u := by field_simp
      rw [h2, max_eq_left hu.le, min_eq_left hu1] at h1
      exact mul_left_cancel₀ hk.ne' h1
    have hsq : ∀ u : ℝ, 0 < u → u ≤ 1 → (b - a) ⬝ᵥ (b - a) * u ^ 2 - 2 * S * u + (v - a) ⬝ᵥ (v - a) = distSegmentVec ⟨a, b⟩ v ^ 2 := by
      intro u hu hu1
      rw [← hg u hu hu1, spec_dist_eq, Real.sq_sqrt (dp_self_nonneg _)]
      have : v - (a + u • (b - a)) = (v - a) - u • (b - a) := by abel
      have hexp : ∀ x y : Vec ℝ D, (x - u • y) ⬝ᵥ (x - u • y) = y ⬝ᵥ y * u ^ 2 - 2 * (x ⬝ᵥ y) * u + x ⬝ᵥ x := by
        intro x y
        rw [sub_dotProduct, dotProduct_sub, dotProduct_sub, smul_dotProduct, smul_dotProduct, dotProduct_smul, dotProduct_smul,
          dotProduct_comm y x]
        simp only [smul_eq_mul]; ring
      rw [this, hexp, ← hS]
    have h1 := hsq 1 one_pos le_rfl
    have h2 := hsq (1 / 2) (by norm_num) (by norm_num)
    have h3 := hsq (1 / 4) (by norm_num) (by norm_num)
    have := dp_self_pos hne
    nlinarith
  · intro h k hk
    rw [hscale k hk, hone]
    have h1 : k * S / L ≤ 0 := div_nonpos_of_nonpos_of_nonneg (mul_nonpos_of_nonneg_of_nonpos hk.le h) hL.le
    have h2 : S / L ≤ 0 := div_nonpos_of_nonpos_of_nonneg h hL.le
    rw [max_eq_right h1, max_eq_right h2]

section Examples
attribute [local instance] realTol realTol_lawful

/-- Metres and kilometres. -/
example := C108_ray_partial (k := 1000) (by norm_num) false (![3, 4] : Vec ℝ 2) ![1, 1] ![3, 4]
  (by intro h; have := congrFun h 0; simp at this) _ rfl

/-- The point (1, 1) and the segment from (0, 0) to (2, 0). -/
example : ∃ k : ℝ, 0 < k ∧ distSegmentVec ((⟨![0, 0], ![2, 0]⟩ : Segment ℝ 2).scaled k) (fun i => k * (![1, 1] : Vec ℝ 2) i) ≠
    k * distSegmentVec ⟨![0, 0], ![2, 0]⟩ ![1, 1] := by
  have h := C108_segment_exact (![0, 0] : Vec ℝ 2) ![2, 0] ![1, 1] (by intro h; have := congrFun h 0; simp at this)
  by_contra hcon
  push Not at hcon
  have := h.1 hcon
  simp [Fin.sum_univ_two] at this
  linarith

/-- The point (-1, 1), behind the source. -/
example (k : ℝ) (hk : 0 < k) : distSegmentVec ((⟨![0, 0], ![2, 0]⟩ : Segment ℝ 2).scaled k) (fun i => k * (![-1, 1] : Vec ℝ 2) i) =
    k * distSegmentVec ⟨![0, 0], ![2, 0]⟩ ![-1, 1] :=
  (C108_segment_exact (![0, 0] : Vec ℝ 2) ![2, 0] ![-1, 1] (by intro h; have := congrFun h 0; simp at this)).2
    (by simp [Fin.sum_univ_two]) k hk
end Examples
end Verif
