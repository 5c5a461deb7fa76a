import Verif.Proofs.Distance
import Verif.Proofs.TolExample
import Mathlib.Tactic.NormNum
import Mathlib.Tactic.FinCases
import Mathlib.Data.Fin.VecNotation

/-
Properties C19–C27: closest points and distances.
-/
namespace Verif
open Matrix
set_option linter.unusedSectionVars false

variable {D : ℕ}

/-! ### C19 -/
section
variable [Tol ℝ] [LawfulTol ℝ]

/-- C19: the returned parameters belong to the unique closest pair of points. -/
theorem C19_minimum {e : ℝ} (he : 0 < e) (ls ld rs rd : Vec ℝ D) (p : CPOLParameters ℝ)
    (h : closestPointOnLineParameters ls ld rs rd e = some p) :
    Spec.IsDistance (Spec.line ls ld) (Spec.line rs rd) (Spec.dist (Spec.pointAt ls ld p.t) (Spec.pointAt rs rd p.s)) ∧
    ∀ t s, Spec.dist (Spec.pointAt ls ld t) (Spec.pointAt rs rd s) =
        Spec.dist (Spec.pointAt ls ld p.t) (Spec.pointAt rs rd p.s) → t = p.t ∧ s = p.s := by
  rcases closest_cases he ls ld rs rd with ⟨h1, -⟩ | ⟨p', h1, -, hg, ho1, ho2⟩
  · rw [h] at h1; cases h1
  rw [h] at h1; cases h1
  have key : ∀ t s : ℝ, Spec.pointAt ls ld t - Spec.pointAt rs rd s = (ls - rs) + t • ld - s • rd := by
    intro t s; rw [pointAt_eq, pointAt_eq]; abel
  constructor
  · refine IsDistance_intro ⟨_, rfl⟩ ⟨_, rfl⟩ ?_
    rintro _ ⟨t, rfl⟩ _ ⟨s, rfl⟩
    rw [key, key, sq_two_lines ho1 ho2 t s]
    have := dp_self_nonneg ((t - p.t) • ld - (s - p.s) • rd)
    linarith
  · intro t s hts
    rw [spec_dist_eq, spec_dist_eq, key, key] at hts
    have h3 := (Real.sqrt_inj (dp_self_nonneg _) (dp_self_nonneg _)).1 hts
    rw [sq_two_lines ho1 ho2 t s] at h3
    have h4 : (t - p.t) • ld - (s - p.s) • rd = 0 := dp_self_eq_zero.1 (by linarith)
    have h5 := congrArg (· ⬝ᵥ ld) h4
    have h6 := congrArg (· ⬝ᵥ rd) h4
    simp only [sub_dotProduct, smul_dotProduct, smul_eq_mul, zero_dotProduct, dotProduct_comm rd ld] at h5 h6
    have e1 : (t - p.t) * Spec.gram ld rd = 0 := by rw [gram_eq]; linear_combination (rd ⬝ᵥ rd) * h5 - (ld ⬝ᵥ rd) * h6
    have e2 : (s - p.s) * Spec.gram ld rd = 0 := by rw [gram_eq]; linear_combination (ld ⬝ᵥ rd) * h5 - (ld ⬝ᵥ ld) * h6
    constructor
    · rcases mul_eq_zero.1 e1 with h | h
      · linarith
      · exact absurd h hg
    · rcases mul_eq_zero.1 e2 with h | h
      · linarith
      · exact absurd h hg

/-- C19: nothing is returned exactly when `|d|²|d'|² sin²` is below the tolerance (undecided only at equality);
in particular for parallel directions. -/
theorem C19_none {e : ℝ} (he : 0 < e) (ls ld rs rd : Vec ℝ D) :
    (closestPointOnLineParameters ls ld rs rd e = none → Spec.gram ld rd ≤ e) ∧
    (Spec.gram ld rd < e → closestPointOnLineParameters ls ld rs rd e = none) ∧
    (Spec.Parallel ld rd → closestPointOnLineParameters ls ld rs rd e = none) := by
  have hn := gram_nonneg ld rd
  have A : Spec.gram ld rd < e → closestPointOnLineParameters ls ld rs rd e = none := by
    intro h
    rcases closest_cases he ls ld rs rd with ⟨h1, -⟩ | ⟨p', -, h2, -⟩
    · exact h1
    · rw [TolE.zero_true he (by rwa [abs_of_nonneg hn])] at h2; cases h2
  refine ⟨?_, A, fun h => A (by rw [gram_eq_zero_of_parallel h]; exact he)⟩
  intro h
  rcases closest_cases he ls ld rs rd with ⟨-, h2⟩ | ⟨p', h1, -⟩
  · have := TolE.of_zero he h2; rwa [abs_of_nonneg hn] at this
  · rw [h] at h1; cases h1
end

/-! ### C20 -/

/-- C20: `distance(point, line)` is the smallest distance to a point of the line (either argument order is this function). -/
theorem C20_point_line (v o d : Vec ℝ D) (hd : d ≠ 0) :
    Spec.IsDistance {v} (Spec.line o d) (distVecLine v (Line.make o d)) := by
  have := distVecLine_spec v o (normalize_ne_zero hd)
  rwa [line_normalize o hd] at this

/-! ### C21 -/
section
variable [Tol ℝ] [LawfulTol ℝ]

theorem dist_origin_sq (v o n : Vec ℝ D) (hn : n ⬝ᵥ n = 1) :
    (o - v) ⬝ᵥ (o - v) = (v - o - ((v - o) ⬝ᵥ n) • n) ⬝ᵥ (v - o - ((v - o) ⬝ᵥ n) • n) + ((v - o) ⬝ᵥ n) ^ 2 := by
  have : (o - v) ⬝ᵥ (o - v) = (v - o) ⬝ᵥ (v - o) := by rw [← neg_sub v o, neg_dotProduct, dotProduct_neg, neg_neg]
  rw [this, dp_sub_self (v - o), dp_smul_self, dotProduct_smul, hn]; simp only [smul_eq_mul]; ring

/-- exact value of the distance to a ray, foot point in front of the origin -/
theorem ray_dist_front (v o n : Vec ℝ D) (hn : n ⬝ᵥ n = 1) (h : 0 ≤ (v - o) ⬝ᵥ n) :
    Spec.IsDistance {v} (Spec.ray o n) (length (rejection (v - o) n)) := by
  have hn0 : n ≠ 0 := by rintro rfl; simp at hn
  have e1 : length (rejection (v - o) n) = Spec.dist v (Spec.pointAt o n ((v - o) ⬝ᵥ n)) := by
    rw [rejection_eq, length_eq, spec_dist_eq, pointAt_eq, hn, div_one, sub_sub]
  rw [e1]
  refine IsDistance_intro rfl ⟨_, h, rfl⟩ ?_
  rintro p rfl q ⟨t, -, rfl⟩
  rw [pointAt_eq, pointAt_eq, ← sub_sub, ← sub_sub, sq_line (p - o) hn0 t, hn, div_one]
  nlinarith [sq_nonneg (t - (p - o) ⬝ᵥ n)]

/-- exact value of the distance to a ray, foot point behind the origin -/
theorem ray_dist_back (v o n : Vec ℝ D) (hn : n ⬝ᵥ n = 1) (h : (v - o) ⬝ᵥ n ≤ 0) :
    Spec.IsDistance {v} (Spec.ray o n) (length (vsub o v)) := by
  have hn0 : n ≠ 0 := by rintro rfl; simp at hn
  rw [length_vsub, dist_comm']
  have hz : Spec.pointAt o n 0 = o := by rw [pointAt_eq]; simp
  refine IsDistance_intro rfl ⟨0, le_refl _, hz.symm⟩ ?_
  rintro p rfl q ⟨t, ht, rfl⟩
  have h0 := sq_line (p - o) hn0 0
  rw [zero_smul, sub_zero] at h0
  rw [pointAt_eq, ← sub_sub, sq_line (p - o) hn0 t, h0, hn, div_one]
  nlinarith [mul_nonneg ht (neg_nonneg.2 h), sq_nonneg t]

/-- C21: `distance(ray, point)` is never smaller than the smallest distance to a point of the ray and exceeds it by at
most the tolerance. -/
theorem C21_point_ray (dbg : Bool) (v o d : Vec ℝ D) (hd : d ≠ 0) (r : Ray ℝ D) (hr : Ray.make dbg o d = .ok r) :
    ∃ m, Spec.IsDistance {v} (Spec.ray o d) m ∧ m ≤ distRayVec r v ∧ distRayVec r v ≤ m + eps := by
  have he := eps_pos (K := ℝ)
  cases Ray.make_eq hr
  rw [← ray_normalize o hd]
  have hn := normalize_dp_self hd
  set n := normalize d
  unfold distRayVec
  simp only [dot_eq, vsub_eq, isGreater_eq]
  rcases le_or_gt ((v - o) ⬝ᵥ n) 0 with h | h
  · refine ⟨_, ray_dist_back v o n hn h, ?_⟩
    rw [not_isLess_of_le h]; simp only [Bool.false_eq_true, if_false, vsub_eq]
    exact ⟨le_refl _, by linarith⟩
  · refine ⟨_, ray_dist_front v o n hn h.le, ?_⟩
    split
    · exact ⟨le_refl _, by linarith⟩
    · rename_i hc
      have hc : (v - o) ⬝ᵥ n ≤ 0 + eps := of_not_isLess (by rwa [Bool.not_eq_true] at hc)
      rw [rejection_eq, length_eq, length_eq, dist_origin_sq v o n hn, hn, div_one]
      set R := (v - o - ((v - o) ⬝ᵥ n) • n) ⬝ᵥ (v - o - ((v - o) ⬝ᵥ n) • n)
      have hR : 0 ≤ R := dp_self_nonneg _
      constructor
      · exact Real.sqrt_le_sqrt (by nlinarith [sq_nonneg ((v - o) ⬝ᵥ n)])
      · apply Real.sqrt_le_iff.2
        have hs := Real.sqrt_nonneg R
        refine ⟨by linarith, ?_⟩
        nlinarith [Real.sq_sqrt hR, mul_nonneg hs he.le]

/-- C21: and it is exactly the smallest distance unless the point lies in the slab of width eps in front of the origin. -/
theorem C21_point_ray_exact (dbg : Bool) (v o d : Vec ℝ D) (hd : d ≠ 0) (r : Ray ℝ D) (hr : Ray.make dbg o d = .ok r)
    (h : (∑ i, (v i - o i) * d i) ≤ 0 ∨ eps * Spec.norm d < ∑ i, (v i - o i) * d i) :
    Spec.IsDistance {v} (Spec.ray o d) (distRayVec r v) := by
  have he := eps_pos (K := ℝ)
  cases Ray.make_eq hr
  rw [← ray_normalize o hd]
  have hn := normalize_dp_self hd
  rw [spec_norm_eq] at h
  have hl := length_pos hd
  have hs : (v - o) ⬝ᵥ normalize d = (length d)⁻¹ * ∑ i, (v i - o i) * d i := by
    rw [normalize_eq, dotProduct_smul]; rfl
  unfold distRayVec
  simp only [dot_eq, vsub_eq, isGreater_eq]
  rcases h with h | h
  · have h' : (v - o) ⬝ᵥ normalize d ≤ 0 := by rw [hs]; exact mul_nonpos_of_nonneg_of_nonpos (by positivity) h
    rw [not_isLess_of_le h']; simpa [vsub_eq] using ray_dist_back v o _ hn h'
  · have h' : eps < (v - o) ⬝ᵥ normalize d := by
      rw [hs, ← div_eq_inv_mul]; exact (lt_div_iff₀ hl).2 h
    rw [isLess_true (by linarith)]; simpa using ray_dist_front v o _ hn (by linarith)
end

/-! ### C22 -/

/-- C22: `distance(plane, point)` is the smallest distance to a point of the plane. -/
theorem C22_point_plane (o n v : Vec ℝ 3) (hn : n ≠ 0) :
    Spec.IsDistance {v} (Spec.plane o n) (distPlaneVec (Plane.make o n) v) := by
  rw [← plane_normalize o hn]
  have hu := normalize_dp_self hn
  unfold distPlaneVec Plane.make
  set u := normalize n
  simp only [stdAbs_eq, dot_eq, vsub_eq]
  have mem : ∀ p, p ∈ Spec.plane o u ↔ (p - o) ⬝ᵥ u = 0 := fun p => Iff.rfl
  constructor
  · refine ⟨v, rfl, v + ((o - v) ⬝ᵥ u) • u, ?_, ?_⟩
    · rw [mem, add_sub_right_comm, add_dotProduct, smul_dotProduct, hu]
      simp only [sub_dotProduct, smul_eq_mul]; ring
    · rw [spec_dist_eq]
      have : v - (v + ((o - v) ⬝ᵥ u) • u) = -((o - v) ⬝ᵥ u) • u := by rw [neg_smul]; abel
      rw [this, dp_smul_self, hu, mul_one, neg_sq, Real.sqrt_sq_eq_abs]
  · rintro x ⟨p, rfl, q, hq, rfl⟩
    rw [mem] at hq
    rw [spec_dist_eq]
    apply Real.le_sqrt_of_sq_le
    rw [sq_abs]
    have h := dp_mul_dp_le (p - q) u
    rw [hu, mul_one] at h
    have : (o - p) ⬝ᵥ u = - ((p - q) ⬝ᵥ u) := by
      simp only [sub_dotProduct] at *; linarith
    rw [this, neg_sq]; exact h

/-! ### C23 -/

/-- C23: `distance(point, sphere)` is the smallest distance to a point of the surface. -/
theorem C23_point_sphere (s : Sphere ℝ) (hr : 0 ≤ s.radius) (v : Vec ℝ 3) :
    Spec.IsDistance {v} (Spec.sphere s.origin s.radius) (distSphere v s) := by
  unfold distSphere signedDistSphere
  rw [stdAbs_eq, length_vsub]
  obtain ⟨o, r⟩ := s
  simp only at hr ⊢
  constructor
  · by_cases hv : v - o = 0
    · refine ⟨v, rfl, o + r • ![1, 0, 0], ?_, ?_⟩
      · show Spec.dist _ _ = r
        rw [spec_dist_eq, add_sub_cancel_left, dp_smul_self]
        simp [dotProduct, Fin.sum_univ_three, Real.sqrt_sq hr]
      · have hvo := sub_eq_zero.1 hv
        subst hvo
        rw [spec_dist_eq, spec_dist_eq, sub_add_cancel_left, neg_dotProduct, dotProduct_neg, neg_neg, dp_smul_self]
        simp [dotProduct, Fin.sum_univ_three, Real.sqrt_sq hr, abs_of_nonneg hr]
    · have hl := length_pos hv
      have hu := normalize_dp_self hv
      refine ⟨v, rfl, o + r • normalize (v - o), ?_, ?_⟩
      · show Spec.dist _ _ = r
        rw [spec_dist_eq, add_sub_cancel_left, dp_smul_self, hu, mul_one, Real.sqrt_sq hr]
      · rw [← length_vsub, spec_dist_eq]
        have : v - (o + r • normalize (v - o)) = (length (v - o) - r) • normalize (v - o) := by
          rw [sub_smul, ← sub_sub]; congr 1
          rw [normalize_eq, smul_smul, mul_inv_cancel₀ hl.ne', one_smul]
        rw [this, dp_smul_self, hu, mul_one, Real.sqrt_sq_eq_abs, vsub_eq]
  · rintro x ⟨p, rfl, q, hq, rfl⟩
    have hq : Spec.dist q o = r := hq
    rw [abs_le]
    have h1 := dist_triangle' p q o
    have h2 := dist_triangle' q p o
    rw [dist_comm' q p] at h2
    constructor <;> linarith

/-- C23: the signed distance is negative exactly for interior points, zero exactly on the surface. -/
theorem C23_signed (s : Sphere ℝ) (v : Vec ℝ 3) :
    (signedDistSphere v s < 0 ↔ Spec.dist v s.origin < s.radius) ∧
    (signedDistSphere v s = 0 ↔ v ∈ Spec.sphere s.origin s.radius) := by
  unfold signedDistSphere
  rw [length_vsub]
  exact ⟨sub_neg, sub_eq_zero⟩

/-- C23: `contains` accepts all points of the ball, rejects all points further than eps outside. -/
theorem C23_contains [Tol ℝ] [LawfulTol ℝ] (s : Sphere ℝ) (v : Vec ℝ 3) :
    (Spec.dist v s.origin < s.radius + eps → s.contains v = true) ∧
    (s.contains v = true → Spec.dist v s.origin ≤ s.radius + eps) := by
  unfold Sphere.contains
  rw [length_vsub, isGreater_eq]
  constructor
  · intro h; rw [not_isLess h]; rfl
  · intro h; exact of_not_isLess (by simpa using h)

/-! ### C24 -/
section
variable [Tol ℝ] [LawfulTol ℝ]

theorem distLineLine_ok (dbg : Bool) (lo d ro e : Vec ℝ 3) (hd : d ≠ 0) (he : e ≠ 0) :
    distLineLine dbg (Line.make lo d) (Line.make ro e) =
      .ok (if isZero (length (cross (normalize d) (normalize e))) then distVecLine lo (Line.make ro e)
        else dot (vsub lo ro) (cross (normalize d) (normalize e)) / length (cross (normalize d) (normalize e))) := by
  have hone : isEq (1 : ℝ) 1 = true := by rw [isEq_eq, not_isLess_of_le (le_refl _)]; rfl
  unfold distLineLine
  simp only [Line.make, length_normalize hd, length_normalize he, hone, geoAssert_true, ok_bind]
  by_cases hz : isZero (length (cross (normalize d) (normalize e))) = true <;> simp only [hz, if_true] <;> rfl

/-- What is missing for C24 (see `C24_counterexample`): the result may be negative. Its absolute value is the smallest
distance between the two lines whenever they are parallel or the sine of their angle exceeds eps. -/
theorem C24_partial (dbg : Bool) (lo d ro e : Vec ℝ 3) (hd : d ≠ 0) (he : e ≠ 0)
    (h : Spec.Parallel d e ∨ Spec.AngleAbove (eps ^ 2) d e) :
    ∃ x, distLineLine dbg (Line.make lo d) (Line.make ro e) = .ok x ∧
      Spec.IsDistance (Spec.line lo d) (Spec.line ro e) |x| := by
  have hep := eps_pos (K := ℝ)
  refine ⟨_, distLineLine_ok dbg lo d ro e hd he, ?_⟩
  rw [← line_normalize lo hd, ← line_normalize ro he]
  have hcl : length (cross (normalize d) (normalize e)) = Real.sqrt (Spec.gram (normalize d) (normalize e)) := by
    rw [length_eq, cross_dp_self]
  rw [hcl]
  rcases h with h | h
  · have h0 := gram_eq_zero_of_parallel (parallel_normalize h)
    rw [h0, Real.sqrt_zero, if_pos (isZero_true (by simpa using hep))]
    have hs := distVecLine_spec lo ro (normalize_ne_zero he)
    show Spec.IsDistance _ _ |distVecLine lo ⟨ro, normalize e⟩|
    have hpar := parallel_of_gram_eq_zero (normalize_ne_zero he)
      (by rw [gram_comm]; exact h0 : Spec.gram (normalize e) (normalize d) = 0)
    set n := normalize d
    set m := normalize e
    set c := n ⬝ᵥ m / (m ⬝ᵥ m)
    obtain ⟨p, hp, q, ⟨t, rfl⟩, hv⟩ := hs.1
    cases hp
    have hnn : 0 ≤ distVecLine lo ⟨ro, m⟩ := by rw [hv]; exact dist_nonneg' _ _
    rw [abs_of_nonneg hnn]
    refine ⟨⟨lo, ⟨0, by rw [pointAt_eq]; simp⟩, _, ⟨t, rfl⟩, hv⟩, ?_⟩
    rintro x ⟨_, ⟨t', rfl⟩, _, ⟨s', rfl⟩, rfl⟩
    have := distVecLine_sq_le lo ro (normalize_ne_zero he) (s' - t' * c)
    refine this.trans (le_of_eq ?_)
    rw [spec_dist_eq, spec_dist_eq]
    have : lo - Spec.pointAt ro m (s' - t' * c) = Spec.pointAt lo n t' - Spec.pointAt ro m s' := by
      rw [pointAt_eq, pointAt_eq, pointAt_eq, hpar, smul_smul, sub_smul]; abel
    rw [this]
  · have hg := (angle_iff hd he _).1 h
    set n := normalize d
    set m := normalize e
    have hgpos : 0 < Spec.gram n m := lt_of_le_of_lt (by positivity) hg
    have hlt : eps < Real.sqrt (Spec.gram n m) := Real.lt_sqrt_of_sq_lt hg
    rw [if_neg (by rw [isZero_false (by rwa [abs_of_nonneg (Real.sqrt_nonneg _)])]; simp)]
    obtain ⟨t, s, h1, h2⟩ := exists_critical (w := lo - ro) hgpos.ne'
    have hval : |dot (vsub lo ro) (cross n m) / Real.sqrt (Spec.gram n m)| =
        Spec.dist (Spec.pointAt lo n t) (Spec.pointAt ro m s) := by
      have e1 : (lo - ro) ⬝ᵥ cross n m = ((lo - ro) + t • n - s • m) ⬝ᵥ cross n m := by
        simp only [sub_dotProduct, add_dotProduct, smul_dotProduct, dp_cross_left, dp_cross_right]; simp
      have e2 : Spec.pointAt lo n t - Spec.pointAt ro m s = (lo - ro) + t • n - s • m := by
        rw [pointAt_eq, pointAt_eq]; abel
      rw [dot_eq, vsub_eq, e1, spec_dist_eq, e2, ← Real.sqrt_sq_eq_abs, div_pow, triple_sq _ _ _ h1 h2,
        Real.sq_sqrt hgpos.le, mul_div_cancel_right₀ _ hgpos.ne']
    rw [hval]
    refine IsDistance_intro ⟨_, rfl⟩ ⟨_, rfl⟩ ?_
    have key : ∀ t s : ℝ, Spec.pointAt lo n t - Spec.pointAt ro m s = (lo - ro) + t • n - s • m := by
      intro t s; rw [pointAt_eq, pointAt_eq]; abel
    rintro _ ⟨t', rfl⟩ _ ⟨s', rfl⟩
    rw [key, key, sq_two_lines h1 h2 t' s']
    have := dp_self_nonneg ((t' - t) • n - (s' - s) • m)
    linarith

theorem normalize_of_unit {v : Vec ℝ D} (h : v ⬝ᵥ v = 1) : normalize v = v := by
  rw [normalize_eq, length_eq, h, Real.sqrt_one, inv_one, one_smul]

/-- C24 is false: two perpendicular lines at distance 1 have "distance" -1. -/
theorem C24_counterexample (dbg : Bool) (hs : (eps : ℝ) < 1) :
    ∃ lo d ro e : Vec ℝ 3, d ≠ 0 ∧ e ≠ 0 ∧ Spec.IsDistance (Spec.line lo d) (Spec.line ro e) 1 ∧
      distLineLine dbg (Line.make lo d) (Line.make ro e) = .ok (-1) := by
  have hep := eps_pos (K := ℝ)
  have hd : (![1, 0, 0] : Vec ℝ 3) ≠ 0 := by intro h; have := congrFun h 0; simp at this
  have he : (![0, 1, 0] : Vec ℝ 3) ≠ 0 := by intro h; have := congrFun h 1; simp at this
  have nd : normalize (![1, 0, 0] : Vec ℝ 3) = ![1, 0, 0] := normalize_of_unit (by simp [dotProduct, Fin.sum_univ_three])
  have ne : normalize (![0, 1, 0] : Vec ℝ 3) = ![0, 1, 0] := normalize_of_unit (by simp [dotProduct, Fin.sum_univ_three])
  have hok := distLineLine_ok dbg 0 ![1, 0, 0] ![0, 0, 1] ![0, 1, 0] hd he
  have hc : cross (![1, 0, 0] : Vec ℝ 3) ![0, 1, 0] = ![0, 0, 1] := by funext i; fin_cases i <;> simp [cross]
  have hl : length (![0, 0, 1] : Vec ℝ 3) = 1 := by rw [length_eq]; simp [dotProduct, Fin.sum_univ_three]
  rw [nd, ne, hc, hl, isZero_false (by simpa using hs), dot_eq] at hok
  have hv : vsub 0 ![0, 0, 1] ⬝ᵥ (![0, 0, 1] : Vec ℝ 3) = -1 := by simp [dotProduct, Fin.sum_univ_three, vsub]
  rw [hv] at hok
  norm_num at hok
  have hang : Spec.AngleAbove (eps ^ 2) (![1, 0, 0] : Vec ℝ 3) ![0, 1, 0] := by
    unfold Spec.AngleAbove Spec.gram; simp [Fin.sum_univ_three, sq]; nlinarith
  obtain ⟨x, hx1, hx2⟩ := C24_partial dbg 0 ![1, 0, 0] ![0, 0, 1] ![0, 1, 0] hd he (Or.inr hang)
  rw [hok] at hx1; cases hx1
  exact ⟨0, _, ![0, 0, 1], _, hd, he, by simpa using hx2, hok⟩

/-- C24: the argument order does not matter (same hypothesis as `C24_partial`). -/
theorem C24_symmetric (dbg : Bool) (lo d ro e : Vec ℝ 3) (hd : d ≠ 0) (he : e ≠ 0)
    (h : Spec.Parallel d e ∨ Spec.AngleAbove (eps ^ 2) d e) :
    distLineLine dbg (Line.make lo d) (Line.make ro e) = distLineLine dbg (Line.make ro e) (Line.make lo d) := by
  have hep := eps_pos (K := ℝ)
  have hl : length (cross (normalize e) (normalize d)) = length (cross (normalize d) (normalize e)) := by
    rw [length_eq, length_eq, cross_dp_self, cross_dp_self, gram_comm]
  rcases h with h | h
  · obtain ⟨x, hx1, hx2⟩ := C24_partial dbg lo d ro e hd he (Or.inl h)
    obtain ⟨y, hy1, hy2⟩ := C24_partial dbg ro e lo d he hd (Or.inl (fun i j => by have := h j i; linarith))
    have hxy := hx2.unique (isDistance_symm hy2)
    have h0 := gram_eq_zero_of_parallel (parallel_normalize h)
    have hcl : length (cross (normalize d) (normalize e)) = 0 := by rw [length_eq, cross_dp_self, h0, Real.sqrt_zero]
    rw [distLineLine_ok dbg _ _ _ _ hd he, hcl, if_pos (isZero_true (by simpa using hep))] at hx1 ⊢
    rw [distLineLine_ok dbg _ _ _ _ he hd, hl, hcl, if_pos (isZero_true (by simpa using hep))] at hy1 ⊢
    cases hx1; cases hy1
    unfold distVecLine at hxy ⊢
    rw [abs_of_nonneg (length_nonneg _), abs_of_nonneg (length_nonneg _)] at hxy
    rw [hxy]
  · have hg := (angle_iff hd he _).1 h
    have hlt : eps < Real.sqrt (Spec.gram (normalize d) (normalize e)) := Real.lt_sqrt_of_sq_lt hg
    have hz : isZero (length (cross (normalize d) (normalize e))) = false := by
      rw [length_eq, cross_dp_self, isZero_false (by rwa [abs_of_nonneg (Real.sqrt_nonneg _)])]
    rw [distLineLine_ok dbg _ _ _ _ hd he, distLineLine_ok dbg _ _ _ _ he hd, hl, hz]
    simp only [Bool.false_eq_true, if_false]
    rw [cross_anti (normalize d), dot_eq, dot_eq, dotProduct_neg, vsub_eq, vsub_eq, ← neg_sub lo ro, neg_dotProduct, neg_neg]

/-! ### C25 -/

/-- C25: `distance(line, ray)` is the smallest distance between a point of the line and a point of the ray, for a line
and a ray that are parallel or enclose an angle with `sin² > eps`. -/
theorem C25_line_ray (dbg : Bool) (lo d ro e : Vec ℝ D) (hd : d ≠ 0) (he : e ≠ 0) (r : Ray ℝ D)
    (hr : Ray.make dbg ro e = .ok r) (h : Spec.Parallel d e ∨ Spec.AngleAbove eps d e) :
    Spec.IsDistance (Spec.line lo d) (Spec.ray ro e) (distLineRay (Line.make lo d) r) := by
  have hep := eps_pos (K := ℝ)
  cases Ray.make_eq hr
  rw [← line_normalize lo hd, ← ray_normalize ro he]
  unfold distLineRay
  simp only [Line.make]
  have hn0 := normalize_ne_zero hd
  have hang := angle_iff hd he
  have hpn := fun h => parallel_normalize (d := d) (e := e) h
  set n := normalize d
  set m := normalize e
  have hs := distVecLine_spec ro lo hn0
  have key : ∀ t s : ℝ, Spec.pointAt lo n t - Spec.pointAt ro m s = (lo - ro) + t • n - s • m := by
    intro t s; rw [pointAt_eq, pointAt_eq]; abel
  rcases h with h | h
  · have h0 := gram_eq_zero_of_parallel (hpn h)
    rw [(C19_none hep lo n ro m).2.1 (by rw [h0]; exact hep)]
    have hpar := parallel_of_gram_eq_zero hn0 h0
    set c := m ⬝ᵥ n / (n ⬝ᵥ n)
    obtain ⟨p, hp, q, ⟨t, rfl⟩, hv⟩ := hs.1
    cases hp
    refine ⟨⟨_, ⟨t, rfl⟩, ro, ⟨0, le_refl _, by rw [pointAt_eq]; simp⟩, by rw [hv, dist_comm']⟩, ?_⟩
    rintro x ⟨_, ⟨t', rfl⟩, _, ⟨s', hs', rfl⟩, rfl⟩
    have := distVecLine_sq_le ro lo hn0 (t' - s' * c)
    refine this.trans (le_of_eq ?_)
    rw [dist_comm', spec_dist_eq, spec_dist_eq]
    have : Spec.pointAt lo n (t' - s' * c) - ro = Spec.pointAt lo n t' - Spec.pointAt ro m s' := by
      rw [pointAt_eq, pointAt_eq, pointAt_eq, hpar, smul_smul, sub_smul]; abel
    rw [this]
  · rcases closest_cases hep lo n ro m with ⟨-, h2⟩ | ⟨p, h1, -, hg, ho1, ho2⟩
    · have hz := TolE.of_zero hep h2
      rw [abs_of_nonneg (gram_nonneg _ _)] at hz
      exact absurd hz (not_le.2 ((hang _).1 h))
    rw [h1]; simp only
    split
    · rename_i hneg
      obtain ⟨p', hp', q, ⟨t, rfl⟩, hv⟩ := hs.1
      cases hp'
      refine ⟨⟨_, ⟨t, rfl⟩, ro, ⟨0, le_refl _, by rw [pointAt_eq]; simp⟩, by rw [hv, dist_comm']⟩, ?_⟩
      rintro x ⟨_, ⟨t', rfl⟩, _, ⟨s', hs', rfl⟩, rfl⟩
      have hpos : 0 < s' - p.s := by linarith
      set l := -p.s / (s' - p.s)
      have hl0 : 0 ≤ l := div_nonneg (by linarith) hpos.le
      have hl1 : l ≤ 1 := by rw [div_le_one hpos]; linarith
      have hconv := sq_two_lines_convex ho1 ho2 t' s' l hl0 hl1
      have hz : p.s + l * (s' - p.s) = 0 := by simp only [l]; field_simp; ring
      rw [hz] at hconv
      refine (distVecLine_sq_le ro lo hn0 (p.t + l * (t' - p.t))).trans ?_
      rw [dist_comm', spec_dist_eq, spec_dist_eq, key]
      apply Real.sqrt_le_sqrt
      refine le_trans (le_of_eq ?_) hconv
      have : Spec.pointAt lo n (p.t + l * (t' - p.t)) - ro = lo - ro + (p.t + l * (t' - p.t)) • n - (0 : ℝ) • m := by
        rw [pointAt_eq, zero_smul]; abel
      rw [this]
    · rename_i hneg
      rw [length_vsub, vadd_eq, vadd_eq, vscale_eq, vscale_eq, ← pointAt_eq, ← pointAt_eq]
      refine IsDistance_intro ⟨_, rfl⟩ ⟨_, not_lt.1 hneg, rfl⟩ ?_
      rintro _ ⟨t', rfl⟩ _ ⟨s', -, rfl⟩
      rw [key, key, sq_two_lines ho1 ho2 t' s']
      have := dp_self_nonneg ((t' - p.t) • n - (s' - p.s) • m)
      linarith

/-- The angle hypothesis of C25 (and of `C24_partial`) cannot be dropped: for nearly parallel inputs the reported
distance can be arbitrarily large although line and ray meet. -/
theorem C73_near_parallel_counterexample (dbg : Bool) (hs : (eps : ℝ) < 1) (h : ℝ) (hh : 0 < h) :
    ∃ lo d ro e : Vec ℝ 3, d ≠ 0 ∧ e ≠ 0 ∧ ∃ r, Ray.make dbg ro e = .ok r ∧
      Spec.IsDistance (Spec.line lo d) (Spec.ray ro e) 0 ∧ distLineRay (Line.make lo d) r = h ∧
      Spec.IsDistance (Spec.line lo d) (Spec.line ro e) 0 ∧
      distLineLine dbg (Line.make ro e) (Line.make lo d) = .ok h := by
  have hep := eps_pos (K := ℝ)
  -- sine and cosine of the small angle
  set s : ℝ := eps / 2
  have hs0 : 0 < s := by positivity
  have hs1 : s < 1 := by simp only [s]; linarith
  have hse : s < eps := by simp only [s]; linarith
  set c : ℝ := Real.sqrt (1 - s ^ 2)
  have hc2 : c ^ 2 = 1 - s ^ 2 := Real.sq_sqrt (by nlinarith)
  have hcs : c * c + s * s = 1 := by nlinarith
  have hd : (![1, 0, 0] : Vec ℝ 3) ≠ 0 := by intro h; have := congrFun h 0; simp at this
  have he : (![c, -s, 0] : Vec ℝ 3) ≠ 0 := by
    intro h; have := congrFun h 1; simp at this; exact hs0.ne' this
  have ud : (![1, 0, 0] : Vec ℝ 3) ⬝ᵥ ![1, 0, 0] = 1 := by simp [dotProduct, Fin.sum_univ_three]
  have ue : (![c, -s, 0] : Vec ℝ 3) ⬝ᵥ ![c, -s, 0] = 1 := by simp [dotProduct, Fin.sum_univ_three, hcs]
  have nd := normalize_of_unit ud
  have ne := normalize_of_unit ue
  have hg : Spec.gram (![1, 0, 0] : Vec ℝ 3) ![c, -s, 0] = s ^ 2 := by
    rw [gram_eq, ud, ue]; simp [dotProduct, Fin.sum_univ_three]; linarith
  have hlen : length (![c, -s, 0] : Vec ℝ 3) = 1 := by rw [length_eq, ue, Real.sqrt_one]
  -- the common point
  have hcommon : Spec.pointAt (0 : Vec ℝ 3) ![1, 0, 0] (h / s * c) = Spec.pointAt ![0, h, 0] ![c, -s, 0] (h / s) := by
    funext i; fin_cases i <;> simp [Spec.pointAt]; field_simp; ring
  have hzero : ∀ x : Vec ℝ 3, Spec.dist x x = 0 := fun x => by rw [spec_dist_eq]; simp
  have hdist0 : ∀ S : Set (Vec ℝ 3), Spec.pointAt ![0, h, 0] ![c, -s, 0] (h / s) ∈ S →
      Spec.IsDistance (Spec.line 0 ![1, 0, 0]) S 0 := by
    intro S hS
    refine ⟨⟨_, ⟨h / s * c, rfl⟩, _, hS, ?_⟩, ?_⟩
    · rw [hcommon, hzero]
    · rintro x ⟨p, -, q, -, rfl⟩; exact dist_nonneg' _ _
  have hvl : distVecLine (![0, h, 0] : Vec ℝ 3) ⟨0, ![1, 0, 0]⟩ = h := by
    rw [distVecLine, rejection_eq, length_eq, ud]
    have : vsub (0 : Vec ℝ 3) ![0, h, 0] - (vsub (0 : Vec ℝ 3) ![0, h, 0] ⬝ᵥ ![1, 0, 0] / 1) • ![1, 0, 0] = ![0, -h, 0] := by
      funext i; fin_cases i <;> simp [vsub, dotProduct, Fin.sum_univ_three]
    rw [this]; simp [dotProduct, Fin.sum_univ_three, Real.sqrt_mul_self hh.le]
  refine ⟨0, _, ![0, h, 0], _, hd, he, _, Ray.make_ok (by rw [hlen]; exact hs), ?_, ?_, ?_, ?_⟩
  · exact hdist0 _ ⟨_, by positivity, rfl⟩
  · unfold distLineRay Line.make
    simp only [nd, ne]
    rw [(C19_none hep _ _ _ _).2.1 (by rw [hg]; nlinarith [mul_lt_mul_of_pos_left hs1 hs0])]
    exact hvl
  · exact hdist0 _ ⟨_, rfl⟩
  · rw [distLineLine_ok dbg _ _ _ _ he hd, nd, ne, length_eq, cross_dp_self, gram_comm, hg, Real.sqrt_sq hs0.le,
      if_pos (isZero_true (by rwa [abs_of_pos hs0]))]
    unfold Line.make; rw [nd, hvl]
end

/-! ### C26 -/

/-- `min (max x 0) 1`. -/
theorem clamp_nearest (x t : ℝ) (h0 : 0 ≤ t) (h1 : t ≤ 1) : (min (max x 0) 1 - x) ^ 2 ≤ (t - x) ^ 2 := by
  rcases le_total x 0 with h | h
  · rw [max_eq_right h, min_eq_left (by norm_num)]; nlinarith
  · rw [max_eq_left h]
    rcases le_total x 1 with h' | h'
    · rw [min_eq_left h']; nlinarith [sq_nonneg (t - x)]
    · rw [min_eq_right h']; nlinarith

theorem mem_segment (a b : Vec ℝ D) {t : ℝ} (h0 : 0 ≤ t) (h1 : t ≤ 1) : a + t • (b - a) ∈ Spec.segment a b :=
  ⟨t, h0, h1, rfl⟩

theorem distSegmentVec_eq (a b v : Vec ℝ D) :
    distSegmentVec ⟨a, b⟩ v = Spec.dist v (a + (min (max ((v - a) ⬝ᵥ (b - a) / length (b - a)) 0) 1) • (b - a)) := by
  unfold distSegmentVec
  simp only [stdMin_eq, stdMax_eq, dot_eq, vsub_eq, vadd_eq, vscale_eq]
  rw [← vsub_eq, length_vsub, dist_comm']

/-- the true distance to a segment -/
theorem segment_dist (a b v : Vec ℝ D) (hab : a ≠ b) :
    Spec.IsDistance {v} (Spec.segment a b)
      (Spec.dist v (a + (min (max ((v - a) ⬝ᵥ (b - a) / ((b - a) ⬝ᵥ (b - a))) 0) 1) • (b - a))) := by
  have hne : b - a ≠ 0 := sub_ne_zero.2 (Ne.symm hab)
  refine IsDistance_intro rfl (mem_segment a b (by simp) (by simp)) ?_
  rintro p rfl q ⟨t, h0, h1, rfl⟩
  have e1 : (fun i => a i + t * (b i - a i)) = a + t • (b - a) := rfl
  rw [e1, ← sub_sub, ← sub_sub, sq_line (p - a) hne, sq_line (p - a) hne t]
  have := clamp_nearest ((p - a) ⬝ᵥ (b - a) / ((b - a) ⬝ᵥ (b - a))) t h0 h1
  have hp := dp_self_pos hne
  nlinarith

/-- C26 is false: the segment from (0,0) to (2,0) and the point (1,1) have distance 1, the function returns √2. -/
theorem C26_counterexample :
    ∃ a b v : Vec ℝ 2, a ≠ b ∧ Spec.IsDistance {v} (Spec.segment a b) 1 ∧ distSegmentVec ⟨a, b⟩ v = Real.sqrt 2 := by
  have hab : (![0, 0] : Vec ℝ 2) ≠ ![2, 0] := by intro h; have := congrFun h 0; simp at this
  refine ⟨![0, 0], ![2, 0], ![1, 1], hab, ?_, ?_⟩
  · have := segment_dist ![0, 0] ![2, 0] ![1, 1] hab
    convert this using 1
    rw [spec_dist_eq]; simp [dotProduct, Fin.sum_univ_two]; norm_num
  · have hl : length ((![2, 0] : Vec ℝ 2) - ![0, 0]) = 2 := by
      rw [length_eq]; simp [dotProduct, Fin.sum_univ_two]
    rw [distSegmentVec_eq, hl, spec_dist_eq]; simp [dotProduct, Fin.sum_univ_two]; norm_num

/-- C26, what holds for every segment: the result is never smaller than the distance. -/
theorem C26_upper_partial (a b v : Vec ℝ D) (hab : a ≠ b) :
    ∃ m, Spec.IsDistance {v} (Spec.segment a b) m ∧ m ≤ distSegmentVec ⟨a, b⟩ v := by
  refine ⟨_, segment_dist a b v hab, ?_⟩
  rw [distSegmentVec_eq]
  exact (segment_dist a b v hab).2 ⟨v, rfl, _, mem_segment a b (by simp) (by simp), rfl⟩

/-- C26 restricted: the result is the smallest distance to a point of the segment when the segment has length 1, or the
foot point lies before the source, or beyond the target and the segment is not shorter than 1. Missing: all other
segments (see `C26_counterexample`). -/
theorem C26_partial (a b v : Vec ℝ D) (hab : a ≠ b)
    (h : Spec.dist a b = 1 ∨ (∑ i, (v i - a i) * (b i - a i)) ≤ 0 ∨
      (1 ≤ Spec.dist a b ∧ Spec.dist a b ^ 2 ≤ ∑ i, (v i - a i) * (b i - a i))) :
    Spec.IsDistance {v} (Spec.segment a b) (distSegmentVec ⟨a, b⟩ v) := by
  have hne : b - a ≠ 0 := sub_ne_zero.2 (Ne.symm hab)
  have hlen : length (b - a) = Spec.dist a b := by rw [← vsub_eq, length_vsub, dist_comm']
  have hd : ∑ i, (v i - a i) * (b i - a i) = (v - a) ⬝ᵥ (b - a) := rfl
  have hsd := segment_dist a b v hab
  rw [distSegmentVec_eq]
  rw [← length_sq] at hsd
  rw [← hlen, hd] at h
  have hp := length_pos hne
  suffices hh : min (max ((v - a) ⬝ᵥ (b - a) / length (b - a)) 0) 1 = min (max ((v - a) ⬝ᵥ (b - a) / length (b - a) ^ 2) 0) 1 by
    rw [hh]; exact hsd
  rcases h with h | h | ⟨h1, h2⟩
  · rw [h]; norm_num
  · rw [max_eq_right (div_nonpos_of_nonpos_of_nonneg h hp.le), max_eq_right (div_nonpos_of_nonpos_of_nonneg h (by positivity))]
  · have e1 : 1 ≤ (v - a) ⬝ᵥ (b - a) / length (b - a) ^ 2 := by rw [le_div_iff₀ (by positivity)]; linarith
    have e2 : 1 ≤ (v - a) ⬝ᵥ (b - a) / length (b - a) := by rw [le_div_iff₀ hp]; nlinarith
    rw [min_eq_right (le_max_of_le_left e1), min_eq_right (le_max_of_le_left e2)]

/-- **C26**, exactly: the result is the distance for segments of length 1, for foot points before the source, and if the unnormalised
parameter and the one divided by the length once too few are both beyond the target; for no other segments and points. -/
theorem C26_exact (a b v : Vec ℝ D) (hab : a ≠ b) :
    Spec.IsDistance {v} (Spec.segment a b) (distSegmentVec ⟨a, b⟩ v) ↔
      Spec.dist a b = 1 ∨ (∑ i, (v i - a i) * (b i - a i)) ≤ 0 ∨
        (Spec.dist a b ≤ ∑ i, (v i - a i) * (b i - a i)) ∧ Spec.dist a b ^ 2 ≤ ∑ i, (v i - a i) * (b i - a i) := by
  have hne : b - a ≠ 0 := sub_ne_zero.2 (Ne.symm hab)
  have hlen : length (b - a) = Spec.dist a b := by rw [← vsub_eq, length_vsub, dist_comm']
  have hd : ∑ i, (v i - a i) * (b i - a i) = (v - a) ⬝ᵥ (b - a) := rfl
  have hsd := segment_dist a b v hab
  rw [distSegmentVec_eq]
  rw [← length_sq] at hsd
  rw [hd, ← hlen]
  have hp := length_pos hne
  set S := (v - a) ⬝ᵥ (b - a) with hS
  set L := length (b - a) with hL
  constructor
  · intro h
    by_contra hcon
    push Not at hcon
    obtain ⟨h1, h2, h3⟩ := hcon
    have hu := h.unique hsd
    have hsq : ∀ t : ℝ, Spec.dist v (a + t • (b - a)) ^ 2 = (v - a - (S / L ^ 2) • (b - a)) ⬝ᵥ (v - a - (S / L ^ 2) • (b - a)) + L ^ 2 * (t - S / L ^ 2) ^ 2 := by
      intro t
      rw [spec_dist_eq, Real.sq_sqrt (dp_self_nonneg _), ← sub_sub, sq_line (v - a) hne t, ← length_sq (b - a), mul_comm (L ^ 2)]
    have e := hsq (min (max (S / L) 0) 1)
    rw [hu, hsq] at e
    have e : (min (max (S / L ^ 2) 0) 1 - S / L ^ 2) ^ 2 = (min (max (S / L) 0) 1 - S / L ^ 2) ^ 2 := by
      have hL2 : L ^ 2 ≠ 0 := by positivity
      exact mul_left_cancel₀ hL2 (by linarith)
    have p1 : 0 < S / L := div_pos h2 hp
    have p2 : 0 < S / L ^ 2 := div_pos h2 (by positivity)
    rw [max_eq_left p1.le, max_eq_left p2.le] at e
    have heq : min (S / L) 1 = min (S / L ^ 2) 1 := by
      rcases le_or_gt (S / L ^ 2) 1 with h4 | h4
      · rw [min_eq_left h4] at e ⊢
        have : min (S / L) 1 - S / L ^ 2 = 0 := by
          rw [sub_self] at e
          exact pow_eq_zero_iff (two_ne_zero) |>.1 (by rw [← e]; ring)
        linarith
      · rw [min_eq_right h4.le] at e ⊢
        rcases sq_eq_sq_iff_eq_or_eq_neg.1 e with h5 | h5
        · linarith
        · have := min_le_right (S / L) 1
          linarith
    rcases lt_or_ge (S / L) 1 with h4 | h4
    · rw [min_eq_left h4.le] at heq
      have h5 : S / L = S / L ^ 2 := by
        rcases min_choice (S / L ^ 2) 1 with h6 | h6
        · rw [heq, h6]
        · rw [h6] at heq; linarith
      rw [div_eq_div_iff hp.ne' (by positivity)] at h5
      have : S * L * (L - 1) = 0 := by linarith [h5, show S * L * (L - 1) = S * L ^ 2 - S * L by ring]
      rcases mul_eq_zero.1 this with h6 | h6
      · exact (mul_pos h2 hp).ne' h6
      · exact h1 (by linarith)
    · rw [min_eq_right h4] at heq
      have h5 : 1 ≤ S / L ^ 2 := by rw [heq]; exact min_le_left _ _
      rw [le_div_iff₀ hp] at h4
      rw [le_div_iff₀ (by positivity)] at h5
      linarith [h3 (by linarith)]
  · intro h
    suffices hh : min (max (S / L) 0) 1 = min (max (S / L ^ 2) 0) 1 by
      rw [hh]; exact hsd
    rcases h with h | h | ⟨h1, h2⟩
    · rw [h]; norm_num
    · rw [max_eq_right (div_nonpos_of_nonpos_of_nonneg h hp.le), max_eq_right (div_nonpos_of_nonpos_of_nonneg h (by positivity))]
    · have e1 : 1 ≤ S / L ^ 2 := by rw [le_div_iff₀ (by positivity)]; linarith
      have e2 : 1 ≤ S / L := by rw [le_div_iff₀ hp]; linarith
      rw [min_eq_right (le_max_of_le_left e1), min_eq_right (le_max_of_le_left e2)]

/-! ### C27 -/
section
variable [Tol ℝ] [LawfulTol ℝ]

/-- C27/C74: `distance(segment, ray)` always returns normally: the empty parameters are never dereferenced. -/
theorem C74_no_fault {K : Type*} [Field K] [LinearOrder K] [IsStrictOrderedRing K] [HasSqrt K] [Tol K] [LawfulTol K]
    (seg : Segment K D) (ray : Ray K D) : ∃ x, distSegmentRay seg ray = .ok x := by
  unfold distSegmentRay
  simp only [isGreaterEq_eq, isLessEq_eq, isGreater_eq]
  split
  · split_ifs <;> first | exact ⟨_, rfl⟩ | skip
    rename_i h1 h2 h3 h4 h5 h6
    simp_all
  · exact ⟨_, rfl⟩

theorem calcSegmentPoint_mem (a b : Vec ℝ D) (t : ℝ) : calcSegmentPoint ⟨a, b⟩ t ∈ Spec.segment a b := by
  unfold calcSegmentPoint
  split_ifs with h1 h2
  · exact ⟨0, le_refl _, zero_le_one, by funext i; simp⟩
  · exact ⟨1, zero_le_one, le_refl _, by funext i; simp⟩
  · rw [vadd_eq, vscale_eq, vsub_eq]; exact mem_segment a b (not_lt.1 h1) (not_lt.1 h2)

theorem calcRayPoint_mem (o e : Vec ℝ D) (t : ℝ) : calcRayPoint ⟨o, e⟩ t ∈ Spec.ray o e := by
  unfold calcRayPoint
  split_ifs with h1
  · exact ⟨0, le_refl _, by rw [pointAt_eq]; simp⟩
  · rw [vadd_eq, vscale_eq]; exact ⟨t, not_lt.1 h1, rfl⟩

theorem segRay_some (a b o n : Vec ℝ D) (hang : eps < Spec.gram (b - a) n) :
    ∃ p, closestPointOnLineParameters a (b - a) o n = some p ∧
      ((a - o) + p.t • (b - a) - p.s • n) ⬝ᵥ (b - a) = 0 ∧ ((a - o) + p.t • (b - a) - p.s • n) ⬝ᵥ n = 0 ∧
      distSegmentRay ⟨a, b⟩ ⟨o, n⟩ = .ok (Spec.dist (calcSegmentPoint ⟨a, b⟩ p.t) (calcRayPoint ⟨o, n⟩ p.s)) := by
  have hep := eps_pos (K := ℝ)
  rcases closest_cases hep a (b - a) o n with ⟨-, h2⟩ | ⟨p, h1, -, hg, ho1, ho2⟩
  · have hz := TolE.of_zero hep h2
    rw [abs_of_nonneg (gram_nonneg _ _)] at hz
    exact absurd hz (not_le.2 hang)
  · refine ⟨p, h1, ho1, ho2, ?_⟩
    unfold distSegmentRay
    simp only [vsub_eq]
    rw [h1]; simp only
    rw [← vsub_eq, length_vsub]

theorem gram_normalize_right (d : Vec ℝ D) {e : Vec ℝ D} (he : e ≠ 0) :
    Spec.gram d (normalize e) * (e ⬝ᵥ e) = Spec.gram d e := by
  have h2 := length_pos he
  have := gram_smul d e 1 (length e)⁻¹
  rw [one_smul] at this
  rw [normalize_eq, this, ← length_sq]; field_simp

/-- C27, what holds for every segment and ray that are clearly not parallel: the result is attained by a point of the
segment and a point of the ray, hence never smaller than their distance. -/
theorem C27_attained_partial (dbg : Bool) (a b o e : Vec ℝ D) (he : e ≠ 0) (r : Ray ℝ D) (hr : Ray.make dbg o e = .ok r)
    (hang : eps * (∑ i, e i ^ 2) < Spec.gram (fun i => b i - a i) e) :
    ∃ p ∈ Spec.segment a b, ∃ q ∈ Spec.ray o e, distSegmentRay ⟨a, b⟩ r = .ok (Spec.dist p q) := by
  cases Ray.make_eq hr
  have hang' : eps < Spec.gram (b - a) (normalize e) := by
    have e1 : (∑ i, e i ^ 2) = e ⬝ᵥ e := by simp [dotProduct, sq]
    have e2 : (fun i => b i - a i) = b - a := rfl
    rw [e1, e2, ← gram_normalize_right _ he] at hang
    exact lt_of_mul_lt_mul_right hang (dp_self_nonneg e)
  obtain ⟨p, -, -, -, h⟩ := segRay_some a b o (normalize e) hang'
  rw [← ray_normalize o he]
  exact ⟨_, calcSegmentPoint_mem a b p.t, _, calcRayPoint_mem o _ p.s, h⟩

/-- C27 restricted to the case that the closest points of the two carrier lines lie on the segment and on the ray: then
the result is the smallest distance. Missing: the other cases (see `C27_counterexample`). -/
theorem C27_partial (dbg : Bool) (a b o e : Vec ℝ D) (he : e ≠ 0) (r : Ray ℝ D) (hr : Ray.make dbg o e = .ok r)
    (hang : eps * (∑ i, e i ^ 2) < Spec.gram (fun i => b i - a i) e)
    (p q : Vec ℝ D) (hp : p ∈ Spec.segment a b) (hq : q ∈ Spec.ray o e)
    (hpq : Spec.IsDistance (Spec.line a (b - a)) (Spec.line o e) (Spec.dist p q)) :
    distSegmentRay ⟨a, b⟩ r = .ok (Spec.dist p q) ∧
      Spec.IsDistance (Spec.segment a b) (Spec.ray o e) (Spec.dist p q) := by
  have hep := eps_pos (K := ℝ)
  cases Ray.make_eq hr
  have hang' : eps < Spec.gram (b - a) (normalize e) := by
    have e1 : (∑ i, e i ^ 2) = e ⬝ᵥ e := by simp [dotProduct, sq]
    have e2 : (fun i => b i - a i) = b - a := rfl
    rw [e1, e2, ← gram_normalize_right _ he] at hang
    exact lt_of_mul_lt_mul_right hang (dp_self_nonneg e)
  rw [← ray_normalize o he] at hq ⊢
  rw [← line_normalize o he] at hpq
  set n := normalize e
  obtain ⟨p', hp', -, -, h⟩ := segRay_some a b o n hang'
  obtain ⟨t, ht0, ht1, rfl⟩ := hp
  obtain ⟨s, hs0, rfl⟩ := hq
  have ept : (fun i => a i + t * (b i - a i)) = Spec.pointAt a (b - a) t := rfl
  rw [ept] at hpq ⊢
  have hC := C19_minimum hep a (b - a) o n p' hp'
  obtain ⟨rfl, rfl⟩ := hC.2 t s (hpq.unique hC.1)
  constructor
  · rw [h]
    unfold calcSegmentPoint calcRayPoint
    rw [if_neg (not_lt.2 ht0), if_neg (not_lt.2 ht1), if_neg (not_lt.2 hs0)]
    simp only [vadd_eq, vscale_eq, vsub_eq]; rfl
  · refine ⟨⟨_, ⟨_, ht0, ht1, rfl⟩, _, ⟨_, hs0, rfl⟩, rfl⟩, ?_⟩
    rintro x ⟨_, ⟨t', _, _, rfl⟩, _, ⟨s', _, rfl⟩, rfl⟩
    exact hpq.2 ⟨_, ⟨t', rfl⟩, _, ⟨s', rfl⟩, rfl⟩

/-- C27, which two points the result belongs to, for every segment and ray that are clearly not parallel: with `p`, `q` the
closest points of the two carrier lines, it is the distance between the point of the segment nearest to `p` and the point
of the ray nearest to `q`. Missing: these two need not be the closest points of segment and ray (`C27_counterexample`). -/
theorem C27_nearest_partial (dbg : Bool) (a b o e : Vec ℝ D) (he : e ≠ 0) (r : Ray ℝ D) (hr : Ray.make dbg o e = .ok r)
    (hang : eps * (∑ i, e i ^ 2) < Spec.gram (fun i => b i - a i) e)
    (p q p' q' : Vec ℝ D) (hp : p ∈ Spec.line a (b - a)) (hq : q ∈ Spec.line o e)
    (hpq : Spec.IsDistance (Spec.line a (b - a)) (Spec.line o e) (Spec.dist p q))
    (hp' : p' ∈ Spec.segment a b) (hpn : Spec.IsDistance {p} (Spec.segment a b) (Spec.dist p p'))
    (hq' : q' ∈ Spec.ray o e) (hqn : Spec.IsDistance {q} (Spec.ray o e) (Spec.dist q q')) :
    distSegmentRay ⟨a, b⟩ r = .ok (Spec.dist p' q') := by
  have hep := eps_pos (K := ℝ)
  cases Ray.make_eq hr
  have hang' : eps < Spec.gram (b - a) (normalize e) := by
    have e1 : (∑ i, e i ^ 2) = e ⬝ᵥ e := by simp [dotProduct, sq]
    have e2 : (fun i => b i - a i) = b - a := rfl
    rw [e1, e2, ← gram_normalize_right _ he] at hang
    exact lt_of_mul_lt_mul_right hang (dp_self_nonneg e)
  rw [← ray_normalize o he] at hq' hqn
  rw [← line_normalize o he] at hpq hq
  have hn1 := normalize_dp_self he
  set n := normalize e
  obtain ⟨c, hc, -, -, h⟩ := segRay_some a b o n hang'
  obtain ⟨t, rfl⟩ := hp
  obtain ⟨s, rfl⟩ := hq
  have hC := C19_minimum hep a (b - a) o n c hc
  obtain ⟨rfl, rfl⟩ := hC.2 t s (hpq.unique hC.1)
  have hu : 0 < (b - a) ⬝ᵥ (b - a) := by
    rcases (dp_self_nonneg (b - a)).lt_or_eq with h | h
    · exact h
    · have : b - a = 0 := dp_self_eq_zero.1 h.symm
      rw [this, gram_eq] at hang'; simp at hang'; linarith
  have dline : ∀ (x d : Vec ℝ D) (t t' : ℝ),
      Spec.dist (Spec.pointAt x d t) (Spec.pointAt x d t') = Real.sqrt ((t - t') ^ 2 * (d ⬝ᵥ d)) := by
    intro x d t t'
    rw [spec_dist_eq]; congr 1
    have : Spec.pointAt x d t - Spec.pointAt x d t' = (t - t') • d := by rw [pointAt_eq, pointAt_eq]; module
    rw [this, smul_dotProduct, dotProduct_smul]; simp only [smul_eq_mul]; ring
  have near : ∀ (x d : Vec ℝ D) (t t' t'' : ℝ), 0 < d ⬝ᵥ d →
      Spec.dist (Spec.pointAt x d t) (Spec.pointAt x d t') ≤ Spec.dist (Spec.pointAt x d t) (Spec.pointAt x d t'') →
      (t - t') ^ 2 ≤ (t - t'') ^ 2 := by
    intro x d t t' t'' hd hle
    rw [dline, dline] at hle
    exact le_of_mul_le_mul_right ((Real.sqrt_le_sqrt_iff (by positivity)).1 hle) hd
  obtain ⟨t', ht0, ht1, rfl⟩ := hp'
  obtain ⟨s', hs0, rfl⟩ := hq'
  have ept (t : ℝ) : (fun i => a i + t * (b i - a i)) = Spec.pointAt a (b - a) t := rfl
  rw [ept] at hpn ⊢
  have hT : ∀ t'', 0 ≤ t'' → t'' ≤ 1 → (c.t - t') ^ 2 ≤ (c.t - t'') ^ 2 := fun t'' h0 h1 =>
    near a (b - a) _ _ _ hu (hpn.2 ⟨_, rfl, _, ⟨t'', h0, h1, rfl⟩, rfl⟩)
  have hS : ∀ s'', 0 ≤ s'' → (c.s - s') ^ 2 ≤ (c.s - s'') ^ 2 := fun s'' h0 =>
    near o n _ _ _ (by rw [hn1]; exact one_pos) (hqn.2 ⟨_, rfl, _, ⟨s'', h0, rfl⟩, rfl⟩)
  have e1 : calcSegmentPoint ⟨a, b⟩ c.t = Spec.pointAt a (b - a) t' := by
    unfold calcSegmentPoint
    split_ifs with h1 h2
    · have h3 := hT 0 le_rfl zero_le_one
      have : t' = 0 := by nlinarith
      rw [this, pointAt_eq]; simp
    · have h3 := hT 1 zero_le_one le_rfl
      have : t' = 1 := by nlinarith
      rw [this, pointAt_eq]; simp
    · have h3 := hT c.t (not_lt.1 h1) (not_lt.1 h2)
      have : c.t - t' = 0 := by
        rw [sub_self] at h3; exact pow_eq_zero_iff (two_ne_zero) |>.1 (le_antisymm (by simpa using h3) (sq_nonneg _))
      rw [← sub_eq_zero.1 this, vadd_eq, vscale_eq, vsub_eq]; rfl
  have e2 : calcRayPoint ⟨o, n⟩ c.s = Spec.pointAt o n s' := by
    unfold calcRayPoint
    split_ifs with h1
    · have h3 := hS 0 le_rfl
      have : s' = 0 := by nlinarith
      rw [this, pointAt_eq]; simp
    · have h3 := hS c.s (not_lt.1 h1)
      have : c.s - s' = 0 := by
        rw [sub_self] at h3; exact pow_eq_zero_iff (two_ne_zero) |>.1 (le_antisymm (by simpa using h3) (sq_nonneg _))
      rw [← sub_eq_zero.1 this, vadd_eq, vscale_eq]; rfl
  rw [h, e1, e2]

/-- C27 is false: the segment from (0,0,0) to (1,0,0) and the ray from (1,1,0) in direction (3,-4,0) contain points at
distance 3/5, the function returns 3/4. -/
theorem C27_counterexample (dbg : Bool) (hs : (eps : ℝ) < 1 / 2) :
    ∃ a b o e p q : Vec ℝ 3, a ≠ b ∧ e ≠ 0 ∧ p ∈ Spec.segment a b ∧ q ∈ Spec.ray o e ∧ Spec.dist p q = 3 / 5 ∧
      ∃ r, Ray.make dbg o e = .ok r ∧ distSegmentRay ⟨a, b⟩ r = .ok (3 / 4) := by
  have hep := eps_pos (K := ℝ)
  have ue : (![3 / 5, -4 / 5, 0] : Vec ℝ 3) ⬝ᵥ ![3 / 5, -4 / 5, 0] = 1 := by simp [dotProduct, Fin.sum_univ_three]; norm_num
  have ne := normalize_of_unit ue
  have hab : (![1, 0, 0] : Vec ℝ 3) - 0 = ![1, 0, 0] := sub_zero _
  have hg : Spec.gram ((![1, 0, 0] : Vec ℝ 3) - 0) ![3 / 5, -4 / 5, 0] = 16 / 25 := by
    rw [gram_eq, ue, hab]; simp [dotProduct, Fin.sum_univ_three]; norm_num
  refine ⟨0, ![1, 0, 0], ![1, 1, 0], ![3 / 5, -4 / 5, 0], ![1, 0, 0], Spec.pointAt ![1, 1, 0] ![3 / 5, -4 / 5, 0] (4 / 5),
    ?_, ?_, ?_, ?_, ?_, ⟨![1, 1, 0], ![3 / 5, -4 / 5, 0]⟩, ?_, ?_⟩
  · intro h; have := congrFun h 0; simp at this
  · intro h; have := congrFun h 0; simp at this
  · exact ⟨1, by norm_num, le_refl _, by funext i; simp⟩
  · exact ⟨4 / 5, by norm_num, rfl⟩
  · rw [spec_dist_eq, Real.sqrt_eq_iff_mul_self_eq_of_pos (by norm_num)]
    simp [dotProduct, Fin.sum_univ_three, Spec.pointAt]; norm_num
  · rw [Ray.make_ok, ne]
    rw [length_eq, ue, Real.sqrt_one]; change eps < 1; linarith
  · obtain ⟨p, hp, h1, h2, h3⟩ := segRay_some 0 ![1, 0, 0] ![1, 1, 0] ![3 / 5, -4 / 5, 0] (by rw [hg]; linarith)
    simp [dotProduct, Fin.sum_univ_three] at h1 h2
    have ht : p.t = 7 / 4 := by linarith
    have hs : p.s = 5 / 4 := by linarith
    rw [h3, ht, hs]
    unfold calcSegmentPoint calcRayPoint
    norm_num
    rw [spec_dist_eq, ← Real.sqrt_sq (by norm_num : (0 : ℝ) ≤ 3 / 4)]; congr 1
    simp [dotProduct, Fin.sum_univ_three, vadd, vscale]; norm_num

/-- C27 for a segment of length 1 parallel to the ray: the result is the smallest distance up to 2 eps. -/
theorem C27_parallel_partial (dbg : Bool) (a b o e : Vec ℝ D) (hab : Spec.dist a b = 1) (he : e ≠ 0)
    (r : Ray ℝ D) (hr : Ray.make dbg o e = .ok r) (hpar : Spec.Parallel (fun i => b i - a i) e) :
    ∃ m x, Spec.IsDistance (Spec.segment a b) (Spec.ray o e) m ∧ distSegmentRay ⟨a, b⟩ r = .ok x ∧ |x - m| ≤ 2 * eps := by
  have hep := eps_pos (K := ℝ)
  cases Ray.make_eq hr
  rw [← ray_normalize o he]
  have hm1 := normalize_dp_self he
  have hpar' : Spec.Parallel (b - a) (normalize e) := by
    have := Parallel.smul hpar 1 (length e)⁻¹
    rw [one_smul] at this
    rwa [normalize_eq]
  set m := normalize e
  set u := b - a with hu
  have hul : length u = 1 := by rw [hu, ← vsub_eq, length_vsub, dist_comm', hab]
  have hu1 : u ⬝ᵥ u = 1 := by rw [← length_sq, hul]; norm_num
  have hu0 : u ≠ 0 := by rintro h; rw [h] at hu1; simp at hu1
  have h0 := gram_eq_zero_of_parallel hpar'
  have hmc := parallel_of_gram_eq_zero hu0 h0
  rw [hu1, div_one] at hmc
  set c := m ⬝ᵥ u with hc
  have hc2 : c ^ 2 = 1 := by rw [hmc, dp_smul_self, hu1, mul_one] at hm1; exact hm1
  -- position of the ray origin along the segment and its offset
  set x := (o - a) ⬝ᵥ u with hx
  set w := o - a - x • u with hw
  have hwu : w ⬝ᵥ u = 0 := by rw [hw, sub_dotProduct, smul_dotProduct, hu1, ← hx]; simp
  set L := Real.sqrt (w ⬝ᵥ w) with hL
  have hL0 : 0 ≤ L := Real.sqrt_nonneg _
  have hL2 : L ^ 2 = w ⬝ᵥ w := Real.sq_sqrt (dp_self_nonneg _)
  -- distance of a pair of points
  have hpair : ∀ t s : ℝ, Spec.dist (a + t • u) (Spec.pointAt o m s) = Real.sqrt (L ^ 2 + (t - x - s * c) ^ 2) := by
    intro t s
    rw [spec_dist_eq, pointAt_eq, hmc, smul_smul]
    have : a + t • u - (o + (s * c) • u) = (t - x - s * c) • u - w := by
      rw [hw, sub_smul, sub_smul]; abel
    rw [this, dp_sub_self, dp_smul_self, hu1, smul_dotProduct, dotProduct_comm u w, hwu, hL2]
    congr 1; simp; ring
  have hpo : Spec.pointAt o m 0 = o := by rw [pointAt_eq]; simp
  have hlen1 : length (o - a) = Real.sqrt (L ^ 2 + x ^ 2) := by
    have := hpair 0 0
    rw [zero_smul, add_zero, hpo, dist_comm', ← length_vsub, vsub_eq] at this
    rw [this]; congr 1; ring
  have hlen2 : length (o - b) = Real.sqrt (L ^ 2 + (1 - x) ^ 2) := by
    have := hpair 1 0
    rw [one_smul, hu, add_sub_cancel, hpo, dist_comm', ← length_vsub, vsub_eq] at this
    rw [this]; congr 1; ring
  have hline : distVecLine o (Line.make a u) = L := by
    rw [distVecLine, Line.make, rejection_eq, length_eq, normalize_of_unit hu1, hu1, div_one, vsub_eq, hL, hw]
    have h1 : a - o - ((a - o) ⬝ᵥ u) • u = -(o - a - x • u) := by
      have : (a - o) ⬝ᵥ u = - x := by rw [hx, ← neg_sub, neg_dotProduct]
      simp only [this, neg_smul]; abel
    simp only [h1, neg_dotProduct, dotProduct_neg, neg_neg]
  have hmin : ∀ δ : ℝ, (∃ t s, 0 ≤ t ∧ t ≤ 1 ∧ 0 ≤ s ∧ δ ^ 2 = (t - x - s * c) ^ 2) →
      (∀ t s, 0 ≤ t → t ≤ 1 → 0 ≤ s → δ ^ 2 ≤ (t - x - s * c) ^ 2) →
      Spec.IsDistance (Spec.segment a b) (Spec.ray o m) (Real.sqrt (L ^ 2 + δ ^ 2)) := by
    rintro δ ⟨t, s, ht0, ht1, hs0, hδ⟩ hall
    refine ⟨⟨_, ⟨t, ht0, ht1, rfl⟩, _, ⟨s, hs0, rfl⟩, ?_⟩, ?_⟩
    · rw [hδ, ← hpair]; rfl
    · rintro _ ⟨_, ⟨t', h0', h1', rfl⟩, _, ⟨s', hs', rfl⟩, rfl⟩
      have : (fun i => a i + t' * (b i - a i)) = a + t' • u := rfl
      rw [this, hpair]
      exact Real.sqrt_le_sqrt (by linarith [hall t' s' h0' h1' hs'])
  have hsq1 : ∀ δ : ℝ, L ≤ Real.sqrt (L ^ 2 + δ ^ 2) := fun δ => Real.le_sqrt_of_sq_le (by nlinarith [sq_nonneg δ])
  have hsq2 : ∀ δ : ℝ, 0 ≤ δ → Real.sqrt (L ^ 2 + δ ^ 2) ≤ L + δ := fun δ h =>
    Real.sqrt_le_iff.2 ⟨by linarith, by nlinarith⟩
  have hL00 : Real.sqrt (L ^ 2 + 0 ^ 2) = L := by rw [zero_pow two_ne_zero, add_zero, Real.sqrt_sq hL0]
  -- evaluate the code
  obtain ⟨y, hy⟩ := C74_no_fault (K := ℝ) ⟨a, b⟩ ⟨o, m⟩
  have hy' := hy
  unfold distSegmentRay at hy
  simp only [vsub_eq, ← hu, dot_eq, ← hx, hul, div_one, hline, hlen1, hlen2, ← hc,
    (C19_none hep a u o m).2.1 (by rw [h0]; exact hep), isGreaterEq_eq, isLessEq_eq, isGreater_eq] at hy
  have hEqL : isEq L 0 = true → L ≤ eps := by
    intro h; rw [isEq_eq] at h; simp only [Bool.and_eq_true, Bool.not_eq_true'] at h
    have := of_not_isLess h.2; linarith
  rcases (by have : (c - 1) * (c + 1) = 0 := by linarith
             rcases mul_eq_zero.1 this with h | h
             · exact Or.inl (by linarith)
             · exact Or.inr (by linarith) : c = 1 ∨ c = -1) with hc1 | hc1
  · -- same direction
    have hδ : Spec.IsDistance (Spec.segment a b) (Spec.ray o m) (Real.sqrt (L ^ 2 + (max 0 (x - 1)) ^ 2)) := by
      apply hmin
      · rcases le_total x 1 with h | h
        · rw [max_eq_left (by linarith)]
          rcases le_total 0 x with h' | h'
          · exact ⟨x, 0, h', h, le_refl _, by ring⟩
          · exact ⟨0, -x, le_refl _, zero_le_one, by linarith, by rw [hc1]; ring⟩
        · rw [max_eq_right (by linarith)]
          exact ⟨1, 0, zero_le_one, le_refl _, le_refl _, by ring⟩
      · intro t s _ _ _
        rw [hc1]
        rcases le_total x 1 with h | h
        · rw [max_eq_left (by linarith), zero_pow two_ne_zero]; positivity
        · rw [max_eq_right (by linarith)]; nlinarith
    refine ⟨_, y, hδ, hy', ?_⟩
    have g1 := hsq1 (max 0 (x - 1))
    have g2 := hsq2 (max 0 (x - 1)) (le_max_left _ _)
    have n1 : ¬ c < 0 := by rw [hc1]; norm_num
    have n2 : 0 < c := by rw [hc1]; norm_num
    rcases hA : isLess x 0 with _ | _ <;> rcases hB : isLess 1 x with _ | _ <;> rcases hE : isEq L 0 with _ | _ <;>
      simp only [hA, hB, hE, n1, n2, if_true, if_false, Bool.not_true, Bool.not_false, Bool.and_true, Bool.and_false,
        Bool.false_eq_true, Except.ok.injEq] at hy
    · have := of_not_isLess hB
      have : max 0 (x - 1) ≤ eps := max_le hep.le (by linarith)
      rw [← hy, abs_le]; constructor <;> linarith
    · have := of_not_isLess hB
      have := hEqL hE
      have : max 0 (x - 1) ≤ eps := max_le hep.le (by linarith)
      rw [← hy, abs_le]; constructor <;> linarith
    · have := of_isLess hB
      rw [← hy, max_eq_right (by linarith), show (1 - x) ^ 2 = (x - 1) ^ 2 by ring, sub_self, abs_zero]; linarith
    · have := of_isLess hB
      rw [← hy, max_eq_right (by linarith), show (1 - x) ^ 2 = (x - 1) ^ 2 by ring, sub_self, abs_zero]; linarith
    · have := of_isLess hA
      rw [← hy, max_eq_left (by linarith), hL00, sub_self, abs_zero]; linarith
    · have := of_isLess hA
      have := hEqL hE
      rw [← hy, max_eq_left (by linarith), hL00, zero_sub, abs_neg, abs_of_nonneg hL0]; linarith
    · have := of_isLess hA; have := of_isLess hB; linarith
    · have := of_isLess hA; have := of_isLess hB; linarith
  · -- opposite direction
    have hδ : Spec.IsDistance (Spec.segment a b) (Spec.ray o m) (Real.sqrt (L ^ 2 + (max 0 (-x)) ^ 2)) := by
      apply hmin
      · rcases le_total 0 x with h | h
        · rw [max_eq_left (by linarith)]
          rcases le_total x 1 with h' | h'
          · exact ⟨x, 0, h, h', le_refl _, by ring⟩
          · exact ⟨1, x - 1, zero_le_one, le_refl _, by linarith, by rw [hc1]; ring⟩
        · rw [max_eq_right (by linarith)]
          exact ⟨0, 0, le_refl _, zero_le_one, le_refl _, by ring⟩
      · intro t s _ _ _
        rw [hc1]
        rcases le_total 0 x with h | h
        · rw [max_eq_left (by linarith), zero_pow two_ne_zero]; positivity
        · rw [max_eq_right (by linarith)]; nlinarith
    refine ⟨_, y, hδ, hy', ?_⟩
    have g1 := hsq1 (max 0 (-x))
    have g2 := hsq2 (max 0 (-x)) (le_max_left _ _)
    have n1 : c < 0 := by rw [hc1]; norm_num
    have n2 : ¬ 0 < c := by rw [hc1]; norm_num
    rcases hA : isLess x 0 with _ | _ <;> rcases hB : isLess 1 x with _ | _ <;> rcases hE : isEq L 0 with _ | _ <;>
      simp only [hA, hB, hE, n1, n2, if_true, if_false, Bool.not_true, Bool.not_false, Bool.and_true, Bool.and_false,
        Bool.false_eq_true, Except.ok.injEq] at hy
    · have := of_not_isLess hA
      have : max 0 (-x) ≤ eps := max_le hep.le (by linarith)
      rw [← hy, abs_le]; constructor <;> linarith
    · have := of_not_isLess hA
      have := hEqL hE
      have : max 0 (-x) ≤ eps := max_le hep.le (by linarith)
      rw [← hy, abs_le]; constructor <;> linarith
    · have := of_isLess hB
      rw [← hy, max_eq_left (by linarith), hL00, sub_self, abs_zero]; linarith
    · have := of_isLess hB
      have := hEqL hE
      rw [← hy, max_eq_left (by linarith), hL00, zero_sub, abs_neg, abs_of_nonneg hL0]; linarith
    · have := of_isLess hA
      rw [← hy, max_eq_right (by linarith), neg_sq, sub_self, abs_zero]; linarith
    · have := of_isLess hA
      rw [← hy, max_eq_right (by linarith), neg_sq, sub_self, abs_zero]; linarith
    · have := of_isLess hA; have := of_isLess hB; linarith
    · have := of_isLess hA; have := of_isLess hB; linarith
end

/-! ### Concrete cases -/
section Examples
attribute [local instance] ratTol ratTol_lawful realTol realTol_lawful

theorem ex_eps : (Tol.eps : ℝ) = 1 / 1000 := rfl
theorem ex_x_ne : (![1, 0, 0] : Vec ℝ 3) ≠ 0 := by intro h; have := congrFun h 0; simp at this
theorem ex_y_ne : (![0, 2, 0] : Vec ℝ 3) ≠ 0 := by intro h; have := congrFun h 1; simp at this

/-- The x axis and a line parallel to the y axis one unit above it: closest at parameters 2 and -3. -/
example : closestPointOnLineParameters (T := ℚ) ![0, 0, 0] ![1, 0, 0] ![2, 3, 1] ![0, 1, 0] = some ⟨2, -3⟩ := by
  decide +kernel
/-- C19_none: parallel directions -/
example : closestPointOnLineParameters (T := ℚ) ![0, 0, 0] ![1, 0, 0] ![2, 3, 1] ![-2, 0, 0] = none := by decide +kernel

/-- C20, C22: the hypotheses are plain non-zero conditions. -/
example := C20_point_line (![3, 4, 0] : Vec ℝ 3) 0 ![1, 0, 0] ex_x_ne
example := C22_point_plane 0 ![0, 2, 0] ![3, 4, 5] ex_y_ne

/-- A ray with a non-unit direction that passes the constructor's assertion (used by C21, C25, C27). -/
theorem ex_ray_ok : ∃ r, Ray.make true (![0, 0, 1] : Vec ℝ 3) ![0, 2, 0] = .ok r := by
  refine ⟨_, Ray.make_ok ?_⟩
  rw [length_eq]; simp [dotProduct, Fin.sum_univ_three, ex_eps]; norm_num
example : ∃ r m, Ray.make true (![0, 0, 1] : Vec ℝ 3) ![0, 2, 0] = .ok r ∧
    Spec.IsDistance {![3, 4, 5]} (Spec.ray ![0, 0, 1] ![0, 2, 0]) m ∧ m ≤ distRayVec r ![3, 4, 5] := by
  obtain ⟨r, hr⟩ := ex_ray_ok
  obtain ⟨m, h1, h2, -⟩ := C21_point_ray true ![3, 4, 5] ![0, 0, 1] ![0, 2, 0] ex_y_ne r hr
  exact ⟨r, m, hr, h1, h2⟩
/-- C21 exact: a point well in front of the origin -/
example : (eps : ℝ) * Spec.norm (![0, 2, 0] : Vec ℝ 3) < ∑ i, ((![3, 4, 5] : Vec ℝ 3) i - (![0, 0, 1] : Vec ℝ 3) i) * (![0, 2, 0] : Vec ℝ 3) i := by
  have : Spec.norm (![0, 2, 0] : Vec ℝ 3) = 2 := by rw [spec_norm_eq, length_eq]; simp [dotProduct, Fin.sum_univ_three]
  rw [this]; simp [Fin.sum_univ_three, ex_eps]; norm_num
/-- C24, C25: perpendicular directions and parallel directions -/
example : Spec.AngleAbove (eps ^ 2) (![1, 0, 0] : Vec ℝ 3) ![0, 2, 0] := by
  unfold Spec.AngleAbove Spec.gram; simp [Fin.sum_univ_three, ex_eps]; norm_num
example : Spec.AngleAbove eps (![1, 0, 0] : Vec ℝ 3) ![0, 2, 0] := by
  unfold Spec.AngleAbove Spec.gram; simp [Fin.sum_univ_three, ex_eps]; norm_num
example : Spec.Parallel (![1, 2, 0] : Vec ℝ 3) ![-2, -4, 0] := by
  intro i j; fin_cases i <;> fin_cases j <;> norm_num
/-- C26: a unit segment off the origin -/
example : Spec.dist (![1, 1] : Vec ℝ 2) ![1, 2] = 1 := by
  rw [spec_dist_eq]; simp [dotProduct, Fin.sum_univ_two]; norm_num
/-- C27: a segment and a ray crossing at right angles above each other; the closest points are interior. -/
example : (![0, 0, 0] : Vec ℝ 3) ∈ Spec.segment ![-1, 0, 0] ![1, 0, 0] ∧ (![0, 0, 1] : Vec ℝ 3) ∈ Spec.ray ![0, -1, 1] ![0, 2, 0] ∧
    eps * (∑ i, (![0, 2, 0] : Vec ℝ 3) i ^ 2) < Spec.gram (fun i => (![1, 0, 0] : Vec ℝ 3) i - (![-1, 0, 0] : Vec ℝ 3) i) ![0, 2, 0] := by
  refine ⟨⟨1 / 2, by norm_num, by norm_num, ?_⟩, ⟨1 / 2, by norm_num, ?_⟩, ?_⟩
  · funext i; fin_cases i <;> simp; norm_num
  · funext i; fin_cases i <;> simp [Spec.pointAt]
  · simp [Spec.gram, Fin.sum_univ_three, ex_eps]; norm_num
/-- C27 (nearest points): both closest points of the carrier lines lie before the segment and before the ray. -/
example (r : Ray ℝ 3) (hr : Ray.make true (![0, 1, 1] : Vec ℝ 3) ![0, 2, 0] = .ok r) :
    distSegmentRay ⟨![1, 0, 0], ![2, 0, 0]⟩ r = .ok (Spec.dist (![1, 0, 0] : Vec ℝ 3) ![0, 1, 1]) := by
  refine C27_nearest_partial true _ _ _ _ ex_y_ne r hr ?_ ![0, 0, 0] ![0, 0, 1] _ _ ?_ ?_ ?_ ?_ ?_ ?_ ?_
  · simp [Spec.gram, Fin.sum_univ_three, ex_eps]; norm_num
  · exact ⟨-1, by funext i; fin_cases i <;> simp [Spec.pointAt]; norm_num⟩
  · exact ⟨-1 / 2, by funext i; fin_cases i <;> simp [Spec.pointAt]⟩
  · refine IsDistance_intro ⟨-1, by funext i; fin_cases i <;> simp [Spec.pointAt]; norm_num⟩
      ⟨-1 / 2, by funext i; fin_cases i <;> simp [Spec.pointAt]⟩ ?_
    rintro _ ⟨t, rfl⟩ _ ⟨s, rfl⟩
    simp [dotProduct, Fin.sum_univ_three, Spec.pointAt]; nlinarith [sq_nonneg (1 + t * (2 - 1)), sq_nonneg (1 + s * 2)]
  · exact ⟨0, le_rfl, zero_le_one, by funext i; simp⟩
  · refine IsDistance_intro rfl ⟨0, le_rfl, zero_le_one, by funext i; simp⟩ ?_
    rintro _ rfl _ ⟨t, h0, h1, rfl⟩
    simp [dotProduct, Fin.sum_univ_three]; nlinarith
  · exact ⟨0, le_rfl, by funext i; simp [Spec.pointAt]⟩
  · refine IsDistance_intro rfl ⟨0, le_rfl, by funext i; simp [Spec.pointAt]⟩ ?_
    rintro _ rfl _ ⟨t, h0, rfl⟩
    simp [dotProduct, Fin.sum_univ_three, Spec.pointAt]; nlinarith
/-! The theorems applied. -/
theorem ex_ray : ∃ r, Ray.make true (![0, -1, 1] : Vec ℝ 3) ![0, 2, 0] = .ok r := by
  refine ⟨_, Ray.make_ok ?_⟩
  rw [length_eq]; simp [dotProduct, Fin.sum_univ_three, ex_eps]; norm_num
theorem ex_perp : Spec.AngleAbove (eps ^ 2) (![1, 0, 0] : Vec ℝ 3) ![0, 2, 0] := by
  unfold Spec.AngleAbove Spec.gram; simp [Fin.sum_univ_three, ex_eps]; norm_num
theorem ex_perp' : Spec.AngleAbove eps (![1, 0, 0] : Vec ℝ 3) ![0, 2, 0] := by
  unfold Spec.AngleAbove Spec.gram; simp [Fin.sum_univ_three, ex_eps]; norm_num
theorem ex_closest : Spec.IsDistance (Spec.line (![-1, 0, 0] : Vec ℝ 3) (![1, 0, 0] - ![-1, 0, 0])) (Spec.line ![0, -1, 1] ![0, 2, 0])
    (Spec.dist (![0, 0, 0] : Vec ℝ 3) ![0, 0, 1]) := by
  refine IsDistance_intro ⟨1 / 2, by funext i; fin_cases i <;> simp [Spec.pointAt]; norm_num⟩
    ⟨1 / 2, by funext i; fin_cases i <;> simp [Spec.pointAt]⟩ ?_
  rintro _ ⟨t, rfl⟩ _ ⟨s, rfl⟩
  simp [dotProduct, Fin.sum_univ_three, Spec.pointAt]
  nlinarith [sq_nonneg (-1 + t * (1 + 1)), sq_nonneg (1 - s * 2), sq_nonneg (-1 + s * 2)]
theorem ex_gram : eps * (∑ i, (![0, 2, 0] : Vec ℝ 3) i ^ 2) < Spec.gram (fun i => (![1, 0, 0] : Vec ℝ 3) i - (![-1, 0, 0] : Vec ℝ 3) i) ![0, 2, 0] := by
  simp [Spec.gram, Fin.sum_univ_three, ex_eps]; norm_num

/-- The x axis and a line along y one unit above it are one apart. -/
example (p : CPOLParameters ℝ) (h : closestPointOnLineParameters ![-1, 0, 0] (![1, 0, 0] - ![-1, 0, 0]) ![0, -1, 1] ![0, 2, 0] = some p) :
    Spec.dist (Spec.pointAt ![-1, 0, 0] (![1, 0, 0] - ![-1, 0, 0]) p.t) (Spec.pointAt ![0, -1, 1] ![0, 2, 0] p.s) =
      Spec.dist (![0, 0, 0] : Vec ℝ 3) ![0, 0, 1] :=
  (C19_minimum (by rw [ex_eps]; norm_num) _ _ _ _ p h).1.unique ex_closest
example : closestPointOnLineParameters (![0, 0, 0] : Vec ℝ 3) ![1, 2, 0] ![2, 3, 1] ![-2, -4, 0] = none :=
  (C19_none (by rw [ex_eps]; norm_num) _ _ _ _).2.2 (by intro i j; fin_cases i <;> fin_cases j <;> norm_num)
example (r : Ray ℝ 3) (hr : Ray.make true (![0, 0, 1] : Vec ℝ 3) ![0, 2, 0] = .ok r) :
    Spec.IsDistance {![3, 4, 5]} (Spec.ray ![0, 0, 1] ![0, 2, 0]) (distRayVec r ![3, 4, 5]) := by
  refine C21_point_ray_exact true _ _ _ ex_y_ne r hr (.inr ?_)
  have : Spec.norm (![0, 2, 0] : Vec ℝ 3) = 2 := by rw [spec_norm_eq, length_eq]; simp [dotProduct, Fin.sum_univ_three]
  rw [this]; simp [Fin.sum_univ_three, ex_eps]; norm_num
/-- A point inside the sphere of radius 5 around (1, 2, 3). -/
theorem ex_in_sphere : Spec.dist (![3, 3, 5] : Vec ℝ 3) ![1, 2, 3] = 3 := by
  rw [spec_dist_eq]
  have : ((![3, 3, 5] : Vec ℝ 3) - ![1, 2, 3]) ⬝ᵥ (![3, 3, 5] - ![1, 2, 3]) = 3 ^ 2 := by simp [dotProduct, Fin.sum_univ_three]; norm_num
  rw [this, Real.sqrt_sq (by norm_num)]
example : Spec.IsDistance {![3, 3, 5]} (Spec.sphere (![1, 2, 3] : Vec ℝ 3) 5) (distSphere ![3, 3, 5] ⟨![1, 2, 3], 5⟩) :=
  C23_point_sphere ⟨![1, 2, 3], 5⟩ (by norm_num) _
example : signedDistSphere (![3, 3, 5] : Vec ℝ 3) ⟨![1, 2, 3], 5⟩ < 0 := (C23_signed ⟨![1, 2, 3], 5⟩ _).1.2 (by
  show Spec.dist (![3, 3, 5] : Vec ℝ 3) ![1, 2, 3] < 5; rw [ex_in_sphere]; norm_num)
example : Sphere.contains (⟨![1, 2, 3], 5⟩ : Sphere ℝ) ![3, 3, 5] = true := (C23_contains ⟨![1, 2, 3], 5⟩ _).1 (by
  show Spec.dist (![3, 3, 5] : Vec ℝ 3) ![1, 2, 3] < 5 + 1 / 1000; rw [ex_in_sphere]; norm_num)
example : ∃ x, distLineLine true (Line.make ![0, 0, 0] ![1, 0, 0]) (Line.make ![0, -1, 1] ![0, 2, 0]) = .ok x ∧
    Spec.IsDistance (Spec.line (![0, 0, 0] : Vec ℝ 3) ![1, 0, 0]) (Spec.line ![0, -1, 1] ![0, 2, 0]) |x| :=
  C24_partial true _ _ _ _ ex_x_ne ex_y_ne (.inr ex_perp)
example := C24_counterexample true (by show (1 / 1000 : ℝ) < 1; norm_num)
example : distLineLine true (Line.make (![0, 0, 0] : Vec ℝ 3) ![1, 0, 0]) (Line.make ![0, -1, 1] ![0, 2, 0]) =
    distLineLine true (Line.make ![0, -1, 1] ![0, 2, 0]) (Line.make ![0, 0, 0] ![1, 0, 0]) :=
  C24_symmetric true _ _ _ _ ex_x_ne ex_y_ne (.inr ex_perp)
example : ∃ r, Ray.make true (![0, -1, 1] : Vec ℝ 3) ![0, 2, 0] = .ok r ∧
    Spec.IsDistance (Spec.line ![0, 0, 0] ![1, 0, 0]) (Spec.ray ![0, -1, 1] ![0, 2, 0]) (distLineRay (Line.make ![0, 0, 0] ![1, 0, 0]) r) := by
  obtain ⟨r, hr⟩ := ex_ray
  exact ⟨r, hr, C25_line_ray true _ _ _ _ ex_x_ne ex_y_ne r hr (.inr ex_perp')⟩
theorem ex_seg_ne : (![1, 1] : Vec ℝ 2) ≠ ![1, 2] := by intro h; have := congrFun h 1; simp at this
theorem ex_seg_len : Spec.dist (![1, 1] : Vec ℝ 2) ![1, 2] = 1 := by
  rw [spec_dist_eq]; simp [dotProduct, Fin.sum_univ_two]; norm_num
example : Spec.IsDistance {![5, 3 / 2]} (Spec.segment (![1, 1] : Vec ℝ 2) ![1, 2]) (distSegmentVec ⟨![1, 1], ![1, 2]⟩ ![5, 3 / 2]) :=
  C26_partial _ _ _ ex_seg_ne (.inl ex_seg_len)
example : ∃ m, Spec.IsDistance {![5, 3 / 2]} (Spec.segment (![1, 1] : Vec ℝ 2) ![1, 2]) m ∧ m ≤ distSegmentVec ⟨![1, 1], ![1, 2]⟩ ![5, 3 / 2] :=
  C26_upper_partial _ _ _ ex_seg_ne
/-- The segment from 0 to 2 and the point (1/4, 1): wrong. -/
example : ¬ Spec.IsDistance {![1 / 4, 1]} (Spec.segment (![0, 0] : Vec ℝ 2) ![2, 0]) (distSegmentVec ⟨![0, 0], ![2, 0]⟩ ![1 / 4, 1]) := by
  have hl : Spec.dist (![0, 0] : Vec ℝ 2) ![2, 0] = 2 := by rw [spec_dist_eq]; simp [dotProduct, Fin.sum_univ_two]
  rw [C26_exact _ _ _ (by intro h; have := congrFun h 0; simp at this), hl]
  simp [Fin.sum_univ_two]; norm_num
example (r : Ray ℝ 3) (hr : Ray.make true (![0, -1, 1] : Vec ℝ 3) ![0, 2, 0] = .ok r) :
    distSegmentRay ⟨![-1, 0, 0], ![1, 0, 0]⟩ r = .ok (Spec.dist (![0, 0, 0] : Vec ℝ 3) ![0, 0, 1]) := by
  refine (C27_partial true _ _ _ _ ex_y_ne r hr ex_gram _ _ ⟨1 / 2, by norm_num, by norm_num, ?_⟩ ⟨1 / 2, by norm_num, ?_⟩ ex_closest).1
  · funext i; fin_cases i <;> simp; norm_num
  · funext i; fin_cases i <;> simp [Spec.pointAt]
example (r : Ray ℝ 3) (hr : Ray.make true (![0, -1, 1] : Vec ℝ 3) ![0, 2, 0] = .ok r) :
    ∃ p ∈ Spec.segment ![-1, 0, 0] ![1, 0, 0], ∃ q ∈ Spec.ray ![0, -1, 1] ![0, 2, 0], distSegmentRay ⟨![-1, 0, 0], ![1, 0, 0]⟩ r = .ok (Spec.dist p q) :=
  C27_attained_partial true _ _ _ _ ex_y_ne r hr ex_gram
/-- A unit segment parallel to the ray. -/
example (r : Ray ℝ 3) (hr : Ray.make true (![0, -1, 1] : Vec ℝ 3) ![0, 2, 0] = .ok r) :
    ∃ m x, Spec.IsDistance (Spec.segment ![3, 5, 0] ![3, 4, 0]) (Spec.ray ![0, -1, 1] ![0, 2, 0]) m ∧
      distSegmentRay ⟨![3, 5, 0], ![3, 4, 0]⟩ r = .ok x ∧ |x - m| ≤ 2 * eps :=
  C27_parallel_partial true _ _ _ _ (by rw [spec_dist_eq]; simp [dotProduct, Fin.sum_univ_three]; norm_num) ex_y_ne r hr
    (by intro i j; fin_cases i <;> fin_cases j <;> norm_num)
example := C27_counterexample true (by show (1 / 1000 : ℝ) < 1 / 2; norm_num)
example := C73_near_parallel_counterexample true (by show (1 / 1000 : ℝ) < 1; norm_num) 100 (by norm_num)
example (r : Ray ℝ 3) : ∃ x, distSegmentRay ⟨![3, 5, 0], ![3, 4, 0]⟩ r = .ok x := C74_no_fault _ _
end Examples
end Verif
