import Verif.Props.Distance

/-
For which segments and rays the refuted claim C27 holds.
-/
namespace Verif
open Matrix
set_option linter.unusedSectionVars false

variable {D : ℕ}

/-- The nearest point `p'` of a convex set to `q`: all points of the set lie on the far side of the plane through `p'` across `p' - q`. -/
theorem nearest_angle {S : Set (Vec ℝ D)} {p' q : Vec ℝ D} (hconv : ∀ p ∈ S, ∀ t : ℝ, 0 ≤ t → t ≤ 1 → p' + t • (p - p') ∈ S)
    (h : ∀ p ∈ S, Spec.dist q p' ≤ Spec.dist q p) (p : Vec ℝ D) (hp : p ∈ S) : 0 ≤ (p' - q) ⬝ᵥ (p - p') := by
  by_contra hc
  push Not at hc
  set w := p' - q with hw
  set v := p - p' with hv
  have hB : 0 < v ⬝ᵥ v := by
    rcases (dp_self_nonneg v).lt_or_eq with h | h
    · exact h
    · have : v = 0 := dp_self_eq_zero.1 h.symm
      rw [this] at hc; simp at hc
  set t := min 1 (-(w ⬝ᵥ v) / (v ⬝ᵥ v)) with ht
  have ht0 : 0 < t := lt_min one_pos (div_pos (by linarith) hB)
  have htB : t * (v ⬝ᵥ v) ≤ -(w ⬝ᵥ v) := by
    have : t ≤ -(w ⬝ᵥ v) / (v ⬝ᵥ v) := min_le_right _ _
    rwa [le_div_iff₀ hB] at this
  have h1 := h _ (hconv p hp t ht0.le (min_le_left _ _))
  rw [spec_dist_eq, spec_dist_eq] at h1
  have h2 := (Real.sqrt_le_sqrt_iff (dp_self_nonneg _)).1 h1
  have e1 : q - p' = -w := by rw [hw]; module
  have e2 : q - (p' + t • v) = -(w + t • v) := by rw [hw]; module
  rw [e1, e2] at h2
  simp only [neg_dotProduct, dotProduct_neg, neg_neg, add_dotProduct, dotProduct_add, smul_dotProduct, dotProduct_smul, smul_eq_mul] at h2
  rw [dotProduct_comm v w] at h2
  nlinarith

/-- Points of two convex sets, each of which is nearest to the other, are closest points of the sets. -/
theorem mutual_nearest {S R : Set (Vec ℝ D)} {p' q' : Vec ℝ D} (hS : ∀ p ∈ S, ∀ t : ℝ, 0 ≤ t → t ≤ 1 → p' + t • (p - p') ∈ S)
    (hR : ∀ q ∈ R, ∀ t : ℝ, 0 ≤ t → t ≤ 1 → q' + t • (q - q') ∈ R)
    (hp : ∀ p ∈ S, Spec.dist q' p' ≤ Spec.dist q' p) (hq : ∀ q ∈ R, Spec.dist p' q' ≤ Spec.dist p' q) {p q : Vec ℝ D} (hpS : p ∈ S) (hqR : q ∈ R) :
    Spec.dist p' q' ≤ Spec.dist p q := by
  have h1 := nearest_angle hS hp p hpS
  have h2 := nearest_angle hR hq q hqR
  rw [spec_dist_eq, spec_dist_eq]
  apply Real.sqrt_le_sqrt
  set w := p' - q' with hw
  have e1 : q' - p' = -w := by rw [hw]; module
  rw [e1, neg_dotProduct] at h2
  have e2 : p - q = w + ((p - p') - (q - q')) := by rw [hw]; module
  have h3 : 0 ≤ w ⬝ᵥ ((p - p') - (q - q')) := by rw [dotProduct_sub]; linarith
  rw [e2]
  set z := (p - p') - (q - q')
  simp only [add_dotProduct, dotProduct_add]
  rw [dotProduct_comm z w]
  have := dp_self_nonneg z
  linarith

theorem segment_convex {a b p' : Vec ℝ D} (hp' : p' ∈ Spec.segment a b) : ∀ p ∈ Spec.segment a b, ∀ t : ℝ, 0 ≤ t → t ≤ 1 → p' + t • (p - p') ∈ Spec.segment a b := by
  obtain ⟨s, hs0, hs1, rfl⟩ := hp'
  rintro _ ⟨r, hr0, hr1, rfl⟩ t ht0 ht1
  refine ⟨s + t * (r - s), by nlinarith, by nlinarith, ?_⟩
  funext i
  simp only [Pi.add_apply, Pi.smul_apply, Pi.sub_apply, smul_eq_mul]; ring

theorem ray_convex {o e p' : Vec ℝ D} (hp' : p' ∈ Spec.ray o e) : ∀ p ∈ Spec.ray o e, ∀ t : ℝ, 0 ≤ t → t ≤ 1 → p' + t • (p - p') ∈ Spec.ray o e := by
  obtain ⟨s, hs0, rfl⟩ := hp'
  rintro _ ⟨r, hr0, rfl⟩ t ht0 ht1
  refine ⟨s + t * (r - s), by nlinarith, ?_⟩
  funext i
  simp only [Spec.pointAt, Pi.add_apply, Pi.smul_apply, Pi.sub_apply, smul_eq_mul]; ring

section
variable [Tol ℝ] [LawfulTol ℝ]

/-- **C27** For which segments and rays that are clearly not parallel the result is the smallest distance: let `p`, `q` be the closest points of the
carrier lines, `p'` the point of the segment nearest to `p` and `q'` the point of the ray nearest to `q`.  The result is right
if and only if `p'` is also the point of the segment nearest to `q'`, and `q'` the point of the ray nearest to `p'`. -/
theorem C27_exact (dbg : Bool) (a b o e : Vec ℝ D) (he : e ≠ 0) (r : Ray ℝ D) (hr : Ray.make dbg o e = .ok r)
    (hang : eps * (∑ i, e i ^ 2) < Spec.gram (fun i => b i - a i) e)
    (p q p' q' : Vec ℝ D) (hp : p ∈ Spec.line a (b - a)) (hq : q ∈ Spec.line o e)
    (hpq : Spec.IsDistance (Spec.line a (b - a)) (Spec.line o e) (Spec.dist p q))
    (hp' : p' ∈ Spec.segment a b) (hpn : Spec.IsDistance {p} (Spec.segment a b) (Spec.dist p p'))
    (hq' : q' ∈ Spec.ray o e) (hqn : Spec.IsDistance {q} (Spec.ray o e) (Spec.dist q q')) :
    (∃ m, distSegmentRay ⟨a, b⟩ r = .ok m ∧ Spec.IsDistance (Spec.segment a b) (Spec.ray o e) m) ↔
      Spec.IsDistance {q'} (Spec.segment a b) (Spec.dist q' p') ∧ Spec.IsDistance {p'} (Spec.ray o e) (Spec.dist p' q') := by
  rw [C27_nearest_partial dbg a b o e he r hr hang p q p' q' hp hq hpq hp' hpn hq' hqn]
  have hcomm : Spec.dist q' p' = Spec.dist p' q' := by
    unfold Spec.dist; congr 1; exact Finset.sum_congr rfl fun i _ => by ring
  constructor
  · rintro ⟨m, hm, h⟩
    cases hm
    refine ⟨⟨⟨_, rfl, _, hp', rfl⟩, ?_⟩, ⟨⟨_, rfl, _, hq', rfl⟩, ?_⟩⟩
    · rintro x ⟨_, rfl, y, hy, rfl⟩
      rw [hcomm]
      refine (h.2 ⟨y, hy, _, hq', rfl⟩).trans (le_of_eq ?_)
      unfold Spec.dist; congr 1; exact Finset.sum_congr rfl fun i _ => by ring
    · rintro x ⟨_, rfl, y, hy, rfl⟩
      exact h.2 ⟨_, hp', y, hy, rfl⟩
  · rintro ⟨h1, h2⟩
    refine ⟨_, rfl, ⟨p', hp', q', hq', rfl⟩, ?_⟩
    rintro x ⟨y, hy, z, hz, rfl⟩
    exact mutual_nearest (segment_convex hp') (ray_convex hq') (fun y hy => h1.2 ⟨_, rfl, y, hy, rfl⟩) (fun z hz => h2.2 ⟨_, rfl, z, hz, rfl⟩) hy hz
end

/-! ### Concrete cases -/
section Examples
attribute [local instance] realTol realTol_lawful

/-- A segment that lies before the start of the ray: the nearest points are its source and the origin of the ray, and these are nearest to each other. -/
example (r : Ray ℝ 3) (hr : Ray.make true (![0, 1, 1] : Vec ℝ 3) ![0, 2, 0] = .ok r) :
    ∃ m, distSegmentRay ⟨![1, 0, 0], ![2, 0, 0]⟩ r = .ok m ∧ Spec.IsDistance (Spec.segment ![1, 0, 0] ![2, 0, 0]) (Spec.ray ![0, 1, 1] ![0, 2, 0]) m := by
  have hp' : (![1, 0, 0] : Vec ℝ 3) ∈ Spec.segment ![1, 0, 0] ![2, 0, 0] := ⟨0, le_rfl, zero_le_one, by funext i; simp⟩
  have hq' : (![0, 1, 1] : Vec ℝ 3) ∈ Spec.ray ![0, 1, 1] ![0, 2, 0] := ⟨0, le_rfl, by funext i; simp [Spec.pointAt]⟩
  refine (C27_exact true _ _ _ _ ex_y_ne r hr ?_ ![0, 0, 0] ![0, 0, 1] ![1, 0, 0] ![0, 1, 1] ?_ ?_ ?_ hp' ?_ hq' ?_).2 ⟨?_, ?_⟩
  · simp [Spec.gram, Fin.sum_univ_three, ex_eps]; norm_num
  · exact ⟨-1, by funext i; fin_cases i <;> simp [Spec.pointAt]; norm_num⟩
  · exact ⟨-1 / 2, by funext i; fin_cases i <;> simp [Spec.pointAt]⟩
  · refine IsDistance_intro ⟨-1, by funext i; fin_cases i <;> simp [Spec.pointAt]; norm_num⟩
      ⟨-1 / 2, by funext i; fin_cases i <;> simp [Spec.pointAt]⟩ ?_
    rintro _ ⟨t, rfl⟩ _ ⟨s, rfl⟩
    simp [dotProduct, Fin.sum_univ_three, Spec.pointAt]; nlinarith [sq_nonneg (1 + t * (2 - 1)), sq_nonneg (1 + s * 2)]
  · refine IsDistance_intro rfl hp' ?_
    rintro _ rfl _ ⟨t, h0, h1, rfl⟩
    simp [dotProduct, Fin.sum_univ_three]; nlinarith
  · refine IsDistance_intro rfl hq' ?_
    rintro _ rfl _ ⟨t, h0, rfl⟩
    simp [dotProduct, Fin.sum_univ_three, Spec.pointAt]; nlinarith
  · refine IsDistance_intro rfl hp' ?_
    rintro _ rfl _ ⟨t, h0, h1, rfl⟩
    simp [dotProduct, Fin.sum_univ_three]; nlinarith
  · refine IsDistance_intro rfl hq' ?_
    rintro _ rfl _ ⟨t, h0, rfl⟩
    simp [dotProduct, Fin.sum_univ_three, Spec.pointAt]; nlinarith

end Examples
end Verif
