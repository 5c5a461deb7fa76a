import Verif.Model.Intersect
import Verif.Props.Distance

/-
Properties C28–C35: intersections of lines, segments, rays and planes.
-/
namespace Verif
open Matrix
set_option linter.unusedSectionVars false

/-! ### C28: 2D lines -/
section
variable {K : Type*} [Field K]

theorem solve2 (n m w : Vec K 2) (hdet : n 0 * m 1 - m 0 * n 1 ≠ 0) (t s : K) :
    (∀ i, t * n i - s * m i = w i) ↔
      t = (w 0 * m 1 - w 1 * m 0) / (n 0 * m 1 - m 0 * n 1) ∧ s = (w 0 * n 1 - w 1 * n 0) / (n 0 * m 1 - m 0 * n 1) := by
  constructor
  · intro h
    have h0 := h 0; have h1 := h 1
    rw [eq_div_iff hdet, eq_div_iff hdet, ← h0, ← h1]
    constructor <;> ring
  · rintro ⟨rfl, rfl⟩ i
    fin_cases i
    · show _ * n 0 - _ * m 0 = w 0
      rw [div_mul_eq_mul_div, div_mul_eq_mul_div, ← sub_div, div_eq_iff hdet]; ring
    · show _ * n 1 - _ * m 1 = w 1
      rw [div_mul_eq_mul_div, div_mul_eq_mul_div, ← sub_div, div_eq_iff hdet]; ring
end

theorem gram_two {K : Type*} [Field K] [LinearOrder K] [IsStrictOrderedRing K] (n m : Vec K 2) :
    Spec.gram n m = (n 0 * m 1 - m 0 * n 1) ^ 2 := by
  simp [Spec.gram, Fin.sum_univ_two]; ring

section
variable [Tol ℝ] [LawfulTol ℝ]

theorem pointAt_eq_iff {D : ℕ} (o d o' d' : Vec ℝ D) (t s : ℝ) :
    Spec.pointAt o d t = Spec.pointAt o' d' s ↔ ∀ i, t * d i - s * d' i = (vsub o' o) i := by
  rw [funext_iff]
  refine forall_congr' fun i => ?_
  simp only [Spec.pointAt, vsub]
  constructor <;> intro h <;> linarith

/-- C28 soundness: a returned point is the one and only common point of the two lines. -/
theorem C28_sound {ε : ℝ} (hε : 0 < ε) (lo d ro e p : Vec ℝ 2) (hd : d ≠ 0) (he : e ≠ 0)
    (h : intersectLine2 (Line.make lo d) (Line.make ro e) ε = some p) :
    p ∈ Spec.line lo d ∧ p ∈ Spec.line ro e ∧ ∀ q, q ∈ Spec.line lo d → q ∈ Spec.line ro e → q = p := by
  rw [← line_normalize lo hd, ← line_normalize ro he]
  unfold intersectLine2 Line.make at h
  simp only [stdAbs_eq] at h
  set n := normalize d
  set m := normalize e
  split at h
  · cases h
  rename_i hz
  have hdet : n 0 * m 1 - m 0 * n 1 ≠ 0 := by
    have := TolE.ne_zero hε (by simpa using hz); simpa using this
  cases h
  rw [vadd_eq, vscale_eq, ← pointAt_eq]
  refine ⟨⟨_, rfl⟩, ⟨_, (pointAt_eq_iff _ _ _ _ _ _).2 ((solve2 n m (vsub ro lo) hdet _ _).2 ⟨rfl, rfl⟩)⟩, ?_⟩
  rintro q ⟨t, rfl⟩ ⟨s, hs⟩
  rw [((solve2 n m (vsub ro lo) hdet t s).1 ((pointAt_eq_iff _ _ _ _ _ _).1 hs)).1]

/-- C28 completeness: a point is returned exactly when the sine of the angle of the lines exceeds the tolerance
(undecided only at equality); parallel lines give nothing. -/
theorem C28_complete {ε : ℝ} (hε : 0 < ε) (lo d ro e : Vec ℝ 2) (hd : d ≠ 0) (he : e ≠ 0) :
    (Spec.AngleAbove (ε ^ 2) d e → ∃ p, intersectLine2 (Line.make lo d) (Line.make ro e) ε = some p) ∧
    (¬ Spec.AngleAbove (ε ^ 2) d e → Spec.gram d e ≠ ε ^ 2 * ((∑ i, d i ^ 2) * ∑ i, e i ^ 2) →
      intersectLine2 (Line.make lo d) (Line.make ro e) ε = none) ∧
    (Spec.Parallel d e → intersectLine2 (Line.make lo d) (Line.make ro e) ε = none) := by
  have key : ∀ n m : Vec ℝ 2, Spec.gram n m = |n 0 * m 1 - m 0 * n 1| ^ 2 := fun n m => by rw [gram_two, sq_abs]
  have hpos : 0 < (d ⬝ᵥ d) * (e ⬝ᵥ e) := mul_pos (dp_self_pos hd) (dp_self_pos he)
  have e1 : (∑ i, d i ^ 2) * (∑ i, e i ^ 2) = (d ⬝ᵥ d) * (e ⬝ᵥ e) := by simp [dotProduct, sq]
  have hgn := gram_normalize hd he
  have hpar := fun h : Spec.Parallel d e => gram_eq_zero_of_parallel (parallel_normalize h)
  have hang := angle_iff hd he (ε ^ 2)
  unfold intersectLine2 Line.make
  simp only [stdAbs_eq]
  set n := normalize d
  set m := normalize e
  have hnone : Spec.gram n m < ε ^ 2 → Tol.isZero |n 0 * m 1 - m 0 * n 1| ε = true := by
    intro h; rw [key] at h
    have := lt_of_pow_lt_pow_left₀ 2 hε.le h
    exact TolE.zero_true hε (by rwa [abs_abs])
  refine ⟨?_, ?_, ?_⟩
  · intro h
    have h := hang.1 h
    rw [key] at h
    have := lt_of_pow_lt_pow_left₀ 2 (abs_nonneg _) h
    rw [if_neg (by rw [TolE.zero_false hε (by rwa [abs_abs])]; simp)]
    exact ⟨_, rfl⟩
  · intro h h2
    have h3 : Spec.gram n m ≤ ε ^ 2 := not_lt.1 (fun hc => h (hang.2 hc))
    rw [if_pos (hnone (lt_of_le_of_ne h3 _))]
    intro hc; apply h2; rw [e1, ← hgn, hc]
  · intro h
    rw [if_pos (hnone (by rw [hpar h]; positivity))]

/-! ### C29: 3D lines -/

theorem line_dist {D : ℕ} (lo n ro m : Vec ℝ D) (t s : ℝ) :
    Spec.pointAt lo n t - Spec.pointAt ro m s = (lo - ro) + t • n - s • m := by
  rw [pointAt_eq, pointAt_eq]; abel

/-- C29 soundness: a returned point lies on the first line, and the second line passes it within the tolerance. -/
theorem C29_sound {ε : ℝ} (hε : 0 < ε) (lo d ro e p : Vec ℝ 3) (hd : d ≠ 0) (he : e ≠ 0)
    (h : intersectLine3 (Line.make lo d) (Line.make ro e) ε = some p) :
    p ∈ Spec.line lo d ∧ ∃ q ∈ Spec.line ro e, Spec.dist p q ≤ ε ∧
      Spec.IsDistance (Spec.line lo d) (Spec.line ro e) (Spec.dist p q) := by
  have hep := eps_pos (K := ℝ)
  rw [← line_normalize lo hd, ← line_normalize ro he]
  unfold intersectLine3 Line.make at h
  simp only at h
  split at h
  · cases h
  rename_i params hp
  simp only [length_vsub, vadd_eq, vscale_eq, ← pointAt_eq] at h
  split at h
  · rename_i hz
    cases h
    have := TolE.of_zero hε hz
    rw [abs_of_nonneg (dist_nonneg' _ _)] at this
    exact ⟨⟨_, rfl⟩, _, ⟨_, rfl⟩, this, (C19_minimum hep _ _ _ _ _ hp).1⟩
  · cases h

/-- C29 completeness: lines that meet in `q` at an angle with `sin² > eps` give exactly `q`; and if nothing is returned
the lines are (nearly) parallel or at least `ε` apart. -/
theorem C29_complete {ε : ℝ} (hε : 0 < ε) (lo d ro e q : Vec ℝ 3) (hd : d ≠ 0) (he : e ≠ 0)
    (hang : Spec.AngleAbove eps d e) (h1 : q ∈ Spec.line lo d) (h2 : q ∈ Spec.line ro e) :
    intersectLine3 (Line.make lo d) (Line.make ro e) ε = some q := by
  have hep := eps_pos (K := ℝ)
  rw [← line_normalize lo hd] at h1
  rw [← line_normalize ro he] at h2
  have hang := (angle_iff hd he _).1 hang
  unfold intersectLine3 Line.make
  simp only
  set n := normalize d
  set m := normalize e
  obtain ⟨t, rfl⟩ := h1
  obtain ⟨s, hs⟩ := h2
  rcases closest_cases hep lo n ro m with ⟨-, h2⟩ | ⟨p, h1, -, hg, ho1, ho2⟩
  · have hz := TolE.of_zero hep h2
    rw [abs_of_nonneg (gram_nonneg _ _)] at hz
    exact absurd hz (not_le.2 hang)
  have hmin := C19_minimum hep lo n ro m p h1
  have h0 : Spec.dist (Spec.pointAt lo n t) (Spec.pointAt ro m s) = 0 := by rw [hs, spec_dist_eq]; simp
  have hp0 : Spec.dist (Spec.pointAt lo n p.t) (Spec.pointAt ro m p.s) = 0 :=
    le_antisymm (by rw [← h0]; exact hmin.1.2 ⟨_, ⟨t, rfl⟩, _, ⟨s, rfl⟩, rfl⟩) (dist_nonneg' _ _)
  obtain ⟨rfl, rfl⟩ := hmin.2 t s (by rw [h0, hp0])
  rw [h1]
  simp only [length_vsub, vadd_eq, vscale_eq, ← pointAt_eq, hp0]
  rw [if_pos (TolE.zero_true hε (by simpa using hε))]

/-- C29: when nothing is returned, the lines are nearly parallel or their distance is at least the tolerance. -/
theorem C29_none {ε : ℝ} (hε : 0 < ε) (lo d ro e : Vec ℝ 3) (hd : d ≠ 0) (he : e ≠ 0)
    (h : intersectLine3 (Line.make lo d) (Line.make ro e) ε = none) :
    ¬ Spec.AngleAbove eps d e ∨ ∃ m, Spec.IsDistance (Spec.line lo d) (Spec.line ro e) m ∧ ε ≤ m := by
  have hep := eps_pos (K := ℝ)
  rw [← line_normalize lo hd, ← line_normalize ro he, angle_iff hd he]
  unfold intersectLine3 Line.make at h
  simp only at h
  split at h
  · rename_i hp
    left
    exact not_lt.2 ((C19_none hep _ _ _ _).1 hp)
  · rename_i params hp
    simp only [length_vsub, vadd_eq, vscale_eq, ← pointAt_eq] at h
    split at h
    · cases h
    · rename_i hz
      right
      refine ⟨_, (C19_minimum hep _ _ _ _ _ hp).1, ?_⟩
      have := TolE.of_not_zero hε (by simpa using hz)
      rwa [abs_of_nonneg (dist_nonneg' _ _)] at this
end

/-! ### C30: 2D segments -/
section
variable {K : Type*} [Field K] [LinearOrder K] [IsStrictOrderedRing K] [Tol K] [LawfulTol K]

theorem seg_eq_iff {D : ℕ} (a b c d : Vec K D) (t s : K) :
    (fun i => a i + t * (b i - a i)) = (fun i => c i + s * (d i - c i)) ↔
      ∀ i, t * (vsub b a) i - s * (vsub d c) i = (vsub c a) i := by
  rw [funext_iff]
  refine forall_congr' fun i => ?_
  simp only [vsub]
  constructor <;> intro h <;> linarith

/-- the determinant of the two directions -/
def det2 (a b c d : Vec K 2) : K := (b 0 - a 0) * (d 1 - c 1) - (d 0 - c 0) * (b 1 - a 1)

/-- evaluation of the function when the determinant is not (nearly) zero -/
theorem intersectSegment2_eval (dbg : Bool) {ε : K} (hε : 0 < ε) (a b c d : Vec K 2) (hz : Tol.isZero (det2 a b c d) ε = false) :
    ∃ t s : K, (fun i => a i + t * (b i - a i)) = (fun i => c i + s * (d i - c i)) ∧
      (∀ t' s' : K, (fun i => a i + t' * (b i - a i)) = (fun i => c i + s' * (d i - c i)) → t' = t ∧ s' = s) ∧
      intersectSegment2 dbg ⟨a, b⟩ ⟨c, d⟩ ε =
        if Tol.isLess s 0 ε || Tol.isLess 1 s ε || Tol.isLess t 0 ε || Tol.isLess 1 t ε then .ok none
        else .ok (some (fun i => a i + t * (b i - a i))) := by
  have hdet := TolE.ne_zero hε hz
  have hdet' : (vsub b a) 0 * (vsub d c) 1 - (vsub d c) 0 * (vsub b a) 1 ≠ 0 := hdet
  refine ⟨_, _, (seg_eq_iff a b c d _ _).2 ((solve2 _ _ _ hdet' _ _).2 ⟨rfl, rfl⟩),
    fun t' s' h => (solve2 _ _ _ hdet' _ _).1 ((seg_eq_iff a b c d _ _).1 h), ?_⟩
  have hs : (vsub b a 0 * -vsub c a 1 - vsub b a 1 * -vsub c a 0) / (vsub b a 0 * vsub d c 1 - vsub d c 0 * vsub b a 1) =
      (vsub c a 0 * vsub b a 1 - vsub c a 1 * vsub b a 0) / (vsub b a 0 * vsub d c 1 - vsub d c 0 * vsub b a 1) := by
    congr 1; ring
  have heq := (seg_eq_iff a b c d _ _).2 ((solve2 _ _ _ hdet' _ _).2 ⟨rfl, rfl⟩)
  unfold intersectSegment2
  simp only [TolE.greater_eq hε, hs]
  rw [if_neg (by rw [show (vsub b a) 0 * (vsub d c) 1 - (vsub d c) 0 * (vsub b a) 1 = det2 a b c d from rfl, hz]; simp)]
  split
  · rfl
  · have hp : ∀ (x y : Vec K 2) (r : K), vadd x (vscale y r) = fun i => x i + r * y i := by
      intro x y r; funext i; simp [vadd, vscale, mul_comm]
    simp only [hp]
    rw [geoAssert_bind, if_neg]
    · rfl
    · have : ∀ x : Bool, x = true → ¬ (dbg && !x) = true := by rintro x rfl; simp
      apply this
      rw [Bool.and_eq_true, decide_eq_true_eq, decide_eq_true_eq]
      exact ⟨congrFun heq 0, congrFun heq 1⟩

/-- C30 soundness, any build, any tolerance: the call never fails an assertion, and a returned point is the unique common
point of the carrier lines and lies on both segments (up to the parameter tolerance). -/
theorem C30_sound (dbg : Bool) {ε : K} (hε : 0 < ε) (a b c d : Vec K 2) :
    ∃ r, intersectSegment2 dbg ⟨a, b⟩ ⟨c, d⟩ ε = .ok r ∧
      ∀ p, r = some p → p ∈ Spec.segmentUpTo ε a b ∧ p ∈ Spec.segmentUpTo ε c d := by
  rcases hz : Tol.isZero (det2 a b c d) ε with _ | _
  · obtain ⟨t, s, heq, -, h⟩ := intersectSegment2_eval dbg hε a b c d hz
    rw [h]
    split
    · exact ⟨none, rfl, by simp⟩
    · rename_i hc
      simp only [Bool.or_eq_true, not_or, Bool.not_eq_true] at hc
      obtain ⟨⟨⟨h1, h2⟩, h3⟩, h4⟩ := hc
      have h1 := TolE.of_not_less hε h1; have h2 := TolE.of_not_less hε h2
      have h3 := TolE.of_not_less hε h3; have h4 := TolE.of_not_less hε h4
      refine ⟨_, rfl, ?_⟩
      rintro p hp; cases hp
      exact ⟨⟨t, by linarith, h4, rfl⟩, ⟨s, by linarith, h2, heq⟩⟩
  · refine ⟨none, ?_, by simp⟩
    unfold intersectSegment2
    simp only
    rw [if_pos]; exact hz

/-- C30 completeness: segments with `|det| > ε` that share a point return exactly that point. -/
theorem C30_complete (dbg : Bool) {ε : K} (hε : 0 < ε) (a b c d q : Vec K 2)
    (hdet : ε < |(b 0 - a 0) * (d 1 - c 1) - (d 0 - c 0) * (b 1 - a 1)|)
    (h1 : q ∈ Spec.segment a b) (h2 : q ∈ Spec.segment c d) :
    intersectSegment2 dbg ⟨a, b⟩ ⟨c, d⟩ ε = .ok (some q) := by
  obtain ⟨t, s, -, huniq, h⟩ := intersectSegment2_eval dbg hε a b c d (TolE.zero_false hε hdet)
  obtain ⟨t', ht0, ht1, rfl⟩ := h1
  obtain ⟨s', hs0, hs1, heq⟩ := h2
  obtain ⟨rfl, rfl⟩ := huniq t' s' heq
  rw [h, TolE.less_false hε (by linarith), TolE.less_false hε (by linarith), TolE.less_false hε (by linarith),
    TolE.less_false hε (by linarith)]
  rfl

/-- C30: (nearly) parallel segments return nothing. -/
theorem C30_parallel (dbg : Bool) {ε : K} (hε : 0 < ε) (a b c d : Vec K 2)
    (hdet : |(b 0 - a 0) * (d 1 - c 1) - (d 0 - c 0) * (b 1 - a 1)| < ε) :
    intersectSegment2 dbg ⟨a, b⟩ ⟨c, d⟩ ε = .ok none := by
  unfold intersectSegment2
  simp only
  rw [if_pos]; exact TolE.zero_true hε hdet

/-- C30: if nothing is returned although the segments are not nearly parallel, they share no point. -/
theorem C30_none (dbg : Bool) {ε : K} (hε : 0 < ε) (a b c d : Vec K 2)
    (hdet : ε < |(b 0 - a 0) * (d 1 - c 1) - (d 0 - c 0) * (b 1 - a 1)|)
    (h : intersectSegment2 dbg ⟨a, b⟩ ⟨c, d⟩ ε = .ok none) (q : Vec K 2) :
    ¬ (q ∈ Spec.segment a b ∧ q ∈ Spec.segment c d) := by
  rintro ⟨h1, h2⟩
  rw [C30_complete dbg hε a b c d q hdet h1 h2] at h; cases h
end

/-! ### C31, C32: 3D segments and rays -/
section
variable [Tol ℝ] [LawfulTol ℝ]

theorem seg_pointAt {D : ℕ} (a b : Vec ℝ D) (t : ℝ) : (fun i => a i + t * (b i - a i)) = Spec.pointAt a (b - a) t := rfl

/-- C31 completeness: 3D segments that share a point (and are not nearly parallel) return exactly that point. -/
theorem C31_complete_partial {ε : ℝ} (hε : 0 < ε) (a b c d q : Vec ℝ 3)
    (hang : ε < Spec.gram (fun i => b i - a i) (fun i => d i - c i))
    (h1 : q ∈ Spec.segment a b) (h2 : q ∈ Spec.segment c d) :
    intersectSegment3 ⟨a, b⟩ ⟨c, d⟩ ε = some q := by
  obtain ⟨t, ht0, ht1, rfl⟩ := h1
  obtain ⟨s, hs0, hs1, heq⟩ := h2
  rw [seg_pointAt, seg_pointAt] at heq
  unfold intersectSegment3
  simp only [vsub_eq]
  rcases closest_cases hε a (b - a) c (d - c) with ⟨-, h2⟩ | ⟨p, h1, -, hg, ho1, ho2⟩
  · have hz := TolE.of_zero hε h2
    rw [abs_of_nonneg (gram_nonneg _ _)] at hz
    exact absurd hz (not_le.2 hang)
  have hmin := C19_minimum hε _ _ _ _ p h1
  have h0 : Spec.dist (Spec.pointAt a (b - a) t) (Spec.pointAt c (d - c) s) = 0 := by rw [heq, spec_dist_eq]; simp
  have hp0 : Spec.dist (Spec.pointAt a (b - a) p.t) (Spec.pointAt c (d - c) p.s) = 0 :=
    le_antisymm (by rw [← h0]; exact hmin.1.2 ⟨_, ⟨t, rfl⟩, _, ⟨s, rfl⟩, rfl⟩) (dist_nonneg' _ _)
  obtain ⟨rfl, rfl⟩ := hmin.2 t s (by rw [h0, hp0])
  rw [h1]
  simp only [TolE.greater_eq hε]
  rw [TolE.less_false hε (by linarith), TolE.less_false hε (by linarith), TolE.less_false hε (by linarith),
    TolE.less_false hε (by linarith)]
  simp only [Bool.or_self, Bool.false_eq_true, if_false, vadd_eq, vscale_eq]
  rfl

/-- C31, when a point is reported: whenever the closest points `p` and `q` of the carrier lines lie on the segments, however far apart they are,
`p` is returned. -/
theorem C31_closest_partial {ε : ℝ} (hε : 0 < ε) (a b c d p q : Vec ℝ 3)
    (hang : ε < Spec.gram (fun i => b i - a i) (fun i => d i - c i)) (h1 : p ∈ Spec.segment a b) (h2 : q ∈ Spec.segment c d)
    (hpq : Spec.IsDistance (Spec.line a (b - a)) (Spec.line c (d - c)) (Spec.dist p q)) :
    intersectSegment3 ⟨a, b⟩ ⟨c, d⟩ ε = some p := by
  obtain ⟨t, ht0, ht1, rfl⟩ := h1
  obtain ⟨s, hs0, hs1, rfl⟩ := h2
  rw [seg_pointAt, seg_pointAt] at hpq
  unfold intersectSegment3
  simp only [vsub_eq]
  rcases closest_cases hε a (b - a) c (d - c) with ⟨-, h2⟩ | ⟨p, h1, -, hg, ho1, ho2⟩
  · have hz := TolE.of_zero hε h2
    rw [abs_of_nonneg (gram_nonneg _ _)] at hz
    exact absurd hz (not_le.2 hang)
  have hmin := C19_minimum hε _ _ _ _ p h1
  obtain ⟨rfl, rfl⟩ := hmin.2 t s (hpq.unique hmin.1)
  rw [h1]
  simp only [TolE.greater_eq hε]
  rw [TolE.less_false hε (by linarith), TolE.less_false hε (by linarith), TolE.less_false hε (by linarith),
    TolE.less_false hε (by linarith)]
  simp only [Bool.or_self, Bool.false_eq_true, if_false, vadd_eq, vscale_eq]
  rfl

/-- C31, what holds of every returned point: it lies on the first segment (up to tolerance) and is the point of the first
carrier line closest to the second; if the carrier lines meet, it lies on both segments. Missing: that they meet
(see `C31_counterexample`). -/
theorem C31_sound_partial {ε : ℝ} (hε : 0 < ε) (a b c d p : Vec ℝ 3)
    (h : intersectSegment3 ⟨a, b⟩ ⟨c, d⟩ ε = some p) :
    p ∈ Spec.segmentUpTo ε a b ∧ ∃ q ∈ Spec.segmentUpTo ε c d,
      Spec.IsDistance (Spec.line a (b - a)) (Spec.line c (d - c)) (Spec.dist p q) ∧
      ((∃ x, x ∈ Spec.line a (b - a) ∧ x ∈ Spec.line c (d - c)) → p = q) := by
  unfold intersectSegment3 at h
  simp only [vsub_eq] at h
  split at h
  · cases h
  rename_i params hp
  simp only [TolE.greater_eq hε] at h
  split at h
  · cases h
  rename_i hc
  cases h
  simp only [Bool.or_eq_true, not_or, Bool.not_eq_true] at hc
  obtain ⟨⟨⟨h1, h2⟩, h3⟩, h4⟩ := hc
  have h1 := TolE.of_not_less hε h1; have h2 := TolE.of_not_less hε h2
  have h3 := TolE.of_not_less hε h3; have h4 := TolE.of_not_less hε h4
  have hmin := (C19_minimum hε _ _ _ _ _ hp).1
  rw [vadd_eq, vscale_eq, ← pointAt_eq]
  refine ⟨⟨params.t, by linarith, h4, rfl⟩, Spec.pointAt c (d - c) params.s, ⟨params.s, by linarith, h2, rfl⟩, hmin, ?_⟩
  rintro ⟨x, hx1, hx2⟩
  have h0 : Spec.dist x x = 0 := by rw [spec_dist_eq]; simp
  have := hmin.2 ⟨x, hx1, x, hx2, rfl⟩
  rw [h0] at this
  exact eq_of_dist_le_zero' this

set_option maxHeartbeats 800000 in
/-- C31 is false: two segments at any distance `h` from each other are reported to intersect. -/
theorem C31_counterexample {ε : ℝ} (hε : 0 < ε) (hs : ε < 1) (h : ℝ) :
    ∃ a b c d p : Vec ℝ 3, ε < Spec.gram (fun i => b i - a i) (fun i => d i - c i) ∧
      intersectSegment3 ⟨a, b⟩ ⟨c, d⟩ ε = some p ∧ ∀ x ∈ Spec.segment a b, ∀ y ∈ Spec.segment c d, |h| ≤ Spec.dist x y := by
  have hg : Spec.gram ((![1, 0, 0] : Vec ℝ 3) - ![-1, 0, 0]) (![0, 1, h] - ![0, -1, h]) = 16 := by
    simp [gram_eq, dotProduct, Fin.sum_univ_three]; norm_num
  refine ⟨![-1, 0, 0], ![1, 0, 0], ![0, -1, h], ![0, 1, h], 0, ?_, ?_, ?_⟩
  · show ε < Spec.gram ((![1, 0, 0] : Vec ℝ 3) - ![-1, 0, 0]) (![0, 1, h] - ![0, -1, h])
    rw [hg]; linarith
  · unfold intersectSegment3
    simp only [vsub_eq]
    rcases closest_cases hε ![-1, 0, 0] ((![1, 0, 0] : Vec ℝ 3) - ![-1, 0, 0]) ![0, -1, h] (![0, 1, h] - ![0, -1, h])
      with ⟨-, h2⟩ | ⟨p, h1, -, -, ho1, ho2⟩
    · have hz := TolE.of_zero hε h2
      rw [hg] at hz; norm_num at hz; linarith
    simp [dotProduct, Fin.sum_univ_three] at ho1 ho2
    have ht : p.t = 1 / 2 := by linarith
    have hs : p.s = 1 / 2 := by linarith
    rw [h1]
    simp only [TolE.greater_eq hε, ht, hs]
    rw [TolE.less_false hε (by linarith), TolE.less_false hε (by linarith)]
    simp only [Bool.or_self, Bool.false_eq_true, if_false, vadd_eq, vscale_eq]
    congr 1; funext i; fin_cases i <;> simp; norm_num
  · rintro x ⟨t, -, -, rfl⟩ y ⟨s, -, -, rfl⟩
    rw [spec_dist_eq]
    apply Real.le_sqrt_of_sq_le
    refine le_trans (b := |h| ^ 2 + ((2 * t - 1) ^ 2 + (2 * s - 1) ^ 2)) (by linarith [sq_nonneg (2 * t - 1), sq_nonneg (2 * s - 1)]) (le_of_eq ?_)
    simp [dotProduct, Fin.sum_univ_three]; ring

/-! ### C32 -/

/-- C32 completeness: a segment and a ray that share a point (and are not nearly parallel) return exactly that point. -/
theorem C32_complete_partial (dbg : Bool) {ε : ℝ} (hε : 0 < ε) (a b o e q : Vec ℝ 3) (he : e ≠ 0) (r : Ray ℝ 3)
    (hr : Ray.make dbg o e = .ok r) (hang : ε * (∑ i, e i ^ 2) < Spec.gram (fun i => b i - a i) e)
    (h1 : q ∈ Spec.segment a b) (h2 : q ∈ Spec.ray o e) : intersectSegmentRay ⟨a, b⟩ r ε = some q := by
  cases Ray.make_eq hr
  have hang' : ε < Spec.gram (b - a) (normalize e) := by
    have e1 : (∑ i, e i ^ 2) = e ⬝ᵥ e := by simp [dotProduct, sq]
    have e2 : (fun i => b i - a i) = b - a := rfl
    rw [e1, e2, ← gram_normalize_right _ he] at hang
    exact lt_of_mul_lt_mul_right hang (dp_self_nonneg e)
  rw [← ray_normalize o he] at h2
  set n := normalize e
  obtain ⟨t, ht0, ht1, rfl⟩ := h1
  obtain ⟨s, hs0, heq⟩ := h2
  rw [seg_pointAt] at heq ⊢
  unfold intersectSegmentRay
  simp only [vsub_eq]
  rcases closest_cases hε a (b - a) o n with ⟨-, h2⟩ | ⟨p, h1, -, hg, ho1, ho2⟩
  · have hz := TolE.of_zero hε h2
    rw [abs_of_nonneg (gram_nonneg _ _)] at hz
    exact absurd hz (not_le.2 hang')
  have hmin := C19_minimum hε _ _ _ _ p h1
  have h0 : Spec.dist (Spec.pointAt a (b - a) t) (Spec.pointAt o n s) = 0 := by rw [heq, spec_dist_eq]; simp
  have hp0 : Spec.dist (Spec.pointAt a (b - a) p.t) (Spec.pointAt o n p.s) = 0 :=
    le_antisymm (by rw [← h0]; exact hmin.1.2 ⟨_, ⟨t, rfl⟩, _, ⟨s, rfl⟩, rfl⟩) (dist_nonneg' _ _)
  obtain ⟨rfl, rfl⟩ := hmin.2 t s (by rw [h0, hp0])
  rw [h1]
  simp only [TolE.greater_eq hε]
  rw [TolE.less_false hε (by linarith), TolE.less_false hε (by linarith), TolE.less_false hε (by linarith)]
  simp only [Bool.or_self, Bool.false_eq_true, if_false, vadd_eq, vscale_eq]
  rw [heq]; rfl

/-- C32, when a point is reported: whenever the closest points `p` and `q` of the carrier lines lie on the segment and on the ray, however far
apart they are, `q` is returned. -/
theorem C32_closest_partial {ε : ℝ} (hε : 0 < ε) (a b p q : Vec ℝ 3) (r : Ray ℝ 3)
    (hang : ε < Spec.gram (fun i => b i - a i) r.direction) (h1 : p ∈ Spec.segment a b) (h2 : q ∈ Spec.ray r.origin r.direction)
    (hpq : Spec.IsDistance (Spec.line a (b - a)) (Spec.line r.origin r.direction) (Spec.dist p q)) :
    intersectSegmentRay ⟨a, b⟩ r ε = some q := by
  obtain ⟨t, ht0, ht1, rfl⟩ := h1
  obtain ⟨s, hs0, rfl⟩ := h2
  rw [seg_pointAt] at hpq
  unfold intersectSegmentRay
  simp only [vsub_eq]
  rcases closest_cases hε a (b - a) r.origin r.direction with ⟨-, h2⟩ | ⟨p, h1, -, hg, ho1, ho2⟩
  · have hz := TolE.of_zero hε h2
    rw [abs_of_nonneg (gram_nonneg _ _)] at hz
    exact absurd hz (not_le.2 hang)
  have hmin := C19_minimum hε _ _ _ _ p h1
  obtain ⟨rfl, rfl⟩ := hmin.2 t s (hpq.unique hmin.1)
  rw [h1]
  simp only [TolE.greater_eq hε]
  rw [TolE.less_false hε (by linarith), TolE.less_false hε (by linarith), TolE.less_false hε (by linarith)]
  simp only [Bool.or_self, Bool.false_eq_true, if_false, vadd_eq, vscale_eq]
  rfl

/-- C32, what holds of every returned point: it lies on the ray (up to tolerance) and is the point of its carrier line
closest to the segment's; if the carrier lines meet, it lies on both. Missing: that they meet (see `C32_counterexample`). -/
theorem C32_sound_partial {ε : ℝ} (hε : 0 < ε) (a b p : Vec ℝ 3) (r : Ray ℝ 3)
    (h : intersectSegmentRay ⟨a, b⟩ r ε = some p) :
    p ∈ Spec.rayUpTo ε r.origin r.direction ∧ ∃ q ∈ Spec.segmentUpTo ε a b,
      Spec.IsDistance (Spec.line a (b - a)) (Spec.line r.origin r.direction) (Spec.dist q p) ∧
      ((∃ x, x ∈ Spec.line a (b - a) ∧ x ∈ Spec.line r.origin r.direction) → p = q) := by
  unfold intersectSegmentRay at h
  simp only [vsub_eq] at h
  split at h
  · cases h
  rename_i params hp
  simp only [TolE.greater_eq hε] at h
  split at h
  · cases h
  rename_i hc
  cases h
  simp only [Bool.or_eq_true, not_or, Bool.not_eq_true] at hc
  obtain ⟨⟨h1, h2⟩, h3⟩ := hc
  have h1 := TolE.of_not_less hε h1; have h2 := TolE.of_not_less hε h2
  have h3 := TolE.of_not_less hε h3
  have hmin := (C19_minimum hε _ _ _ _ _ hp).1
  rw [vadd_eq, vscale_eq, ← pointAt_eq]
  refine ⟨⟨params.s, by linarith, rfl⟩, Spec.pointAt a (b - a) params.t, ⟨params.t, by linarith, h2, rfl⟩, hmin, ?_⟩
  rintro ⟨x, hx1, hx2⟩
  have h0 : Spec.dist x x = 0 := by rw [spec_dist_eq]; simp
  have := hmin.2 ⟨x, hx1, x, hx2, rfl⟩
  rw [h0] at this
  exact (eq_of_dist_le_zero' this).symm

/-- C32 is false: a ray passing a segment at any distance `h` is reported to intersect it. -/
theorem C32_counterexample (dbg : Bool) (hs' : (eps : ℝ) < 1) {ε : ℝ} (hε : 0 < ε) (hs : ε < 1) (h : ℝ) :
    ∃ a b o e p : Vec ℝ 3, e ≠ 0 ∧ ∃ r, Ray.make dbg o e = .ok r ∧
      intersectSegmentRay ⟨a, b⟩ r ε = some p ∧ ∀ x ∈ Spec.segment a b, ∀ y ∈ Spec.ray o e, |h| ≤ Spec.dist x y := by
  have ue : (![0, 1, 0] : Vec ℝ 3) ⬝ᵥ ![0, 1, 0] = 1 := by simp [dotProduct, Fin.sum_univ_three]
  have ne := normalize_of_unit ue
  have hg : Spec.gram ((![1, 0, 0] : Vec ℝ 3) - ![-1, 0, 0]) ![0, 1, 0] = 4 := by
    simp [gram_eq, dotProduct, Fin.sum_univ_three]; norm_num
  refine ⟨![-1, 0, 0], ![1, 0, 0], ![0, -1, h], ![0, 1, 0], ![0, 0, h], ?_, ⟨![0, -1, h], ![0, 1, 0]⟩, ?_, ?_, ?_⟩
  · intro h; have := congrFun h 1; simp at this
  · rw [Ray.make_ok, ne]; rw [length_eq, ue, Real.sqrt_one]; exact hs'
  · unfold intersectSegmentRay
    simp only [vsub_eq]
    rcases closest_cases hε ![-1, 0, 0] ((![1, 0, 0] : Vec ℝ 3) - ![-1, 0, 0]) ![0, -1, h] ![0, 1, 0]
      with ⟨-, h2⟩ | ⟨p, h1, -, -, ho1, ho2⟩
    · have hz := TolE.of_zero hε h2
      rw [hg] at hz; norm_num at hz; linarith
    simp [dotProduct, Fin.sum_univ_three] at ho1 ho2
    have ht : p.t = 1 / 2 := by linarith
    have hs : p.s = 1 := by linarith
    rw [h1]
    simp only [TolE.greater_eq hε, ht, hs]
    rw [TolE.less_false hε (by linarith), TolE.less_false hε (by linarith), TolE.less_false hε (by linarith)]
    simp only [Bool.or_self, Bool.false_eq_true, if_false, vadd_eq, vscale_eq]
    congr 1; funext i; fin_cases i <;> simp
  · rintro x ⟨t, -, -, rfl⟩ y ⟨s, -, rfl⟩
    rw [spec_dist_eq]
    apply Real.le_sqrt_of_sq_le
    simp [dotProduct, Fin.sum_univ_three, Spec.pointAt]
    linarith [mul_self_nonneg (-1 + t * (1 + 1)), mul_self_nonneg (-s + 1), sq h]

/-! ### C33–C35: planes -/

theorem mem_plane {o n p : Vec ℝ 3} : p ∈ Spec.plane o n ↔ (p - o) ⬝ᵥ n = 0 := Iff.rfl

/-- a point at parameter `t` is on the plane iff `t` is the computed parameter -/
theorem plane_param {po n o d : Vec ℝ 3} (hd : d ⬝ᵥ n ≠ 0) (t : ℝ) :
    Spec.pointAt o d t ∈ Spec.plane po n ↔ t = (po - o) ⬝ᵥ n / (d ⬝ᵥ n) := by
  rw [mem_plane, eq_div_iff hd, pointAt_eq]
  simp only [sub_dotProduct, add_dotProduct, smul_dotProduct, smul_eq_mul]
  constructor <;> intro h <;> linarith

theorem abs_cos {d n : Vec ℝ 3} (hd : d ≠ 0) (hn : n ≠ 0) :
    |normalize d ⬝ᵥ normalize n| = |∑ i, d i * n i| / (length d * length n) := by
  have h1 := length_pos hd
  have h2 := length_pos hn
  rw [normalize_eq, normalize_eq, smul_dotProduct, dotProduct_smul, smul_eq_mul, smul_eq_mul, abs_mul, abs_mul,
    abs_of_pos (inv_pos.2 h1), abs_of_pos (inv_pos.2 h2)]
  show (length d)⁻¹ * ((length n)⁻¹ * |∑ i, d i * n i|) = _
  field_simp

/-- C33 soundness: a returned point is the one and only common point. -/
theorem C33_sound {ε : ℝ} (hε : 0 < ε) (po n o d p : Vec ℝ 3) (hn : n ≠ 0) (hd : d ≠ 0)
    (h : intersectPlaneLine (Plane.make po n) (Line.make o d) ε = some p) :
    p ∈ Spec.plane po n ∧ p ∈ Spec.line o d ∧ ∀ q, q ∈ Spec.plane po n → q ∈ Spec.line o d → q = p := by
  rw [← plane_normalize po hn, ← line_normalize o hd]
  unfold intersectPlaneLine Plane.make Line.make at h
  simp only [dot_eq, vsub_eq] at h
  split at h
  · cases h
  rename_i hz
  have hne := TolE.ne_zero hε (by simpa using hz)
  cases h
  rw [vadd_eq, vscale_eq, ← pointAt_eq]
  refine ⟨(plane_param hne _).2 rfl, ⟨_, rfl⟩, ?_⟩
  rintro q hq ⟨t, rfl⟩
  rw [(plane_param hne t).1 hq]

/-- C33 completeness: a point is returned exactly when the line is not (nearly) parallel to the plane. -/
theorem C33_complete {ε : ℝ} (hε : 0 < ε) (po n o d : Vec ℝ 3) (hn : n ≠ 0) (hd : d ≠ 0) :
    (ε * (Spec.norm d * Spec.norm n) < |∑ i, d i * n i| → ∃ p, intersectPlaneLine (Plane.make po n) (Line.make o d) ε = some p) ∧
    (|∑ i, d i * n i| < ε * (Spec.norm d * Spec.norm n) → intersectPlaneLine (Plane.make po n) (Line.make o d) ε = none) := by
  rw [spec_norm_eq, spec_norm_eq]
  have h1 := length_pos hd
  have h2 := length_pos hn
  have key := abs_cos hd hn
  unfold intersectPlaneLine Plane.make Line.make
  simp only [dot_eq, vsub_eq]
  constructor
  · intro h
    rw [if_neg]
    · exact ⟨_, rfl⟩
    · rw [TolE.zero_false hε]
      · simp
      · rw [key]; exact (lt_div_iff₀ (by positivity)).2 h
  · intro h
    rw [if_pos]
    apply TolE.zero_true hε
    rw [key]; exact (div_lt_iff₀ (by positivity)).2 h

theorem cos_key {d n : Vec ℝ 3} (hd : d ≠ 0) (hn : n ≠ 0) {ε : ℝ} (h : ε * (Spec.norm d * Spec.norm n) < |∑ i, d i * n i|) :
    ε < |normalize d ⬝ᵥ normalize n| := by
  rw [spec_norm_eq, spec_norm_eq] at h
  have h1 := length_pos hd
  have h2 := length_pos hn
  rw [abs_cos hd hn]; exact (lt_div_iff₀ (by positivity)).2 h

/-- C34 soundness: a returned point lies on the plane and on the ray. -/
theorem C34_sound (dbg : Bool) {ε : ℝ} (hε : 0 < ε) (po n o d p : Vec ℝ 3) (hn : n ≠ 0) (hd : d ≠ 0) (r : Ray ℝ 3)
    (hr : Ray.make dbg o d = .ok r) (h : intersectPlaneRay (Plane.make po n) r ε = some p) :
    p ∈ Spec.plane po n ∧ p ∈ Spec.ray o d := by
  cases Ray.make_eq hr
  rw [← plane_normalize po hn, ← ray_normalize o hd]
  unfold intersectPlaneRay calcIntersectionParameter Plane.make at h
  simp only [dot_eq, vsub_eq, TolE.greater_eq hε] at h
  split at h
  · cases h
  rename_i t ht
  split at ht
  · cases ht
  rename_i hz
  have hne := TolE.ne_zero hε (by simpa using hz)
  cases ht
  split at h
  · rename_i hg
    cases h
    rw [vadd_eq, vscale_eq, ← pointAt_eq]
    have := TolE.of_less hε hg
    exact ⟨(plane_param hne _).2 rfl, ⟨_, by linarith, rfl⟩⟩
  · cases h

/-- C34 completeness away from the origin: a common point further than `ε` from the ray origin is returned, when the ray
is not nearly parallel. Missing: the origin itself (see `C34_counterexample`). -/
theorem C34_complete_partial (dbg : Bool) {ε : ℝ} (hε : 0 < ε) (po n o d q : Vec ℝ 3) (hn : n ≠ 0) (hd : d ≠ 0)
    (r : Ray ℝ 3) (hr : Ray.make dbg o d = .ok r) (hang : ε * (Spec.norm d * Spec.norm n) < |∑ i, d i * n i|)
    (h1 : q ∈ Spec.plane po n) (h2 : q ∈ Spec.ray o d) (hfar : ε < Spec.dist o q) :
    intersectPlaneRay (Plane.make po n) r ε = some q := by
  cases Ray.make_eq hr
  rw [← plane_normalize po hn] at h1
  rw [← ray_normalize o hd] at h2
  have hc := cos_key hd hn hang
  have hu := normalize_dp_self hd
  obtain ⟨t, ht0, rfl⟩ := h2
  have hdist : Spec.dist o (Spec.pointAt o (normalize d) t) = t := by
    rw [dist_comm', spec_dist_eq, pointAt_eq, add_sub_cancel_left, dp_smul_self, hu, mul_one, Real.sqrt_sq ht0]
  rw [hdist] at hfar
  have hz := TolE.zero_false hε hc
  have hne := TolE.ne_zero hε hz
  have ht := (plane_param hne t).1 h1
  unfold intersectPlaneRay calcIntersectionParameter Plane.make
  simp only [dot_eq, vsub_eq, TolE.greater_eq hε, hz, Bool.false_eq_true, if_false]
  rw [← ht, if_pos (TolE.less_true hε (by linarith)), vadd_eq, vscale_eq]; rfl

/-- C34 is false: a ray starting on the plane reports nothing. -/
theorem C34_counterexample (dbg : Bool) (hs : (eps : ℝ) < 1) :
    ∃ po n o d : Vec ℝ 3, n ≠ 0 ∧ d ≠ 0 ∧ eps * (Spec.norm d * Spec.norm n) < |∑ i, d i * n i| ∧
      (∃ q, q ∈ Spec.plane po n ∧ q ∈ Spec.ray o d) ∧
      ∃ r, Ray.make dbg o d = .ok r ∧ intersectPlaneRay (Plane.make po n) r = none := by
  have hep := eps_pos (K := ℝ)
  have u : (![1, 0, 0] : Vec ℝ 3) ⬝ᵥ ![1, 0, 0] = 1 := by simp [dotProduct, Fin.sum_univ_three]
  have nn := normalize_of_unit u
  have hl : length (![1, 0, 0] : Vec ℝ 3) = 1 := by rw [length_eq, u, Real.sqrt_one]
  refine ⟨0, ![1, 0, 0], 0, ![1, 0, 0], ex_x_ne, ex_x_ne, ?_, ⟨0, ?_, 0, le_refl _, ?_⟩, ⟨0, ![1, 0, 0]⟩, ?_, ?_⟩
  · rw [spec_norm_eq, hl]; simp [Fin.sum_univ_three]; exact hs
  · simp [Spec.plane]
  · rw [pointAt_eq]; simp
  · rw [Ray.make_ok, nn]; rw [hl]; exact hs
  · unfold intersectPlaneRay calcIntersectionParameter Plane.make
    simp only [dot_eq, vsub_eq, TolE.greater_eq hep, nn, u]
    rw [if_neg (by rw [TolE.zero_false hep (by simpa using hs)]; simp)]
    simp only [sub_self, zero_dotProduct, zero_div]
    rw [if_neg (by rw [TolE.less_false hep (by linarith)]; simp)]

/-- C35 soundness: a returned point lies on the plane and on the segment (up to the parameter tolerance at the target). -/
theorem C35_sound {ε : ℝ} (hε : 0 < ε) (po n a b p : Vec ℝ 3) (hn : n ≠ 0)
    (h : intersectPlaneSegment (Plane.make po n) ⟨a, b⟩ ε = some p) :
    p ∈ Spec.plane po n ∧ p ∈ Spec.segmentUpTo ε a b := by
  rw [← plane_normalize po hn]
  unfold intersectPlaneSegment calcIntersectionParameter Plane.make at h
  simp only [dot_eq, vsub_eq, TolE.greater_eq hε, TolE.lessEq_eq hε] at h
  split at h
  · cases h
  rename_i t ht
  split at ht
  · cases ht
  rename_i hz
  have hne := TolE.ne_zero hε (eq_false_of_ne_true hz)
  cases ht
  split at h
  · rename_i hg
    cases h
    rw [Bool.and_eq_true, Bool.not_eq_true'] at hg
    rw [vadd_eq, vscale_eq, ← pointAt_eq]
    have h1 := TolE.of_less hε hg.1
    have h2 := TolE.of_not_less hε hg.2
    exact ⟨(plane_param hne _).2 rfl, ⟨_, by linarith, h2, rfl⟩⟩
  · cases h

/-- C35 completeness away from the source: a common point at a parameter above `ε` is returned, when the segment is not
nearly parallel to the plane. Missing: the source (see `C35_counterexample`). -/
theorem C35_complete_partial {ε : ℝ} (hε : 0 < ε) (po n a b : Vec ℝ 3) (hn : n ≠ 0) (t : ℝ)
    (hang : ε * Spec.norm n < |∑ i, (b i - a i) * n i|) (h0 : ε < t) (h1 : t ≤ 1)
    (hq : (fun i => a i + t * (b i - a i)) ∈ Spec.plane po n) :
    intersectPlaneSegment (Plane.make po n) ⟨a, b⟩ ε = some (fun i => a i + t * (b i - a i)) := by
  rw [← plane_normalize po hn] at hq
  rw [spec_norm_eq] at hang
  have hl := length_pos hn
  have hc : ε < |(b - a) ⬝ᵥ normalize n| := by
    rw [normalize_eq, dotProduct_smul, smul_eq_mul, abs_mul, abs_of_pos (inv_pos.2 hl), ← div_eq_inv_mul]
    exact (lt_div_iff₀ hl).2 hang
  have hz := TolE.zero_false hε hc
  have hne := TolE.ne_zero hε hz
  rw [seg_pointAt] at hq ⊢
  have ht := (plane_param hne t).1 hq
  unfold intersectPlaneSegment calcIntersectionParameter Plane.make
  simp only [dot_eq, vsub_eq, TolE.greater_eq hε, TolE.lessEq_eq hε, hz, Bool.false_eq_true, if_false]
  rw [← ht, TolE.less_true hε (by linarith), TolE.less_false hε (by linarith), vadd_eq, vscale_eq]; rfl

/-- C35 is false: a segment whose source lies on the plane reports nothing. -/
theorem C35_counterexample (hs : (eps : ℝ) < 1) :
    ∃ po n a b : Vec ℝ 3, n ≠ 0 ∧ eps * Spec.norm n < |∑ i, (b i - a i) * n i| ∧
      (∃ q, q ∈ Spec.plane po n ∧ q ∈ Spec.segment a b) ∧ intersectPlaneSegment (Plane.make po n) ⟨a, b⟩ = none := by
  have hep := eps_pos (K := ℝ)
  have u : (![1, 0, 0] : Vec ℝ 3) ⬝ᵥ ![1, 0, 0] = 1 := by simp [dotProduct, Fin.sum_univ_three]
  have nn := normalize_of_unit u
  have hl : length (![1, 0, 0] : Vec ℝ 3) = 1 := by rw [length_eq, u, Real.sqrt_one]
  refine ⟨0, ![1, 0, 0], 0, ![1, 0, 0], ex_x_ne, ?_, ⟨0, ?_, 0, le_refl _, zero_le_one, ?_⟩, ?_⟩
  · rw [spec_norm_eq, hl]; simp [Fin.sum_univ_three]; exact hs
  · simp [Spec.plane]
  · funext i; simp
  · unfold intersectPlaneSegment calcIntersectionParameter Plane.make
    simp only [dot_eq, vsub_eq, TolE.greater_eq hep, TolE.lessEq_eq hep, nn, u, sub_zero]
    rw [if_neg (by rw [TolE.zero_false hep (by simpa using hs)]; simp)]
    simp only [zero_dotProduct, zero_div]
    rw [if_neg (by rw [TolE.less_false hep (by linarith)]; simp)]
end

section Examples
attribute [local instance] ratTol ratTol_lawful realTol realTol_lawful

/-- C28: two crossing lines; the tolerance is met with room to spare. -/
example : Spec.AngleAbove ((1 / 1000 : ℝ) ^ 2) (![1, 0] : Vec ℝ 2) ![3, 4] := by
  unfold Spec.AngleAbove Spec.gram; simp [Fin.sum_univ_two]; norm_num
example : intersectLine2 (T := ℚ) ⟨![0, 0], ![1, 0]⟩ ⟨![2, 3], ![3 / 5, 4 / 5]⟩ = some ![-1 / 4, 0] := by decide +kernel
/-- C29: two 3D lines through (1,2,3) -/
example : (![1, 2, 3] : Vec ℝ 3) ∈ Spec.line ![0, 2, 3] ![1, 0, 0] ∧ (![1, 2, 3] : Vec ℝ 3) ∈ Spec.line ![1, 0, 3] ![0, 2, 0] := by
  refine ⟨⟨1, ?_⟩, ⟨1, ?_⟩⟩ <;> funext i <;> fin_cases i <;> simp [Spec.pointAt]
/-- C30: two segments crossing, touching at an end, missing each other and parallel. -/
example : intersectSegment2 true (⟨![0, 0], ![2, 2]⟩ : Segment ℚ 2) ⟨![0, 2], ![2, 0]⟩ (1 / 1000) = .ok (some ![1, 1]) := by
  refine C30_complete true (by norm_num) _ _ _ _ _ (by simp; norm_num) ⟨1 / 2, by norm_num, by norm_num, ?_⟩
    ⟨1 / 2, by norm_num, by norm_num, ?_⟩ <;> funext i <;> fin_cases i <;> simp; norm_num
example : intersectSegment2 true (⟨![0, 0], ![2, 2]⟩ : Segment ℚ 2) ⟨![0, 4], ![2, 2]⟩ (1 / 1000) = .ok (some ![2, 2]) := by
  refine C30_complete true (by norm_num) _ _ _ _ _ (by simp; norm_num) ⟨1, by norm_num, by norm_num, ?_⟩
    ⟨1, by norm_num, by norm_num, ?_⟩ <;> funext i <;> fin_cases i <;> simp
example : intersectSegment2 (T := ℚ) true ⟨![0, 0], ![2, 2]⟩ ⟨![0, 6], ![4, 2]⟩ = .ok none := by decide +kernel
example : intersectSegment2 (T := ℚ) true ⟨![0, 0], ![2, 2]⟩ ⟨![0, 1], ![2, 3]⟩ = .ok none := by decide +kernel
/-- C31, C32: a crossing in space; the point lies on the segment, on the other segment and on the ray. -/
example : (![1, 1, 5] : Vec ℝ 3) ∈ Spec.segment ![0, 0, 5] ![2, 2, 5] ∧ (![1, 1, 5] : Vec ℝ 3) ∈ Spec.segment ![1, 1, 0] ![1, 1, 10] ∧
    (![1, 1, 5] : Vec ℝ 3) ∈ Spec.ray ![1, 1, 0] ![0, 0, 2] ∧
    (1 / 1000 : ℝ) * (∑ i, (![0, 0, 2] : Vec ℝ 3) i ^ 2) <
      Spec.gram (fun i => (![2, 2, 5] : Vec ℝ 3) i - (![0, 0, 5] : Vec ℝ 3) i) ![0, 0, 2] ∧
    (1 / 1000 : ℝ) < Spec.gram (fun i => (![2, 2, 5] : Vec ℝ 3) i - (![0, 0, 5] : Vec ℝ 3) i)
      (fun i => (![1, 1, 10] : Vec ℝ 3) i - (![1, 1, 0] : Vec ℝ 3) i) := by
  refine ⟨⟨1 / 2, by norm_num, by norm_num, ?_⟩, ⟨1 / 2, by norm_num, by norm_num, ?_⟩, ⟨5 / 2, by norm_num, ?_⟩, ?_, ?_⟩
  · funext i; fin_cases i <;> simp
  · funext i; fin_cases i <;> simp; norm_num
  · funext i; fin_cases i <;> simp [Spec.pointAt]
  · simp [Spec.gram, Fin.sum_univ_three]; norm_num
  · simp [Spec.gram, Fin.sum_univ_three]; norm_num
/-- C33–C35: a slanted plane met by a line, by a ray in front of its origin and by a segment inside it. -/
example : intersectPlaneLine (T := ℚ) ⟨![0, 0, 1], ![0, 0, 1]⟩ ⟨![0, 0, 0], ![3 / 5, 0, 4 / 5]⟩ = some ![3 / 4, 0, 1] := by
  decide +kernel
example : intersectPlaneRay (T := ℚ) ⟨![0, 0, 1], ![0, 0, 1]⟩ ⟨![0, 0, 0], ![3 / 5, 0, 4 / 5]⟩ = some ![3 / 4, 0, 1] := by
  decide +kernel
example : intersectPlaneSegment (T := ℚ) ⟨![0, 0, 1], ![0, 0, 1]⟩ ⟨![0, 0, 0], ![3, 0, 4]⟩ = some ![3 / 4, 0, 1] := by
  decide +kernel
example : (1 / 1000 : ℝ) * (Spec.norm (![0, 3, 4] : Vec ℝ 3) * Spec.norm (![0, 0, 1] : Vec ℝ 3)) <
    |∑ i, (![0, 3, 4] : Vec ℝ 3) i * (![0, 0, 1] : Vec ℝ 3) i| := by
  have h : Real.sqrt (3 ^ 2 + 4 ^ 2) = 5 := by
    rw [show (3 : ℝ) ^ 2 + 4 ^ 2 = 5 ^ 2 by norm_num]; exact Real.sqrt_sq (by norm_num)
  simp [Spec.norm, Fin.sum_univ_three, h]; norm_num
/-! The theorems applied. -/
theorem ex_ne2 : (![1, 0] : Vec ℝ 2) ≠ 0 := by intro h; have := congrFun h 0; simp at this
theorem ex_ne2' : (![3, 4] : Vec ℝ 2) ≠ 0 := by intro h; have := congrFun h 0; simp at this
theorem ex_neX : (![1, 0, 0] : Vec ℝ 3) ≠ 0 := by intro h; have := congrFun h 0; simp at this
theorem ex_neY : (![0, 2, 0] : Vec ℝ 3) ≠ 0 := by intro h; have := congrFun h 1; simp at this
theorem ex_neZ : (![0, 0, 1] : Vec ℝ 3) ≠ 0 := by intro h; have := congrFun h 2; simp at this
theorem ex_neZ2 : (![0, 0, 2] : Vec ℝ 3) ≠ 0 := by intro h; have := congrFun h 2; simp at this
theorem ex_neD : (![0, 3, 4] : Vec ℝ 3) ≠ 0 := by intro h; have := congrFun h 1; simp at this
theorem ex_thousandth : (0 : ℝ) < 1 / 1000 := by norm_num
theorem ex_slant : (1 / 1000 : ℝ) * (Spec.norm (![0, 3, 4] : Vec ℝ 3) * Spec.norm (![0, 0, 1] : Vec ℝ 3)) <
    |∑ i, (![0, 3, 4] : Vec ℝ 3) i * (![0, 0, 1] : Vec ℝ 3) i| := by
  have h : Real.sqrt (3 ^ 2 + 4 ^ 2) = 5 := by
    rw [show (3 : ℝ) ^ 2 + 4 ^ 2 = 5 ^ 2 by norm_num]; exact Real.sqrt_sq (by norm_num)
  simp [Spec.norm, Fin.sum_univ_three, h]; norm_num

/-- C28: the x axis and a line through (2, 3) along (3, 4) meet, in (-1/4, 0). -/
example : intersectLine2 (Line.make (![0, 0] : Vec ℝ 2) ![1, 0]) (Line.make ![2, 3] ![3, 4]) (1 / 1000) = some ![-1 / 4, 0] := by
  obtain ⟨p, hp⟩ := (C28_complete ex_thousandth ![0, 0] ![1, 0] ![2, 3] ![3, 4] ex_ne2 ex_ne2').1 (by
    unfold Spec.AngleAbove Spec.gram; simp [Fin.sum_univ_two]; norm_num)
  rw [hp, (C28_sound ex_thousandth _ _ _ _ _ ex_ne2 ex_ne2' hp).2.2 ![-1 / 4, 0]
    ⟨-1 / 4, by funext i; fin_cases i <;> simp [Spec.pointAt]⟩ ⟨-3 / 4, by funext i; fin_cases i <;> (simp [Spec.pointAt]; try norm_num)⟩]
/-- C29: two lines through (1, 2, 3); and two that stay two units apart. -/
example : intersectLine3 (Line.make (![0, 2, 3] : Vec ℝ 3) ![1, 0, 0]) (Line.make ![1, 0, 3] ![0, 2, 0]) (1 / 1000) = some ![1, 2, 3] := by
  refine C29_complete ex_thousandth _ _ _ _ _ ex_neX ex_neY ?_ ⟨1, ?_⟩ ⟨1, ?_⟩
  · show Spec.AngleAbove (1 / 1000) _ _; unfold Spec.AngleAbove Spec.gram; simp [Fin.sum_univ_three]; norm_num
  all_goals funext i; fin_cases i <;> simp [Spec.pointAt]
example (p : Vec ℝ 3) (h : intersectLine3 (Line.make (![0, 2, 3] : Vec ℝ 3) ![1, 0, 0]) (Line.make ![1, 0, 3] ![0, 2, 0]) (1 / 1000) = some p) :
    p ∈ Spec.line (![0, 2, 3] : Vec ℝ 3) ![1, 0, 0] := (C29_sound ex_thousandth _ _ _ _ p ex_neX ex_neY h).1
example (h : intersectLine3 (Line.make (![0, 2, 5] : Vec ℝ 3) ![1, 0, 0]) (Line.make ![1, 0, 3] ![0, 2, 0]) (1 / 1000) = none) :
    ∃ m, Spec.IsDistance (Spec.line (![0, 2, 5] : Vec ℝ 3) ![1, 0, 0]) (Spec.line ![1, 0, 3] ![0, 2, 0]) m ∧ 1 / 1000 ≤ m := by
  refine (C29_none ex_thousandth _ _ _ _ ex_neX ex_neY h).resolve_left (not_not.2 ?_)
  show Spec.AngleAbove (1 / 1000) _ _; unfold Spec.AngleAbove Spec.gram; simp [Fin.sum_univ_three]; norm_num
/-- C30: crossing diagonals; parallel diagonals; two segments that miss each other. -/
example : (![1, 1] : Vec ℚ 2) ∈ Spec.segmentUpTo (1 / 1000) (![0, 0] : Vec ℚ 2) ![2, 2] := by
  obtain ⟨r, h, hp⟩ := C30_sound true (ε := (1 / 1000 : ℚ)) (by norm_num) ![0, 0] ![2, 2] ![0, 2] ![2, 0]
  refine (hp _ (Except.ok.inj (h.symm.trans (C30_complete true (by norm_num) _ _ _ _ ![1, 1] (by simp; norm_num)
    ⟨1 / 2, by norm_num, by norm_num, ?_⟩ ⟨1 / 2, by norm_num, by norm_num, ?_⟩)))).1
  all_goals funext i; fin_cases i <;> (simp; try norm_num)
example : intersectSegment2 true (⟨![0, 0], ![2, 2]⟩ : Segment ℚ 2) ⟨![0, 1], ![2, 3]⟩ (1 / 1000) = .ok none :=
  C30_parallel true (by norm_num) _ _ _ _ (by simp; norm_num)
example (q : Vec ℚ 2) : ¬ (q ∈ Spec.segment (![0, 0] : Vec ℚ 2) ![2, 2] ∧ q ∈ Spec.segment (![0, 6] : Vec ℚ 2) ![4, 2]) :=
  C30_none true (ε := (1 / 1000 : ℚ)) (by norm_num) _ _ _ _ (by simp; norm_num) (by decide +kernel) q
/-- C31: a crossing at (1, 1, 5). -/
example : intersectSegment3 (⟨![0, 0, 5], ![2, 2, 5]⟩ : Segment ℝ 3) ⟨![1, 1, 0], ![1, 1, 10]⟩ (1 / 1000) = some ![1, 1, 5] := by
  refine C31_complete_partial ex_thousandth _ _ _ _ _ ?_ ⟨1 / 2, by norm_num, by norm_num, ?_⟩ ⟨1 / 2, by norm_num, by norm_num, ?_⟩
  · simp [Spec.gram, Fin.sum_univ_three]; norm_num
  · funext i; fin_cases i <;> simp
  · funext i; fin_cases i <;> simp; norm_num
example (p : Vec ℝ 3) (h : intersectSegment3 (⟨![0, 0, 5], ![2, 2, 5]⟩ : Segment ℝ 3) ⟨![1, 1, 0], ![1, 1, 10]⟩ (1 / 1000) = some p) :
    p ∈ Spec.segmentUpTo (1 / 1000) (![0, 0, 5] : Vec ℝ 3) ![2, 2, 5] := (C31_sound_partial ex_thousandth _ _ _ _ p h).1
example := C31_counterexample ex_thousandth (by norm_num) 7
/-- C31: two segments three units apart: the point of the first above the second is returned. -/
theorem ex_apart : Spec.IsDistance (Spec.line (![-1, 0, 0] : Vec ℝ 3) (![1, 0, 0] - ![-1, 0, 0])) (Spec.line ![0, -1, 3] ![0, 2, 0])
    (Spec.dist (![0, 0, 0] : Vec ℝ 3) ![0, 0, 3]) := by
  refine IsDistance_intro ⟨1 / 2, by funext i; fin_cases i <;> simp [Spec.pointAt]; norm_num⟩
    ⟨1 / 2, by funext i; fin_cases i <;> simp [Spec.pointAt]⟩ ?_
  rintro _ ⟨t, rfl⟩ _ ⟨s, rfl⟩
  simp [dotProduct, Fin.sum_univ_three, Spec.pointAt]
  nlinarith [sq_nonneg (-1 + t * (1 + 1)), sq_nonneg (1 - s * 2), sq_nonneg (-1 + s * 2)]
example : intersectSegment3 (⟨![-1, 0, 0], ![1, 0, 0]⟩ : Segment ℝ 3) ⟨![0, -1, 3], ![0, 1, 3]⟩ (1 / 1000) = some ![0, 0, 0] := by
  refine C31_closest_partial ex_thousandth _ _ _ _ _ ![0, 0, 3] ?_ ⟨1 / 2, by norm_num, by norm_num, ?_⟩ ⟨1 / 2, by norm_num, by norm_num, ?_⟩ ?_
  · simp [Spec.gram, Fin.sum_univ_three]; norm_num
  · funext i; fin_cases i <;> simp; norm_num
  · funext i; fin_cases i <;> simp; norm_num
  · have e : (![0, 1, 3] : Vec ℝ 3) - ![0, -1, 3] = ![0, 2, 0] := by funext i; fin_cases i <;> simp; norm_num
    rw [e]; exact ex_apart
/-- C32: the same crossings with a ray. -/
example : ∃ r, Ray.make true (![1, 1, 0] : Vec ℝ 3) ![0, 0, 2] = .ok r ∧
    intersectSegmentRay ⟨![0, 0, 5], ![2, 2, 5]⟩ r (1 / 1000) = some ![1, 1, 5] := by
  obtain ⟨r, hr⟩ : ∃ r, Ray.make true (![1, 1, 0] : Vec ℝ 3) ![0, 0, 2] = .ok r := by
    refine ⟨_, Ray.make_ok ?_⟩
    rw [length_eq]; show (1 / 1000 : ℝ) < _; simp [dotProduct, Fin.sum_univ_three]; norm_num
  refine ⟨r, hr, C32_complete_partial true ex_thousandth _ _ _ _ _ ex_neZ2 r hr ?_ ⟨1 / 2, by norm_num, by norm_num, ?_⟩ ⟨5 / 2, by norm_num, ?_⟩⟩
  · simp [Spec.gram, Fin.sum_univ_three]; norm_num
  · funext i; fin_cases i <;> simp
  · funext i; fin_cases i <;> simp [Spec.pointAt]
example (p : Vec ℝ 3) (h : intersectSegmentRay (⟨![0, 0, 5], ![2, 2, 5]⟩ : Segment ℝ 3) ⟨![1, 1, 0], ![0, 0, 1]⟩ (1 / 1000) = some p) :
    p ∈ Spec.rayUpTo (1 / 1000) (![1, 1, 0] : Vec ℝ 3) ![0, 0, 1] := (C32_sound_partial ex_thousandth _ _ p ⟨![1, 1, 0], ![0, 0, 1]⟩ h).1
example := C32_counterexample true (by show (1 / 1000 : ℝ) < 1; norm_num) ex_thousandth (by norm_num) 7
example : intersectSegmentRay (⟨![-1, 0, 0], ![1, 0, 0]⟩ : Segment ℝ 3) ⟨![0, -1, 3], ![0, 2, 0]⟩ (1 / 1000) = some ![0, 0, 3] := by
  refine C32_closest_partial ex_thousandth _ _ ![0, 0, 0] _ ⟨![0, -1, 3], ![0, 2, 0]⟩ ?_ ⟨1 / 2, by norm_num, by norm_num, ?_⟩ ⟨1 / 2, by norm_num, ?_⟩ ex_apart
  · simp [Spec.gram, Fin.sum_univ_three]; norm_num
  · funext i; fin_cases i <;> simp; norm_num
  · funext i; fin_cases i <;> simp [Spec.pointAt]
/-- C33: the plane z = 1 and a slanted line meet, in (0, 3/4, 1). -/
theorem ex_on_plane : (![0, 3 / 4, 1] : Vec ℝ 3) ∈ Spec.plane (![0, 0, 1] : Vec ℝ 3) ![0, 0, 1] := by
  simp [Spec.plane, Fin.sum_univ_three]
theorem ex_on_ray : (![0, 3 / 4, 1] : Vec ℝ 3) ∈ Spec.ray (![0, 0, 0] : Vec ℝ 3) ![0, 3, 4] :=
  ⟨1 / 4, by norm_num, by funext i; fin_cases i <;> simp [Spec.pointAt]; norm_num⟩
theorem ex_rayD : ∃ r, Ray.make true (![0, 0, 0] : Vec ℝ 3) ![0, 3, 4] = .ok r := by
  refine ⟨_, Ray.make_ok ?_⟩
  rw [length_eq]
  have : (![0, 3, 4] : Vec ℝ 3) ⬝ᵥ ![0, 3, 4] = 5 ^ 2 := by simp [dotProduct, Fin.sum_univ_three]; norm_num
  rw [this, Real.sqrt_sq (by norm_num)]; show (1 / 1000 : ℝ) < _; norm_num
example : intersectPlaneLine (Plane.make (![0, 0, 1] : Vec ℝ 3) ![0, 0, 1]) (Line.make ![0, 0, 0] ![0, 3, 4]) (1 / 1000) = some ![0, 3 / 4, 1] := by
  obtain ⟨p, hp⟩ := (C33_complete ex_thousandth ![0, 0, 1] ![0, 0, 1] ![0, 0, 0] ![0, 3, 4] ex_neZ ex_neD).1 ex_slant
  obtain ⟨t, -, ht⟩ := ex_on_ray
  rw [hp, (C33_sound ex_thousandth _ _ _ _ _ ex_neZ ex_neD hp).2.2 _ ex_on_plane ⟨t, ht⟩]
example (p : Vec ℝ 3) (r : Ray ℝ 3) (hr : Ray.make true (![0, 0, 0] : Vec ℝ 3) ![0, 3, 4] = .ok r)
    (h : intersectPlaneRay (Plane.make (![0, 0, 1] : Vec ℝ 3) ![0, 0, 1]) r (1 / 1000) = some p) :
    p ∈ Spec.plane (![0, 0, 1] : Vec ℝ 3) ![0, 0, 1] := (C34_sound true ex_thousandth _ _ _ _ p ex_neZ ex_neD r hr h).1
example : ∃ r, Ray.make true (![0, 0, 0] : Vec ℝ 3) ![0, 3, 4] = .ok r ∧
    intersectPlaneRay (Plane.make (![0, 0, 1] : Vec ℝ 3) ![0, 0, 1]) r (1 / 1000) = some ![0, 3 / 4, 1] := by
  obtain ⟨r, hr⟩ := ex_rayD
  refine ⟨r, hr, C34_complete_partial true ex_thousandth _ _ _ _ _ ex_neZ ex_neD r hr ex_slant ex_on_plane ex_on_ray ?_⟩
  rw [spec_dist_eq]
  have : ((![0, 0, 0] : Vec ℝ 3) - ![0, 3 / 4, 1]) ⬝ᵥ (![0, 0, 0] - ![0, 3 / 4, 1]) = (5 / 4) ^ 2 := by
    simp [dotProduct, Fin.sum_univ_three]; norm_num
  rw [this, Real.sqrt_sq (by norm_num)]; norm_num
example := C34_counterexample true (by show (1 / 1000 : ℝ) < 1; norm_num)
example (p : Vec ℝ 3) (h : intersectPlaneSegment (Plane.make (![0, 0, 1] : Vec ℝ 3) ![0, 0, 1]) ⟨![0, 0, 0], ![0, 3, 4]⟩ (1 / 1000) = some p) :
    p ∈ Spec.segmentUpTo (1 / 1000) (![0, 0, 0] : Vec ℝ 3) ![0, 3, 4] := (C35_sound ex_thousandth _ _ _ _ p ex_neZ h).2
example : intersectPlaneSegment (Plane.make (![0, 0, 1] : Vec ℝ 3) ![0, 0, 1]) ⟨![0, 0, 0], ![0, 3, 4]⟩ (1 / 1000) =
    some (fun i => (![0, 0, 0] : Vec ℝ 3) i + 1 / 4 * ((![0, 3, 4] : Vec ℝ 3) i - (![0, 0, 0] : Vec ℝ 3) i)) :=
  C35_complete_partial ex_thousandth _ _ _ _ ex_neZ (1 / 4) (by simp [Spec.norm, Fin.sum_univ_three]; norm_num) (by norm_num) (by norm_num)
    (by simp [Spec.plane, Fin.sum_univ_three])
example := C35_counterexample (by show (1 / 1000 : ℝ) < 1; norm_num)
end Examples
end Verif
