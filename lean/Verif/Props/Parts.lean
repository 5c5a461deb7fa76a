import Verif.Props.Represent

set_option linter.unusedSectionVars false

/-
C139: a hit of a part (ray, segment) is a hit of the whole line, and a part is not nearer than the whole.
-/
namespace Verif
open Matrix

/-! ### Rays as parts of lines: any numbers, any arithmetic -/

section
variable {T : Type*} [Zero T] [One T] [OfNat T 2] [OfNat T 4] [Add T] [Sub T] [Mul T] [Div T] [Neg T] [HasSqrt T] [LT T] [DecidableLT T] [Tol T]

theorem Ray.make_eq_any {D : ℕ} {dbg : Bool} {o d : Vec T D} {r : Ray T D} (hr : Ray.make dbg o d = .ok r) : r = ⟨o, normalize d⟩ := by
  simp only [Ray.make] at hr
  rw [geoAssert_bind] at hr
  split at hr
  · cases hr
  · cases hr; rfl

theorem planeRay_line (e : Plane T) (o n : Vec T 3) (ε : T) (p : Vec T 3) (h : intersectPlaneRay e ⟨o, n⟩ ε = some p) :
    intersectPlaneLine e ⟨o, n⟩ ε = some p := by
  simp only [intersectPlaneRay, calcIntersectionParameter] at h
  simp only [intersectPlaneLine]
  rcases hz : Tol.isZero (dot n e.normal) ε with _ | _
  · rw [hz] at h
    simp only [Bool.false_eq_true, if_false] at h ⊢
    split at h
    · exact h
    · cases h
  · rw [hz] at h; simp at h

/-- **C139** (plane and ray) Whatever the arithmetic: where a plane is hit by a ray, it is hit by the line of the ray, in the same point. -/
theorem C139_plane_ray (dbg : Bool) (e : Plane T) (o d : Vec T 3) (r : Ray T 3) (hr : Ray.make dbg o d = .ok r) (ε : T) (p : Vec T 3)
    (h : intersectPlaneRay e r ε = some p) : intersectPlaneLine e (Line.make o d) ε = some p := by
  cases Ray.make_eq_any hr
  exact planeRay_line e o _ ε p h

theorem sphereRay_line (s : Sphere T) (o n : Vec T 3) (ε : T) (p : Vec T 3) :
    ((intersectSphereRay s ⟨o, n⟩ ε).first = some p → (intersectSphereLine s ⟨o, n⟩ ε).first = some p) ∧
    ((intersectSphereRay s ⟨o, n⟩ ε).second = some p → (intersectSphereLine s ⟨o, n⟩ ε).second = some p) := by
  simp only [intersectSphereRay, intersectSphereLine]
  split_ifs <;> simp_all

/-- **C139** (sphere and ray) Whatever the arithmetic: each point found for a ray is found for its line. -/
theorem C139_sphere_ray (dbg : Bool) (s : Sphere T) (o d : Vec T 3) (r : Ray T 3) (hr : Ray.make dbg o d = .ok r) (ε : T) (p : Vec T 3) :
    ((intersectSphereRay s r ε).first = some p → (intersectSphereLine s (Line.make o d) ε).first = some p) ∧
    ((intersectSphereRay s r ε).second = some p → (intersectSphereLine s (Line.make o d) ε).second = some p) := by
  cases Ray.make_eq_any hr
  exact sphereRay_line s o _ ε p
end

/-! ### Segments as parts of lines -/

theorem segmentUpTo_line {D : ℕ} {ε : ℝ} {a b p : Vec ℝ D} (h : p ∈ Spec.segmentUpTo ε a b) : p ∈ Spec.line a (b - a) := by
  obtain ⟨t, -, -, rfl⟩ := h
  exact ⟨t, by funext i; simp [Spec.pointAt]⟩

section
variable [Tol ℝ] [LawfulTol ℝ] {ε : ℝ}

/-- **C139** (plane and segment) Where a segment hits the plane, its line hits the plane in the same point, if the line is not nearly parallel to the plane.
Missing: nearly parallel lines, see `C139_plane_segment_counterexample`. -/
theorem C139_plane_segment_partial (he : 0 < ε) (po n a b p : Vec ℝ 3) (hn : n ≠ 0) (hab : a ≠ b)
    (hang : ε * (Spec.norm (b - a) * Spec.norm n) < |∑ i, (b - a) i * n i|) (h : intersectPlaneSegment (Plane.make po n) ⟨a, b⟩ ε = some p) :
    intersectPlaneLine (Plane.make po n) (Line.make a (b - a)) ε = some p := by
  have hba : b - a ≠ 0 := fun e => hab (sub_eq_zero.1 e).symm
  obtain ⟨h1, h2⟩ := C35_sound he po n a b p hn h
  obtain ⟨q, hq⟩ := (C33_complete he po n a (b - a) hn hba).1 hang
  rw [hq, (C33_sound he po n a (b - a) q hn hba hq).2.2 p h1 (segmentUpTo_line h2)]

/-- **C139** is false for planes and segments: a segment may hit a plane that its line does not hit. -/
theorem C139_plane_segment_counterexample (he : 0 < ε) (h1 : ε < 1 / 2) :
    ∃ po n a b p : Vec ℝ 3, n ≠ 0 ∧ a ≠ b ∧ intersectPlaneSegment (Plane.make po n) ⟨a, b⟩ ε = some p ∧
      intersectPlaneLine (Plane.make po n) (Line.make a (b - a)) ε = none := by
  have hn : (![0, 0, 1] : Vec ℝ 3) ≠ 0 := by intro h; have := congrFun h 2; simp at this
  have hab : (![-1, 0, -ε] : Vec ℝ 3) ≠ ![1, 0, ε] := by intro h; have := congrFun h 0; simp at this; linarith
  have hba : (![1, 0, ε] : Vec ℝ 3) - ![-1, 0, -ε] ≠ 0 := fun e => hab (sub_eq_zero.1 e).symm
  have n1 : Spec.norm (![0, 0, 1] : Vec ℝ 3) = 1 := by rw [spec_norm_eq, length_eq]; simp [dotProduct, Fin.sum_univ_three]
  have e1 : ∑ i, (![1, 0, ε] - ![-1, 0, -ε] : Vec ℝ 3) i * (![0, 0, 1] : Vec ℝ 3) i = 2 * ε := by
    simp [Fin.sum_univ_three]; ring
  refine ⟨0, ![0, 0, 1], ![-1, 0, -ε], ![1, 0, ε], _, hn, hab,
    C35_complete_partial he 0 ![0, 0, 1] ![-1, 0, -ε] ![1, 0, ε] hn (1 / 2) ?_ h1 (by norm_num) ?_, ?_⟩
  · have : ∑ i, ((![1, 0, ε] : Vec ℝ 3) i - (![-1, 0, -ε] : Vec ℝ 3) i) * (![0, 0, 1] : Vec ℝ 3) i = 2 * ε := e1
    rw [this, n1, abs_of_pos (by linarith)]; linarith
  · simp [Spec.plane, Fin.sum_univ_three]; ring
  · refine (C33_complete he 0 ![0, 0, 1] ![-1, 0, -ε] _ hn hba).2 ?_
    rw [e1, n1, mul_one, abs_of_pos (by linarith), mul_comm 2 ε]
    refine mul_lt_mul_of_pos_left ?_ he
    rw [spec_norm_eq, length_eq]
    refine Real.lt_sqrt_of_sq_lt ?_
    simp [dotProduct, Fin.sum_univ_three]; nlinarith

/-- **C139** (segments of the plane) The point of two segments is the point of their lines, if these are not nearly parallel. Missing: nearly parallel lines, see
`C139_segments2_counterexample`. -/
theorem C139_segments2_partial (dbg : Bool) (he : 0 < ε) (a b c d p : Vec ℝ 2) (hab : a ≠ b) (hcd : c ≠ d)
    (hang : Spec.AngleAbove (ε ^ 2) (b - a) (d - c)) (h : intersectSegment2 dbg ⟨a, b⟩ ⟨c, d⟩ ε = .ok (some p)) :
    intersectLine2 (Line.make a (b - a)) (Line.make c (d - c)) ε = some p := by
  have hba : b - a ≠ 0 := fun e => hab (sub_eq_zero.1 e).symm
  have hdc : d - c ≠ 0 := fun e => hcd (sub_eq_zero.1 e).symm
  obtain ⟨r, h1, h2⟩ := C30_sound dbg he a b c d
  rw [h] at h1; cases h1
  obtain ⟨h3, h4⟩ := h2 p rfl
  obtain ⟨q, hq⟩ := (C28_complete he a (b - a) c (d - c) hba hdc).1 hang
  rw [hq, (C28_sound he _ _ _ _ q hba hdc hq).2.2 p (segmentUpTo_line h3) (segmentUpTo_line h4)]

/-- **C139** is false for segments of the plane: two segments cross, and their lines do not. -/
theorem C139_segments2_counterexample (dbg : Bool) (he : 0 < ε) :
    ∃ a b c d p : Vec ℝ 2, a ≠ b ∧ c ≠ d ∧ intersectSegment2 dbg ⟨a, b⟩ ⟨c, d⟩ ε = .ok (some p) ∧
      intersectLine2 (Line.make a (b - a)) (Line.make c (d - c)) ε = none := by
  have hab : (![-1, 0] : Vec ℝ 2) ≠ ![1, 0] := by intro h; have := congrFun h 0; simp at this; linarith
  have hcd : (![-1, -ε] : Vec ℝ 2) ≠ ![1, ε] := by intro h; have := congrFun h 0; simp at this; linarith
  have hba : (![1, 0] : Vec ℝ 2) - ![-1, 0] ≠ 0 := fun e => hab (sub_eq_zero.1 e).symm
  have hdc : (![1, ε] : Vec ℝ 2) - ![-1, -ε] ≠ 0 := fun e => hcd (sub_eq_zero.1 e).symm
  have hg : Spec.gram ((![1, 0] : Vec ℝ 2) - ![-1, 0]) (![1, ε] - ![-1, -ε]) = 16 * ε ^ 2 := by
    simp [gram_eq, dotProduct, Fin.sum_univ_two]; ring
  have hq : (∑ i, ((![1, 0] - ![-1, 0] : Vec ℝ 2)) i ^ 2) * ∑ i, ((![1, ε] - ![-1, -ε] : Vec ℝ 2)) i ^ 2 = 16 * (1 + ε ^ 2) := by
    simp [Fin.sum_univ_two]; ring
  refine ⟨![-1, 0], ![1, 0], ![-1, -ε], ![1, ε], 0, hab, hcd, C30_complete dbg he _ _ _ _ 0 ?_ ⟨1 / 2, by norm_num, by norm_num, ?_⟩
    ⟨1 / 2, by norm_num, by norm_num, ?_⟩, (C28_complete he _ _ _ _ hba hdc).2.1 ?_ ?_⟩
  · simp
    rw [abs_of_pos (show (0 : ℝ) < ε + ε by linarith), abs_of_pos (by norm_num)]; linarith
  · funext i; fin_cases i <;> simp; norm_num
  · funext i; fin_cases i <;> simp <;> ring
  · unfold Spec.AngleAbove; rw [hg, hq]; nlinarith [sq_nonneg ε, pow_pos he 4]
  · rw [hg, hq]; nlinarith [sq_nonneg ε, pow_pos he 4]

/-- **C139** (segments of space) The point of two segments whose lines meet, not nearly parallel, is the point of the lines. Missing: skew and nearly parallel lines, see
`C139_segments3_counterexample`. -/
theorem C139_segments3_partial (he : 0 < ε) (a b c d p : Vec ℝ 3) (hab : a ≠ b) (hcd : c ≠ d) (hang : Spec.AngleAbove eps (b - a) (d - c))
    (hm : ∃ x, x ∈ Spec.line a (b - a) ∧ x ∈ Spec.line c (d - c)) (h : intersectSegment3 ⟨a, b⟩ ⟨c, d⟩ ε = some p) :
    intersectLine3 (Line.make a (b - a)) (Line.make c (d - c)) ε = some p := by
  have hba : b - a ≠ 0 := fun e => hab (sub_eq_zero.1 e).symm
  have hdc : d - c ≠ 0 := fun e => hcd (sub_eq_zero.1 e).symm
  obtain ⟨h1, q, hq, -, h2⟩ := C31_sound_partial he a b c d p h
  rw [← h2 hm] at hq
  exact C29_complete he _ _ _ _ p hba hdc hang (segmentUpTo_line h1) (segmentUpTo_line hq)

/-- **C139** is false for segments of space: two segments are reported to meet, their lines are not. -/
theorem C139_segments3_counterexample (he : 0 < ε) (h1 : ε < 1) :
    ∃ a b c d p : Vec ℝ 3, a ≠ b ∧ c ≠ d ∧ intersectSegment3 ⟨a, b⟩ ⟨c, d⟩ ε = some p ∧
      intersectLine3 (Line.make a (b - a)) (Line.make c (d - c)) ε = none := by
  have hg : Spec.gram ((![1, 0, 0] : Vec ℝ 3) - ![-1, 0, 0]) (![0, 1, 1] - ![0, -1, 1]) = 16 := by
    simp [gram_eq, dotProduct, Fin.sum_univ_three]; norm_num
  have hab : (![-1, 0, 0] : Vec ℝ 3) ≠ ![1, 0, 0] := by intro h; have := congrFun h 0; simp at this; linarith
  have hcd : (![0, -1, 1] : Vec ℝ 3) ≠ ![0, 1, 1] := by intro h; have := congrFun h 1; simp at this; linarith
  have hba : (![1, 0, 0] : Vec ℝ 3) - ![-1, 0, 0] ≠ 0 := fun e => hab (sub_eq_zero.1 e).symm
  have hdc : (![0, 1, 1] : Vec ℝ 3) - ![0, -1, 1] ≠ 0 := fun e => hcd (sub_eq_zero.1 e).symm
  have hd : ∀ x ∈ Spec.line (![-1, 0, 0] : Vec ℝ 3) (![1, 0, 0] - ![-1, 0, 0]), ∀ y ∈ Spec.line (![0, -1, 1] : Vec ℝ 3) (![0, 1, 1] - ![0, -1, 1]),
      1 ≤ Spec.dist x y := by
    rintro _ ⟨t, rfl⟩ _ ⟨s, rfl⟩
    rw [spec_dist_eq]
    refine Real.le_sqrt_of_sq_le ?_
    simp [dotProduct, Fin.sum_univ_three, Spec.pointAt]
    nlinarith [mul_self_nonneg (-1 + t * (1 + 1)), mul_self_nonneg (1 + -(s * (1 + 1)))]
  refine ⟨_, _, _, _, 0, hab, hcd, C31_closest_partial he ![-1, 0, 0] ![1, 0, 0] ![0, -1, 1] ![0, 1, 1] 0 ![0, 0, 1] (by
      show ε < Spec.gram ((![1, 0, 0] : Vec ℝ 3) - ![-1, 0, 0]) (![0, 1, 1] - ![0, -1, 1]); rw [hg]; linarith)
    ⟨1 / 2, by norm_num, by norm_num, ?_⟩ ⟨1 / 2, by norm_num, by norm_num, ?_⟩ ?_, ?_⟩
  · funext i; fin_cases i <;> simp; norm_num
  · funext i; fin_cases i <;> simp; norm_num
  · have e1 : Spec.dist (0 : Vec ℝ 3) ![0, 0, 1] = 1 := by rw [spec_dist_eq]; simp [dotProduct, Fin.sum_univ_three]
    refine ⟨⟨0, ⟨1 / 2, ?_⟩, ![0, 0, 1], ⟨1 / 2, ?_⟩, rfl⟩, ?_⟩
    · funext i; fin_cases i <;> simp [Spec.pointAt]; norm_num
    · funext i; fin_cases i <;> simp [Spec.pointAt]; norm_num
    · rintro _ ⟨x, hx, y, hy, rfl⟩
      rw [e1]; exact hd x hx y hy
  · rcases hi : intersectLine3 (Line.make (![-1, 0, 0] : Vec ℝ 3) (![1, 0, 0] - ![-1, 0, 0])) (Line.make ![0, -1, 1] (![0, 1, 1] - ![0, -1, 1])) ε with _ | p
    · rfl
    · obtain ⟨h2, q, h3, h4, -⟩ := C29_sound he _ _ _ _ p hba hdc hi
      linarith [hd p h2 q h3]

/-- **C139** (sphere and segment) If a segment longer than 1 has a point with the sphere, so has its line. Missing: short segments, see
`C139_sphere_segment_counterexample`. -/
theorem C139_sphere_segment_partial (he : 0 < ε) (c a b : Vec ℝ 3) (r : ℝ) (hab : 1 < Spec.dist a b)
    (h : (intersectSphereSegment ⟨c, r⟩ ⟨a, b⟩ ε).hasIntersection = true) :
    (intersectSphereLine ⟨c, r⟩ (Line.make a (b - a)) ε).hasIntersection = true := by
  have hba : b - a ≠ 0 := by
    intro e
    have : a = b := (sub_eq_zero.1 e).symm
    rw [this, dist_self'] at hab; linarith
  have hlen : (b - a) ⬝ᵥ (b - a) = Spec.dist a b ^ 2 := by
    rw [dist_comm', spec_dist_eq, Real.sq_sqrt (dp_self_nonneg _)]
  have hh := C20_point_line c a (b - a) hba
  have h1 := discr_eq hba r hh
  have h2 := discr_unit hba r hh
  rw [hlen] at h1
  generalize distVecLine c (Line.make a (b - a)) = m at h1 h2
  rw [Line.make, sphereLine_eval _ _ _ _ _ he]
  rcases hl : Tol.isLess (discr c a (normalize (b - a)) r) 0 ε with _ | _
  · simp only [Bool.false_eq_true, if_false]
    split_ifs <;> simp [SphereIntersection.hasIntersection]
  · exfalso
    have h3 := TolE.of_less he hl
    have h4 : discr c a (b - a) r + ε < 0 := by 
      rw [h2] at h3
      have h5 : 0 < ε * (Spec.dist a b ^ 2 - 1) := mul_pos he (by nlinarith)
      have h6 := mul_nonpos_of_nonneg_of_nonpos (sq_nonneg (Spec.dist a b)) h3
      rw [h1]; linarith
    rw [sphereSegment_eval _ _ _ _ _ he] at h
    dsimp only at h
    rw [if_neg (by rw [TolE.less_false he (by linarith)]; simp), if_pos (TolE.less_true he h4)] at h
    simp [SphereIntersection.hasIntersection] at h

/-- **C139** is false for spheres and short segments: a point is reported for the segment and none for its line. -/
theorem C139_sphere_segment_counterexample (he : 0 < ε) :
    ∃ s : Sphere ℝ, ∃ a b : Vec ℝ 3, a ≠ b ∧ (intersectSphereSegment s ⟨a, b⟩ ε).hasIntersection = true ∧
      (intersectSphereLine s (Line.make a (b - a)) ε).hasIntersection = false := by
  have hs : Real.sqrt (1 + ε) * Real.sqrt (1 + ε) = 1 + ε := Real.mul_self_sqrt (by linarith)
  have hab : (![0, Real.sqrt (1 + ε), 0] : Vec ℝ 3) ≠ ![1 / 4, Real.sqrt (1 + ε), 0] := by
    intro h; have := congrFun h 0; simp at this
  have hba : (![1 / 4, Real.sqrt (1 + ε), 0] : Vec ℝ 3) - ![0, Real.sqrt (1 + ε), 0] = ![1 / 4, 0, 0] := by
    funext i; fin_cases i <;> simp
  have hd : (![1 / 4, 0, 0] : Vec ℝ 3) ≠ 0 := by intro h; have := congrFun h 0; simp at this
  have nn : normalize (![1 / 4, 0, 0] : Vec ℝ 3) = ![1, 0, 0] := by
    have : length (![1 / 4, 0, 0] : Vec ℝ 3) = 1 / 4 := by
      rw [length_eq, Real.sqrt_eq_iff_mul_self_eq (dp_self_nonneg _) (by norm_num)]
      simp [dotProduct, Fin.sum_univ_three]
    rw [normalize_eq, this]
    funext i; fin_cases i <;> simp
  refine ⟨⟨0, 1⟩, _, _, hab, ?_, ?_⟩
  · have hD : discr 0 ![0, Real.sqrt (1 + ε), 0] ![1 / 4, 0, 0] 1 = -(ε / 4) := by
      simp [discr, dotProduct, Fin.sum_univ_three, hs]; ring
    have ht : -(2 * ((![1 / 4, 0, 0] : Vec ℝ 3) ⬝ᵥ (![0, Real.sqrt (1 + ε), 0] - 0))) / 2 * ((![1 / 4, 0, 0] : Vec ℝ 3) ⬝ᵥ ![1 / 4, 0, 0]) = 0 := by
      simp [dotProduct, Fin.sum_univ_three]
    rw [sphereSegment_eval _ _ _ _ _ he, hba]
    dsimp only
    rw [hD, ht, if_neg (by rw [TolE.less_false he (by linarith)]; simp), if_neg (by rw [TolE.less_false he (by linarith)]; simp),
      TolE.less_false (a := (0 : ℝ)) (b := 0) he (by linarith), TolE.less_false (a := (1 : ℝ)) (b := 0) he (by linarith)]
    simp [SphereIntersection.hasIntersection]
  · have hD : discr 0 ![0, Real.sqrt (1 + ε), 0] ![1, 0, 0] 1 = -(4 * ε) := by
      simp [discr, dotProduct, Fin.sum_univ_three, hs]
    rw [hba, Line.make, nn, sphereLine_eval _ _ _ _ _ he, hD, if_neg (by rw [TolE.less_false he (by linarith)]; simp),
      if_pos (TolE.less_true he (by linarith))]
    rfl

/-! ### Distances -/

/-- **C139** (distances of a point) A line is not farther than a ray or segment of it; a ray is not farther than its origin, and by at most `eps` farther than a
segment of it. -/
theorem C139_point_distances {D : ℕ} (dbg : Bool) (v o d : Vec ℝ D) (hd : d ≠ 0) (r : Ray ℝ D) (hr : Ray.make dbg o d = .ok r) :
    distVecLine v (Line.make o d) ≤ distRayVec r v ∧ distRayVec r v ≤ Spec.dist v o ∧
    distVecLine v (Line.make o d) ≤ distSegmentVec ⟨o, o + d⟩ v ∧ distRayVec r v ≤ distSegmentVec ⟨o, o + d⟩ v + eps := by
  have hep := eps_pos (K := ℝ)
  have hL := C20_point_line v o d hd
  have hod : o ≠ o + d := fun e => hd (by simpa using e.symm)
  obtain ⟨m, hm, m1, m2⟩ := C21_point_ray dbg v o d hd r hr
  obtain ⟨w, hw, w1⟩ := C26_upper_partial o (o + d) v hod
  have hseg : ∀ q ∈ Spec.segment o (o + d), q ∈ Spec.ray o d := by
    rintro _ ⟨t, h0, -, rfl⟩
    exact ⟨t, h0, by funext i; simp [Spec.pointAt]⟩
  have hray : ∀ q ∈ Spec.ray o d, q ∈ Spec.line o d := by
    rintro _ ⟨t, -, rfl⟩; exact ⟨t, rfl⟩
  have k1 : distVecLine v (Line.make o d) ≤ m := by
    obtain ⟨p, hp, q, hq, rfl⟩ := hm.1
    exact isDistance_le hL hp (hray q hq)
  have k2 : m ≤ w := by
    obtain ⟨p, hp, q, hq, rfl⟩ := hw.1
    exact isDistance_le hm hp (hseg q hq)
  refine ⟨by linarith, ?_, by linarith, by linarith⟩
  cases Ray.make_eq hr
  have hn := normalize_dp_self hd
  unfold distRayVec
  dsimp only
  split_ifs
  · rw [dist_comm', spec_dist_eq, length_eq, rejection_eq, hn, div_one, vsub_eq, dist_origin_sq v o _ hn]
    exact Real.sqrt_le_sqrt (le_add_of_nonneg_right (sq_nonneg _))
  · rw [length_vsub, dist_comm']

/-- **C139** (line and ray) A line is not farther from a ray than from the ray's origin. -/
theorem C139_line_ray {D : ℕ} (dbg : Bool) (lo d ro e : Vec ℝ D) (hd : d ≠ 0) (r : Ray ℝ D) (hr : Ray.make dbg ro e = .ok r) :
    distLineRay (Line.make lo d) r ≤ distVecLine ro (Line.make lo d) := by
  have hep := eps_pos (K := ℝ)
  cases Ray.make_eq hr
  have hn0 := normalize_ne_zero hd
  unfold distLineRay
  simp only [Line.make]
  rcases hc : closestPointOnLineParameters lo (normalize d) ro (normalize e) with _ | p
  · exact le_refl _
  · dsimp only
    split_ifs
    · exact le_refl _
    · have h1 := (C19_minimum hep _ _ _ _ p hc).1
      obtain ⟨x, hx, q, hq, h2⟩ := (distVecLine_spec ro lo hn0).1
      cases hx
      rw [h2, length_vsub, dist_comm' ro q]
      simp only [vadd_eq, vscale_eq]
      rw [pointAt_eq, pointAt_eq] at h1
      exact isDistance_le h1 hq ⟨0, by rw [pointAt_eq]; simp⟩

/-- **C139** (lines, rays and segments) For lines that are parallel or not nearly parallel: two lines are not farther from each other than the one from a ray on the
other, and for lines that are not nearly parallel the line of a segment is not farther from a ray than the segment. Missing: nearly parallel lines, see
`C139_line_ray_counterexample`. -/
theorem C139_line_distances_partial (dbg : Bool) (hs : (eps : ℝ) < 1) (lo d ro e : Vec ℝ 3) (hd : d ≠ 0) (he : e ≠ 0) (r : Ray ℝ 3) (hr : Ray.make dbg ro e = .ok r) :
    (Spec.Parallel d e ∨ Spec.AngleAbove eps d e → ∃ x, distLineLine dbg (Line.make lo d) (Line.make ro e) = .ok x ∧ |x| ≤ distLineRay (Line.make lo d) r) ∧
    (Spec.AngleAbove eps d e → eps * (∑ i, e i ^ 2) < Spec.gram d e → ∃ x, distSegmentRay ⟨lo, lo + d⟩ r = .ok x ∧ distLineRay (Line.make lo d) r ≤ x) := by
  have hep := eps_pos (K := ℝ)
  constructor
  · intro h
    obtain ⟨x, h1, h2⟩ := C24_partial dbg lo d ro e hd he (h.imp_right fun h => by
      unfold Spec.AngleAbove at h ⊢
      refine lt_of_le_of_lt (mul_le_mul_of_nonneg_right ?_ (by positivity)) h
      nlinarith)
    refine ⟨x, h1, ?_⟩
    obtain ⟨p, hp, q, ⟨t, -, rfl⟩, h3⟩ := (C25_line_ray dbg lo d ro e hd he r hr h).1
    rw [h3]
    exact isDistance_le h2 hp ⟨t, rfl⟩
  · intro h hg
    have e1 : (fun i => (lo + d) i - lo i) = d := by funext i; simp
    obtain ⟨p, ⟨t, -, -, rfl⟩, q, hq, h1⟩ := C27_attained_partial dbg lo (lo + d) ro e he r hr (by rw [e1]; exact hg)
    refine ⟨_, h1, isDistance_le (C25_line_ray dbg lo d ro e hd he r hr (Or.inr h)) ⟨t, ?_⟩ hq⟩
    funext i; simp [Spec.pointAt]

/-- **C139** is false for nearly parallel lines: the distance of a line from a ray is 0 and that from the line of the ray any `l`. -/
theorem C139_line_ray_counterexample (dbg : Bool) (hs : (eps : ℝ) < 1) (l : ℝ) (hl : 0 ≤ l) :
    ∃ lo d ro e : Vec ℝ 3, d ≠ 0 ∧ e ≠ 0 ∧ ∃ r, Ray.make dbg ro e = .ok r ∧ distLineRay (Line.make lo d) r = 0 ∧
      distLineLine dbg (Line.make lo d) (Line.make ro e) = .ok l := by
  have hep := eps_pos (K := ℝ)
  have he : (![1, 0, 0] : Vec ℝ 3) ≠ 0 := by intro h; have := congrFun h 0; simp at this
  have hd : (![1, eps, 0] : Vec ℝ 3) ≠ 0 := by intro h; have := congrFun h 0; simp at this
  have hl1 : length (![1, 0, 0] : Vec ℝ 3) = 1 := by rw [length_eq]; simp [dotProduct, Fin.sum_univ_three]
  have hr := Ray.make_ok (dbg := dbg) (o := 0) (d := (![1, 0, 0] : Vec ℝ 3)) (by rw [hl1]; exact hs)
  refine ⟨![l / eps, l, 0], ![1, eps, 0], 0, ![1, 0, 0], hd, he, _, hr, ?_, nearly_parallel_dist dbg l hl⟩
  refine le_antisymm ?_ ?_
  · refine (C139_line_ray dbg _ _ _ _ hd _ hr).trans (le_of_eq ?_)
    refine (C20_point_line _ _ _ hd).unique (isDistance_of_mem ⟨-(l / eps), ?_⟩)
    rw [pointAt_eq]
    funext i; fin_cases i <;> simp
    field_simp; ring
  · unfold distLineRay
    split
    · dsimp only
      split_ifs <;> exact length_nonneg _
    · exact length_nonneg _

/-- **C139** is false for segments and their ends: a point is at distance 1 from the source of a segment and at distance `l - 1` from the segment. -/
theorem C139_segment_end_counterexample (l : ℝ) (hl : 2 ≤ l) :
    ∃ a b v : Vec ℝ 2, Spec.dist v a = 1 ∧ distSegmentVec ⟨a, b⟩ v = l - 1 := by
  refine ⟨0, ![l, 0], ![1, 0], ?_, ?_⟩
  · rw [spec_dist_eq, Real.sqrt_eq_iff_mul_self_eq (dp_self_nonneg _) (by norm_num)]
    simp [dotProduct, Fin.sum_univ_two]
  · have hl0 : length (![l, 0] - 0 : Vec ℝ 2) = l := by
      rw [length_eq, Real.sqrt_eq_iff_mul_self_eq (dp_self_nonneg _) (by linarith)]
      simp [dotProduct, Fin.sum_univ_two]
    have e1 : (![1, 0] - 0 : Vec ℝ 2) ⬝ᵥ (![l, 0] - 0) / l = 1 := by
      simp [dotProduct, Fin.sum_univ_two]
      linarith
    rw [distSegmentVec_eq, hl0, e1, max_eq_left (by norm_num), min_self, one_smul, spec_dist_eq, Real.sqrt_eq_iff_mul_self_eq (dp_self_nonneg _) (by linarith)]
    simp [dotProduct, Fin.sum_univ_two]; ring
end

section Examples
attribute [local instance] realTol realTol_lawful

theorem ex_len034 : Spec.norm (![0, 3, 4] : Vec ℝ 3) = 5 := by
  rw [spec_norm_eq, length_eq, Real.sqrt_eq_iff_mul_self_eq (dp_self_nonneg _) (by norm_num)]; simp [dotProduct, Fin.sum_univ_three]; norm_num
theorem ex_ray034 : Ray.make true (![0, 0, 0] : Vec ℝ 3) ![0, 3, 4] = .ok ⟨![0, 0, 0], normalize ![0, 3, 4]⟩ :=
  Ray.make_ok (by rw [← spec_norm_eq, ex_len034]; show (1 / 1000 : ℝ) < 5; norm_num)
theorem ex_034_ne : (![0, 3, 4] : Vec ℝ 3) ≠ 0 := by intro h; have := congrFun h 1; simp at this
theorem ex_normZ : Spec.norm (![0, 0, 1] : Vec ℝ 3) = 1 := by rw [spec_norm_eq, length_eq]; simp [dotProduct, Fin.sum_univ_three]
/-- The plane z = 4 and the ray from 0 along (0,3,4). -/
example : intersectPlaneLine (Plane.make (![0, 0, 4] : Vec ℝ 3) ![0, 0, 1]) (Line.make ![0, 0, 0] ![0, 3, 4]) (1 / 1000) = some ![0, 3, 4] :=
  C139_plane_ray true _ _ _ _ ex_ray034 (1 / 1000) ![0, 3, 4] (C34_complete_partial true (by norm_num) ![0, 0, 4] ![0, 0, 1] _ _ ![0, 3, 4] ex_neZ ex_034_ne _ ex_ray034
    (by rw [ex_len034, ex_normZ]; simp [Fin.sum_univ_three]; norm_num) (by simp [Spec.plane, Fin.sum_univ_three])
    ⟨1, by norm_num, by funext i; fin_cases i <;> simp [Spec.pointAt]⟩ (by
      have : Spec.dist (![0, 0, 0] : Vec ℝ 3) ![0, 3, 4] = 5 := by
        rw [spec_dist_eq, Real.sqrt_eq_iff_mul_self_eq (dp_self_nonneg _) (by norm_num)]; simp [dotProduct, Fin.sum_univ_three]; norm_num
      rw [this]; norm_num))
/-- The sphere of radius 5 about 0 and the ray from 0 along (0,3,4). -/
example : ∃ p, (intersectSphereRay ⟨0, 5⟩ ⟨![0, 0, 0], normalize (![0, 3, 4] : Vec ℝ 3)⟩ (1 / 1000)).first = some p ∧
    (intersectSphereLine ⟨0, 5⟩ (Line.make ![0, 0, 0] (![0, 3, 4] : Vec ℝ 3)) (1 / 1000)).first = some p := by
  have hu := normalize_dp_self ex_034_ne
  have hz : (![0, 0, 0] : Vec ℝ 3) - 0 = 0 := by funext i; fin_cases i <;> simp
  have hD : discr 0 ![0, 0, 0] (normalize (![0, 3, 4] : Vec ℝ 3)) 5 = 100 := by
    unfold discr; rw [hz, hu]; simp; norm_num
  have h : (intersectSphereRay ⟨0, 5⟩ ⟨![0, 0, 0], normalize (![0, 3, 4] : Vec ℝ 3)⟩ (1 / 1000)).first = some (Spec.pointAt ![0, 0, 0] (normalize (![0, 3, 4] : Vec ℝ 3)) 5) := by
    rw [sphereRay_eval _ _ _ _ _ (by norm_num), hD, if_pos (TolE.less_true (by norm_num) (by norm_num))]
    have : Real.sqrt 100 = 10 := by rw [Real.sqrt_eq_iff_mul_self_eq (by norm_num) (by norm_num)]; norm_num
    rw [hz, hu, this]
    have e : (-(2 * (normalize (![0, 3, 4] : Vec ℝ 3) ⬝ᵥ 0)) + 10) / (2 * 1) = (5 : ℝ) := by simp; norm_num
    dsimp only
    rw [e, if_neg (by rw [TolE.less_false (by norm_num) (by norm_num)]; simp)]
  exact ⟨_, h, (C139_sphere_ray true _ _ _ _ ex_ray034 _ _).1 h⟩
/-- The plane z = 1 and the segment from 0 to (0,3,4). -/
example := C139_plane_segment_partial (ε := 1 / 1000) (by norm_num) ![0, 0, 1] ![0, 0, 1] ![0, 0, 0] ![0, 3, 4] _ ex_neZ
  (by intro h; have := congrFun h 1; simp at this) (by
    have : (![0, 3, 4] : Vec ℝ 3) - ![0, 0, 0] = ![0, 3, 4] := by funext i; fin_cases i <;> simp
    rw [this, ex_len034, ex_normZ]; simp [Fin.sum_univ_three]; norm_num)
  (C35_complete_partial (by norm_num) _ _ _ _ ex_neZ (1 / 4) (by simp [Spec.norm, Fin.sum_univ_three]; norm_num) (by norm_num) (by norm_num)
    (by simp [Spec.plane, Fin.sum_univ_three]))
example := C139_plane_segment_counterexample (ε := 1 / 1000) (by norm_num) (by norm_num)
/-- The diagonals of the square with corners (0,0) and (2,2). -/
example := C139_segments2_partial (ε := 1 / 1000) true (by norm_num) ![0, 0] ![2, 2] ![0, 2] ![2, 0] ![1, 1]
  (by intro h; have := congrFun h 0; simp at this) (by intro h; have := congrFun h 0; simp at this)
  (by unfold Spec.AngleAbove Spec.gram; simp [Fin.sum_univ_two]; norm_num)
  (C30_complete true (by norm_num) _ _ _ _ _ (by simp; norm_num) ⟨1 / 2, by norm_num, by norm_num, by funext i; fin_cases i <;> simp⟩
    ⟨1 / 2, by norm_num, by norm_num, by funext i; fin_cases i <;> simp; norm_num⟩)
example := C139_segments2_counterexample (ε := 1 / 1000) true (by norm_num)
theorem ex_meet : (![1, 1, 0] : Vec ℝ 3) ∈ Spec.segment ![0, 0, 0] ![2, 2, 0] ∧ (![1, 1, 0] : Vec ℝ 3) ∈ Spec.segment ![0, 2, 0] ![2, 0, 0] :=
  ⟨⟨1 / 2, by norm_num, by norm_num, by funext i; fin_cases i <;> simp⟩, ⟨1 / 2, by norm_num, by norm_num, by funext i; fin_cases i <;> simp; norm_num⟩⟩
theorem ex_segment_line {a b p : Vec ℝ 3} (h : p ∈ Spec.segment a b) : p ∈ Spec.line a (b - a) := by
  obtain ⟨t, -, -, rfl⟩ := h
  exact ⟨t, by funext i; simp [Spec.pointAt]⟩
example := C139_segments3_partial (ε := 1 / 1000) (by norm_num) ![0, 0, 0] ![2, 2, 0] ![0, 2, 0] ![2, 0, 0] ![1, 1, 0]
  (by intro h; have := congrFun h 0; simp at this) (by intro h; have := congrFun h 0; simp at this)
  (by show Spec.AngleAbove (1 / 1000 : ℝ) _ _; unfold Spec.AngleAbove Spec.gram; simp [Fin.sum_univ_three]; norm_num)
  ⟨_, ex_segment_line ex_meet.1, ex_segment_line ex_meet.2⟩
  (C31_closest_partial (by norm_num) _ _ _ _ _ ![1, 1, 0] (by unfold Spec.gram; simp [Fin.sum_univ_three]; norm_num) ex_meet.1 ex_meet.2 (by
    rw [dist_self']
    exact ⟨⟨_, ex_segment_line ex_meet.1, _, ex_segment_line ex_meet.2, (dist_self' _).symm⟩, by
      rintro _ ⟨p, -, q, -, rfl⟩; rw [spec_dist_eq]; exact Real.sqrt_nonneg _⟩))
example := C139_segments3_counterexample (ε := 1 / 1000) (by norm_num) (by norm_num)
/-- The sphere of radius 5 about 0 and the segment from (0,3,0) to (9,3,0). -/
example := C139_sphere_segment_partial (ε := 1 / 1000) (by norm_num) 0 ![0, 3, 0] ![9, 3, 0] 5
  (by rw [spec_dist_eq]; refine Real.lt_sqrt_of_sq_lt ?_; simp [dotProduct, Fin.sum_univ_three]; norm_num)
  ((C38_hasIntersection_partial (by norm_num) 0 ![0, 3, 0] ![9, 3, 0] 5 3 (by intro h; have := congrFun h 0; simp at this) (by norm_num) (by
      have e : (![9, 3, 0] : Vec ℝ 3) - ![0, 3, 0] = ![9, 0, 0] := by funext i; fin_cases i <;> simp
      have e2 : Spec.line ![0, 3, 0] (![9, 0, 0] : Vec ℝ 3) = Spec.line ![0, 3, 0] ![1, 0, 0] := by
        ext x
        constructor
        · rintro ⟨t, rfl⟩; exact ⟨t * 9, by funext i; fin_cases i <;> simp [Spec.pointAt]⟩
        · rintro ⟨t, rfl⟩; exact ⟨t / 9, by funext i; fin_cases i <;> simp [Spec.pointAt]⟩
      rw [e, e2]; exact ex_line_dist) (by
      rw [spec_dist_eq, Real.sq_sqrt (dp_self_nonneg _)]; simp [dotProduct, Fin.sum_univ_three]; norm_num)).1
    ⟨![4, 3, 0], ⟨4 / 9, by norm_num, by norm_num, by funext i; fin_cases i <;> simp⟩, by
      rw [mem_sphere (by norm_num)]; simp [dotProduct, Fin.sum_univ_three]; norm_num⟩)
example := C139_sphere_segment_counterexample (ε := 1 / 1000) (by norm_num)
example := C139_point_distances true ![1, 2, 3] _ _ ex_034_ne _ ex_ray034
example := C139_line_ray true ![1, 2, 3] _ _ _ ex_034_ne _ ex_ray034
example := C139_line_distances_partial true (by show (1 / 1000 : ℝ) < 1; norm_num) ![1, 2, 3] ![1, 0, 0] _ _ ex_x_ne ex_034_ne _ ex_ray034
example : Spec.AngleAbove (eps : ℝ) ![1, 0, 0] ![0, 3, 4] ∧ eps * (∑ i, (![0, 3, 4] : Vec ℝ 3) i ^ 2) < Spec.gram ![1, 0, 0] ![0, 3, 4] := by
  show Spec.AngleAbove (1 / 1000 : ℝ) _ _ ∧ (1 / 1000 : ℝ) * _ < _
  unfold Spec.AngleAbove Spec.gram; simp [Fin.sum_univ_three]; norm_num
example := C139_line_ray_counterexample true (by show (1 / 1000 : ℝ) < 1; norm_num) 1000 (by norm_num)
example := C139_segment_end_counterexample 1000 (by norm_num)
end Examples
end Verif
