import Verif.Props.Intersect
import Verif.Props.Sphere

/-
Property C126: the intersection functions and the distance functions of the library do not contradict each other.
-/
namespace Verif
open Matrix
set_option linter.unusedSectionVars false

theorem dist_self' {D : ℕ} (p : Vec ℝ D) : Spec.dist p p = 0 := by rw [spec_dist_eq, sub_self]; simp

/-- a point of a set has distance zero from it -/
theorem isDistance_of_mem {D : ℕ} {S : Set (Vec ℝ D)} {p : Vec ℝ D} (h : p ∈ S) : Spec.IsDistance {p} S 0 := by
  have := IsDistance_intro (S := {p}) (S' := S) (p := p) (q := p) rfl h (by
    rintro p' _ q' -; rw [sub_self, zero_dotProduct]; exact dp_self_nonneg _)
  rwa [dist_self'] at this

theorem isDistance_le {D : ℕ} {S S' : Set (Vec ℝ D)} {m : ℝ} (h : Spec.IsDistance S S' m) {p q : Vec ℝ D} (hp : p ∈ S)
    (hq : q ∈ S') : m ≤ Spec.dist p q := h.2 ⟨p, hp, q, hq, rfl⟩

theorem le_of_sq_le_sq'' {a b : ℝ} (h : a ^ 2 ≤ b ^ 2) (hb : 0 ≤ b) : a ≤ b := abs_le_of_sq_le_sq' h hb |>.2

section
variable [Tol ℝ] [LawfulTol ℝ]

/-! ### Reported points have distance zero -/

/-- C126: a point reported for two lines in the plane has distance zero from both lines. -/
theorem C126_line2 {ε : ℝ} (hε : 0 < ε) (lo d ro e p : Vec ℝ 2) (hd : d ≠ 0) (he : e ≠ 0)
    (h : intersectLine2 (Line.make lo d) (Line.make ro e) ε = some p) :
    distVecLine p (Line.make lo d) = 0 ∧ distVecLine p (Line.make ro e) = 0 := by
  obtain ⟨h1, h2, -⟩ := C28_sound hε lo d ro e p hd he h
  exact ⟨(C20_point_line p lo d hd).unique (isDistance_of_mem h1), (C20_point_line p ro e he).unique (isDistance_of_mem h2)⟩

/-- C126: a point reported for two lines in space has distance zero from the first line and at most `ε` from the second. -/
theorem C126_line3 {ε : ℝ} (hε : 0 < ε) (lo d ro e p : Vec ℝ 3) (hd : d ≠ 0) (he : e ≠ 0)
    (h : intersectLine3 (Line.make lo d) (Line.make ro e) ε = some p) :
    distVecLine p (Line.make lo d) = 0 ∧ distVecLine p (Line.make ro e) ≤ ε := by
  obtain ⟨h1, q, hq, h2, -⟩ := C29_sound hε lo d ro e p hd he h
  exact ⟨(C20_point_line p lo d hd).unique (isDistance_of_mem h1),
    (isDistance_le (C20_point_line p ro e he) rfl hq).trans h2⟩

/-- C126: a point reported for a plane and a line has distance zero from both. -/
theorem C126_plane_line {ε : ℝ} (hε : 0 < ε) (po n o d p : Vec ℝ 3) (hn : n ≠ 0) (hd : d ≠ 0)
    (h : intersectPlaneLine (Plane.make po n) (Line.make o d) ε = some p) :
    distPlaneVec (Plane.make po n) p = 0 ∧ distVecLine p (Line.make o d) = 0 := by
  obtain ⟨h1, h2, -⟩ := C33_sound hε po n o d p hn hd h
  exact ⟨(C22_point_plane po n p hn).unique (isDistance_of_mem h1), (C20_point_line p o d hd).unique (isDistance_of_mem h2)⟩

/-- C126: a point reported for a plane and a ray has distance zero from the plane and at most `eps` from the ray; zero if the
ray was cut with a tolerance not below `eps`. -/
theorem C126_plane_ray (dbg : Bool) {ε : ℝ} (hε : 0 < ε) (po n o d p : Vec ℝ 3) (hn : n ≠ 0) (hd : d ≠ 0) (r : Ray ℝ 3)
    (hr : Ray.make dbg o d = .ok r) (h : intersectPlaneRay (Plane.make po n) r ε = some p) :
    distPlaneVec (Plane.make po n) p = 0 ∧ distRayVec r p ≤ eps ∧ (eps ≤ ε → distRayVec r p = 0) := by
  obtain ⟨h1, h2⟩ := C34_sound dbg hε po n o d p hn hd r hr h
  refine ⟨(C22_point_plane po n p hn).unique (isDistance_of_mem h1), ?_, fun hle => ?_⟩
  · obtain ⟨m, hm, -, hle⟩ := C21_point_ray dbg p o d hd r hr
    rw [hm.unique (isDistance_of_mem h2)] at hle; linarith
  cases Ray.make_eq hr
  unfold intersectPlaneRay at h
  simp only [TolE.greater_eq hε] at h
  split at h
  · cases h
  split at h
  · rename_i t _ hg
    cases h
    have hu := normalize_dp_self hd
    have e1 : vsub (vadd o (vscale (normalize d) t)) o = t • normalize d := by
      rw [vsub_eq, vadd_eq, vscale_eq, add_sub_cancel_left]
    have hg' : isGreater t 0 = true := by
      rcases hle.lt_or_eq with hlt | heq
      · rw [isGreater_eq]; exact isLess_true (by have := TolE.of_less hε hg; linarith)
      · rw [isGreater_eq]; rw [← heq] at hg; exact hg
    unfold distRayVec
    simp only [e1]
    rw [dot_eq, smul_dotProduct, hu, smul_eq_mul, mul_one, if_pos hg', rejection_eq, smul_dotProduct, hu, smul_eq_mul, mul_one,
      div_one, sub_self, length_eq, zero_dotProduct, Real.sqrt_zero]
  · cases h

/-- C126: points reported for a sphere and a line have distance zero from the line, and from the sphere: exactly zero if two
points are reported, and at most half of the root of the tolerance if the line is taken as touching. -/
theorem C126_sphere_line {ε : ℝ} (hε : 0 < ε) (c o d : Vec ℝ 3) (r : ℝ) (hd : d ≠ 0) (hr : 0 ≤ r) :
    (∀ p q, intersectSphereLine ⟨c, r⟩ (Line.make o d) ε = ⟨some p, some q⟩ → ∀ x, x = p ∨ x = q →
      distVecLine x (Line.make o d) = 0 ∧ distSphere x ⟨c, r⟩ = 0) ∧
    (∀ p, intersectSphereLine ⟨c, r⟩ (Line.make o d) ε = ⟨some p, none⟩ →
      distVecLine p (Line.make o d) = 0 ∧ distSphere p ⟨c, r⟩ ≤ Real.sqrt ε / 2) := by
  obtain ⟨h1, -, h3, -⟩ := C36_reading hε c o d r _ hd hr (C20_point_line c o d hd)
  refine ⟨fun p q h x hx => ?_, fun p h => ?_⟩
  · obtain ⟨ha, hb⟩ := (h1 p q h x).2 hx
    exact ⟨(C20_point_line x o d hd).unique (isDistance_of_mem ha), (C23_point_sphere ⟨c, r⟩ hr x).unique (isDistance_of_mem hb)⟩
  · obtain ⟨ha, hb, hc⟩ := h3 p h
    refine ⟨(C20_point_line p o d hd).unique (isDistance_of_mem ha), ?_⟩
    have hs : distSphere p ⟨c, r⟩ = |Spec.dist c p - r| := by
      unfold distSphere signedDistSphere; rw [stdAbs_eq, length_vsub, dist_comm']
    have h0 := dist_nonneg' c p
    rw [hs, ← hb] at *
    have hsq : |Spec.dist c p - r| ^ 2 ≤ ε / 4 := by
      rw [show Spec.dist c p ^ 2 - r ^ 2 = (Spec.dist c p - r) * (Spec.dist c p + r) by ring, abs_mul,
        abs_of_nonneg (by linarith : 0 ≤ Spec.dist c p + r)] at hc
      have : |Spec.dist c p - r| ≤ Spec.dist c p + r := abs_le.2 ⟨by linarith, by linarith⟩
      nlinarith [abs_nonneg (Spec.dist c p - r)]
    have := Real.le_sqrt_of_sq_le hsq
    rwa [Real.sqrt_div' _ (by norm_num), show Real.sqrt 4 = 2 by
      rw [show (4 : ℝ) = 2 ^ 2 by norm_num, Real.sqrt_sq (by norm_num)]] at this

/-- C126: points reported for a sphere and a ray are near both in the sense of the distance functions. -/
theorem C126_sphere_ray (dbg : Bool) {ε : ℝ} (hε : 0 < ε) (c o d : Vec ℝ 3) (r : ℝ) (hd : d ≠ 0) (hr : 0 ≤ r) (ray : Ray ℝ 3)
    (hray : Ray.make dbg o d = .ok ray) (p : Vec ℝ 3)
    (hp : (intersectSphereRay ⟨c, r⟩ ray ε).first = some p ∨ (intersectSphereRay ⟨c, r⟩ ray ε).second = some p) :
    distRayVec ray p ≤ ε + eps ∧ distSphere p ⟨c, r⟩ ≤ Real.sqrt ε / 2 ∧
      (distVecLine c (Line.make o d) ^ 2 + ε / 4 < r ^ 2 → distSphere p ⟨c, r⟩ = 0) := by
  obtain ⟨⟨t, ht, rfl⟩, hb, hc⟩ := C37_sound dbg hε c o d r _ hd hr ray hray (C20_point_line c o d hd) p hp
  refine ⟨?_, ?_, fun h => (C23_point_sphere ⟨c, r⟩ hr _).unique (isDistance_of_mem (hc h))⟩
  · obtain ⟨m, hm, -, hle⟩ := C21_point_ray dbg (Spec.pointAt o ray.direction t) o d hd ray hray
    have hu := normalize_dp_self hd
    have hdir : ray.direction = normalize d := by cases Ray.make_eq hray; rfl
    refine hle.trans (add_le_add ?_ le_rfl)
    rw [hdir] at hm
    rw [← ray_normalize o hd] at hm
    rcases le_total 0 t with h0 | h0
    · rw [hm.unique (isDistance_of_mem ⟨t, h0, rfl⟩)]; exact hε.le
    · refine (isDistance_le hm rfl ⟨0, le_refl _, rfl⟩).trans ?_
      rw [spec_dist_eq, pointAt_eq, pointAt_eq, zero_smul, add_zero, add_sub_cancel_left, dp_smul_self, hu, mul_one,
        Real.sqrt_sq_eq_abs, abs_of_nonpos h0]
      linarith
  · have hs : distSphere (Spec.pointAt o ray.direction t) ⟨c, r⟩ = |Spec.dist (Spec.pointAt o ray.direction t) c - r| := by
      unfold distSphere signedDistSphere; rw [stdAbs_eq, length_vsub]
    rw [hs]
    have h0 := dist_nonneg' (Spec.pointAt o ray.direction t) c
    generalize Spec.dist (Spec.pointAt o ray.direction t) c = y at *
    have hsq : |y - r| ^ 2 ≤ ε / 4 := by
      rw [show y ^ 2 - r ^ 2 = (y - r) * (y + r) by ring, abs_mul, abs_of_nonneg (by linarith : 0 ≤ y + r)] at hb
      have : |y - r| ≤ y + r := abs_le.2 ⟨by linarith, by linarith⟩
      nlinarith [abs_nonneg (y - r)]
    have := Real.le_sqrt_of_sq_le hsq
    rwa [Real.sqrt_div' _ (by norm_num), show Real.sqrt 4 = 2 by
      rw [show (4 : ℝ) = 2 ^ 2 by norm_num, Real.sqrt_sq (by norm_num)]] at this

/-! ### The answers agree -/

/-- C126: for two lines that are not nearly parallel, `intersect` reports a point exactly when the absolute value of
`distance` is within the tolerance (undecided only at equality). -/
theorem C126_lines_partial (dbg : Bool) {ε : ℝ} (hε : 0 < ε) (hs : (eps : ℝ) < 1) (lo d ro e : Vec ℝ 3) (hd : d ≠ 0) (he : e ≠ 0)
    (hang : Spec.AngleAbove eps d e) :
    ∃ x, distLineLine dbg (Line.make lo d) (Line.make ro e) = .ok x ∧
      (∀ p, intersectLine3 (Line.make lo d) (Line.make ro e) ε = some p → |x| ≤ ε) ∧
      (intersectLine3 (Line.make lo d) (Line.make ro e) ε = none → ε ≤ |x|) := by
  have hep := eps_pos (K := ℝ)
  have hang' : Spec.AngleAbove (eps ^ 2) d e := by
    unfold Spec.AngleAbove at *
    refine lt_of_le_of_lt (mul_le_mul_of_nonneg_right ?_ ?_) hang
    · nlinarith
    · exact mul_nonneg (Finset.sum_nonneg fun _ _ => sq_nonneg _) (Finset.sum_nonneg fun _ _ => sq_nonneg _)
  obtain ⟨x, hx, hD⟩ := C24_partial dbg lo d ro e hd he (Or.inr hang')
  refine ⟨x, hx, fun p h => ?_, fun h => ?_⟩
  · obtain ⟨hp, q, hq, hle, -⟩ := C29_sound hε lo d ro e p hd he h
    exact (isDistance_le hD hp hq).trans hle
  · rcases C29_none hε lo d ro e hd he h with h | ⟨m, hm, hle⟩
    · exact absurd hang h
    · rwa [hD.unique hm]

/-- C126: comparing the distance of the centre from the line with the radius answers the same question as `intersect`. -/
theorem C126_sphere_centre {ε : ℝ} (hε : 0 < ε) (c o d : Vec ℝ 3) (r : ℝ) (hd : d ≠ 0) (hr : 0 ≤ r) :
    (distVecLine c (Line.make o d) ≤ r → (intersectSphereLine ⟨c, r⟩ (Line.make o d) ε).hasIntersection = true) ∧
    ((intersectSphereLine ⟨c, r⟩ (Line.make o d) ε).hasIntersection = true →
      distVecLine c (Line.make o d) ≤ r + Real.sqrt ε / 2) := by
  have hD := C20_point_line c o d hd
  obtain ⟨h1, h2⟩ := C36_hasIntersection hε c o d r _ hd hr hD
  have hn : 0 ≤ distVecLine c (Line.make o d) := length_nonneg _
  refine ⟨fun h => ?_, fun h => ?_⟩
  · by_contra hc
    have hno := h1 (by simpa using hc)
    have hD' : 0 ≤ discr c o d r := by
      rw [discr_eq hd r hD]
      have := dp_self_pos hd
      have : 0 ≤ r ^ 2 - distVecLine c (Line.make o d) ^ 2 := by nlinarith
      positivity
    exact hno _ ⟨_, rfl⟩ ((roots_iff hd hr hD' _).2 (Or.inl rfl))
  · have h := h2 h
    have hq : Real.sqrt ε ^ 2 = ε := Real.sq_sqrt hε.le
    have hp := Real.sqrt_nonneg ε
    refine le_of_sq_le_sq'' ?_ (by linarith)
    nlinarith [mul_nonneg hr hp]

/-! ### Where they contradict each other -/

/-- C126 is false for lines: `intersect` finds no common point although `distance` is negative. -/
theorem C126_sign_counterexample (dbg : Bool) (hs : (eps : ℝ) < 1) {ε : ℝ} (hε : 0 < ε) (hε1 : ε < 1) :
    ∃ lo d ro e : Vec ℝ 3, d ≠ 0 ∧ e ≠ 0 ∧ intersectLine3 (Line.make lo d) (Line.make ro e) ε = none ∧
      distLineLine dbg (Line.make lo d) (Line.make ro e) = .ok (-1) := by
  obtain ⟨lo, d, ro, e, hd, he, hD, h⟩ := C24_counterexample dbg hs
  refine ⟨lo, d, ro, e, hd, he, ?_, h⟩
  rcases h' : intersectLine3 (Line.make lo d) (Line.make ro e) ε with _ | p
  · rfl
  · obtain ⟨hp, q, hq, hle, -⟩ := C29_sound hε lo d ro e p hd he h'
    have := isDistance_le hD hp hq
    linarith

/-- C126 is false for nearly parallel lines: two lines with a common point, at distance zero also by `distance`, for which
`intersect` reports nothing. -/
theorem C126_parallel_counterexample (dbg : Bool) (hs : (eps : ℝ) < 1) (ε : ℝ) :
    ∃ o d e : Vec ℝ 3, d ≠ 0 ∧ e ≠ 0 ∧ ¬ Spec.Parallel d e ∧
      intersectLine3 (Line.make o d) (Line.make o e) ε = none ∧
      distLineLine dbg (Line.make o d) (Line.make o e) = .ok 0 := by
  have hep := eps_pos (K := ℝ)
  have hd : (![1, 0, 0] : Vec ℝ 3) ≠ 0 := by intro h; have := congrFun h 0; simp at this
  have he : (![1, eps, 0] : Vec ℝ 3) ≠ 0 := by intro h; have := congrFun h 0; simp at this
  refine ⟨0, ![1, 0, 0], ![1, eps, 0], hd, he, ?_, ?_, ?_⟩
  · intro h; have := h 0 1; simp at this; linarith
  · unfold intersectLine3 Line.make
    have : closestPointOnLineParameters (0 : Vec ℝ 3) (normalize ![1, 0, 0]) 0 (normalize ![1, eps, 0]) = none := by
      refine (C19_none hep _ _ _ _).2.1 ?_
      have hg := gram_normalize hd he
      have hpos : 0 < ((![1, 0, 0] : Vec ℝ 3) ⬝ᵥ ![1, 0, 0]) * ((![1, eps, 0] : Vec ℝ 3) ⬝ᵥ ![1, eps, 0]) :=
        mul_pos (dp_self_pos hd) (dp_self_pos he)
      have e1 : Spec.gram (![1, 0, 0] : Vec ℝ 3) ![1, eps, 0] = eps ^ 2 := by
        simp [Spec.gram, Fin.sum_univ_three]
      have e2 : ((![1, 0, 0] : Vec ℝ 3) ⬝ᵥ ![1, 0, 0]) * ((![1, eps, 0] : Vec ℝ 3) ⬝ᵥ ![1, eps, 0]) = 1 + eps ^ 2 := by
        simp [dotProduct, Fin.sum_univ_three, sq]
      rw [e1, e2] at hg
      rw [e2] at hpos
      have : Spec.gram (normalize (![1, 0, 0] : Vec ℝ 3)) (normalize ![1, eps, 0]) = eps ^ 2 / (1 + eps ^ 2) := by
        rw [eq_div_iff hpos.ne']; exact hg
      rw [this, div_lt_iff₀ hpos]
      nlinarith [pow_pos hep 3]
    rw [this]
  · rw [distLineLine_ok dbg _ _ _ _ hd he]
    congr 1
    split_ifs
    · exact (C20_point_line 0 0 _ he).unique (isDistance_of_mem ⟨0, by rw [pointAt_eq]; simp⟩)
    · rw [dot_eq, vsub_eq, sub_self, zero_dotProduct, zero_div]

/-- C126 is false for segments: the plane meets the segment in its middle, and `distance` puts that point half of the length of
the segment away from it. -/
theorem C126_segment_counterexample (hs : (eps : ℝ) < 1 / 4) (l : ℝ) (hl : 2 ≤ l) :
    ∃ po n a b p : Vec ℝ 3, n ≠ 0 ∧ Spec.dist a b = l ∧ p ∈ Spec.segment a b ∧
      intersectPlaneSegment (Plane.make po n) ⟨a, b⟩ = some p ∧ distPlaneVec (Plane.make po n) p = 0 ∧
      distSegmentVec ⟨a, b⟩ p = l / 2 := by
  have hep := eps_pos (K := ℝ)
  have hn : (![1, 0, 0] : Vec ℝ 3) ≠ 0 := by intro h; have := congrFun h 0; simp at this
  have hseg : (fun i => (0 : Vec ℝ 3) i + 1 / 2 * ((![l, 0, 0] : Vec ℝ 3) i - (0 : Vec ℝ 3) i)) = ![l / 2, 0, 0] := by
    funext i; fin_cases i <;> simp; ring
  have hp : intersectPlaneSegment (Plane.make ![l / 2, 0, 0] ![1, 0, 0]) ⟨0, ![l, 0, 0]⟩ = some (![l / 2, 0, 0] : Vec ℝ 3) := by
    rw [← hseg]
    refine C35_complete_partial hep _ _ _ _ hn (1 / 2) ?_ (by linarith) (by norm_num) ?_
    · simp [Spec.norm, Fin.sum_univ_three]; rw [abs_of_pos (by linarith)]; linarith
    · rw [hseg]; simp [Spec.plane]
  have hd : Spec.dist (0 : Vec ℝ 3) ![l, 0, 0] = l := by
    simp [Spec.dist, Fin.sum_univ_three]; exact Real.sqrt_sq (by linarith)
  refine ⟨![l / 2, 0, 0], ![1, 0, 0], 0, ![l, 0, 0], _, hn, hd, ⟨1 / 2, by norm_num, by norm_num, hseg.symm⟩, hp, ?_, ?_⟩
  · exact (C22_point_plane _ _ _ hn).unique (isDistance_of_mem (by simp [Spec.plane]))
  · have hlen : length ((![l, 0, 0] : Vec ℝ 3) - 0) = l := by
      rw [← vsub_eq, length_vsub, dist_comm', hd]
    rw [distSegmentVec_eq, hlen]
    have h1 : ((![l / 2, 0, 0] : Vec ℝ 3) - 0) ⬝ᵥ (![l, 0, 0] - 0) / l = l / 2 := by
      simp [dotProduct, Fin.sum_univ_three]; field_simp
    rw [h1, max_eq_left (by linarith), min_eq_right (by linarith)]
    simp [Spec.dist, Fin.sum_univ_three]
    rw [show l / 2 - l = -(l / 2) by ring, neg_sq, Real.sqrt_sq (by linarith)]

/-- C126 is false for a segment and a ray: `intersect` reports a point although `distance` is any given positive number. -/
theorem C126_segment_ray_counterexample (dbg : Bool) (hs : (eps : ℝ) < 1) (h : ℝ) (hh : 0 ≤ h) :
    ∃ a b o e p : Vec ℝ 3, e ≠ 0 ∧ ∃ r, Ray.make dbg o e = .ok r ∧
      intersectSegmentRay ⟨a, b⟩ r = some p ∧ distSegmentRay ⟨a, b⟩ r = .ok h := by
  have hep := eps_pos (K := ℝ)
  have ue : (![0, 1, 0] : Vec ℝ 3) ⬝ᵥ ![0, 1, 0] = 1 := by simp [dotProduct, Fin.sum_univ_three]
  have ne := normalize_of_unit ue
  have hg : Spec.gram ((![1, 0, 0] : Vec ℝ 3) - ![-1, 0, 0]) ![0, 1, 0] = 4 := by
    simp [gram_eq, dotProduct, Fin.sum_univ_three]; norm_num
  obtain ⟨p, h1, ho1, ho2, h3⟩ := segRay_some ![-1, 0, 0] ![1, 0, 0] ![0, -1, h] ![0, 1, 0] (by rw [hg]; linarith)
  simp [dotProduct, Fin.sum_univ_three] at ho1 ho2
  have ht : p.t = 1 / 2 := by linarith
  have hs' : p.s = 1 := by linarith
  refine ⟨![-1, 0, 0], ![1, 0, 0], ![0, -1, h], ![0, 1, 0], ![0, 0, h], ?_, ⟨![0, -1, h], ![0, 1, 0]⟩, ?_, ?_, ?_⟩
  · intro h; have := congrFun h 1; simp at this
  · rw [Ray.make_ok, ne]; rw [length_eq, ue, Real.sqrt_one]; exact hs
  · unfold intersectSegmentRay
    simp only [vsub_eq]
    rw [h1]
    simp only [TolE.greater_eq hep, ht, hs']
    rw [TolE.less_false hep (by linarith), TolE.less_false hep (by linarith), TolE.less_false hep (by linarith)]
    simp only [Bool.or_self, Bool.false_eq_true, if_false, vadd_eq, vscale_eq]
    congr 1; funext i; fin_cases i <;> simp
  · rw [h3, ht, hs']
    unfold calcSegmentPoint calcRayPoint
    norm_num
    rw [spec_dist_eq, ← Real.sqrt_sq hh]; congr 1
    simp [dotProduct, Fin.sum_univ_three, vadd, vscale, vsub]; norm_num [Real.sqrt_sq hh]; ring
end

section Examples
attribute [local instance] realTol realTol_lawful

theorem ex_meet2 : intersectLine2 (Line.make (![0, 0] : Vec ℝ 2) ![1, 0]) (Line.make ![2, 3] ![3, 4]) (1 / 1000) = some ![-1 / 4, 0] := by
  obtain ⟨p, hp⟩ := (C28_complete ex_thousandth ![0, 0] ![1, 0] ![2, 3] ![3, 4] ex_ne2 ex_ne2').1 (by
    unfold Spec.AngleAbove Spec.gram; simp [Fin.sum_univ_two]; norm_num)
  rw [hp, (C28_sound ex_thousandth _ _ _ _ _ ex_ne2 ex_ne2' hp).2.2 ![-1 / 4, 0]
    ⟨-1 / 4, by funext i; fin_cases i <;> simp [Spec.pointAt]⟩ ⟨-3 / 4, by funext i; fin_cases i <;> (simp [Spec.pointAt]; try norm_num)⟩]
theorem ex_angle3 : Spec.AngleAbove (eps : ℝ) (![1, 0, 0] : Vec ℝ 3) ![0, 2, 0] := by
  show Spec.AngleAbove (1 / 1000) _ _; unfold Spec.AngleAbove Spec.gram; simp [Fin.sum_univ_three]; norm_num
theorem ex_meet3 : intersectLine3 (Line.make (![0, 2, 3] : Vec ℝ 3) ![1, 0, 0]) (Line.make ![1, 0, 3] ![0, 2, 0]) (1 / 1000) = some ![1, 2, 3] := by
  refine C29_complete ex_thousandth _ _ _ _ _ ex_neX ex_neY ex_angle3 ⟨1, ?_⟩ ⟨1, ?_⟩
  all_goals funext i; fin_cases i <;> simp [Spec.pointAt]
theorem ex_meetPlane : intersectPlaneLine (Plane.make (![0, 0, 1] : Vec ℝ 3) ![0, 0, 1]) (Line.make ![0, 0, 0] ![0, 3, 4]) (1 / 1000) = some ![0, 3 / 4, 1] := by
  obtain ⟨p, hp⟩ := (C33_complete ex_thousandth ![0, 0, 1] ![0, 0, 1] ![0, 0, 0] ![0, 3, 4] ex_neZ ex_neD).1 ex_slant
  obtain ⟨t, -, ht⟩ := ex_on_ray
  rw [hp, (C33_sound ex_thousandth _ _ _ _ _ ex_neZ ex_neD hp).2.2 _ ex_on_plane ⟨t, ht⟩]

/-- C126: the x axis and a line through (2, 3) meet in (-1/4, 0), at distance zero from both. -/
example : distVecLine (![-1 / 4, 0] : Vec ℝ 2) (Line.make ![2, 3] ![3, 4]) = 0 :=
  (C126_line2 ex_thousandth _ _ _ _ _ ex_ne2 ex_ne2' ex_meet2).2
/-- C126: two lines in space through (1, 2, 3). -/
example : distVecLine (![1, 2, 3] : Vec ℝ 3) (Line.make ![0, 2, 3] ![1, 0, 0]) = 0 :=
  (C126_line3 ex_thousandth _ _ _ _ _ ex_neX ex_neY ex_meet3).1
/-- C126: the plane z = 1 and a slanted line, and the ray along it. -/
example : distPlaneVec (Plane.make (![0, 0, 1] : Vec ℝ 3) ![0, 0, 1]) ![0, 3 / 4, 1] = 0 :=
  (C126_plane_line ex_thousandth _ _ _ _ _ ex_neZ ex_neD ex_meetPlane).1
example : ∃ r, Ray.make true (![0, 0, 0] : Vec ℝ 3) ![0, 3, 4] = .ok r ∧ distRayVec r ![0, 3 / 4, 1] = 0 := by
  obtain ⟨r, hr⟩ := ex_rayD
  have h : intersectPlaneRay (Plane.make (![0, 0, 1] : Vec ℝ 3) ![0, 0, 1]) r (1 / 1000) = some ![0, 3 / 4, 1] := by
    refine C34_complete_partial true ex_thousandth _ _ _ _ _ ex_neZ ex_neD r hr ex_slant ex_on_plane ex_on_ray ?_
    rw [spec_dist_eq]
    have : ((![0, 0, 0] : Vec ℝ 3) - ![0, 3 / 4, 1]) ⬝ᵥ (![0, 0, 0] - ![0, 3 / 4, 1]) = (5 / 4) ^ 2 := by
      simp [dotProduct, Fin.sum_univ_three]; norm_num
    rw [this, Real.sqrt_sq (by norm_num)]; norm_num
  exact ⟨r, hr, (C126_plane_ray true ex_thousandth _ _ _ _ _ ex_neZ ex_neD r hr h).2.2 (le_refl (1 / 1000 : ℝ))⟩
/-- C126: the sphere of radius 2 around the origin and the x axis: the centre is at distance zero from the axis, so there are
points, and they are on both. -/
theorem ex_axis : distVecLine (![0, 0, 0] : Vec ℝ 3) (Line.make ![0, 0, 0] ![1, 0, 0]) = 0 :=
  (C20_point_line _ _ _ ex_neX).unique (isDistance_of_mem ⟨0, by funext i; fin_cases i <;> simp [Spec.pointAt]⟩)
example : (intersectSphereLine ⟨![0, 0, 0], 2⟩ (Line.make (![0, 0, 0] : Vec ℝ 3) ![1, 0, 0]) (1 / 1000)).hasIntersection = true :=
  (C126_sphere_centre ex_thousandth _ _ _ 2 ex_neX (by norm_num)).1 (by rw [ex_axis]; norm_num)
example : ∃ p q, intersectSphereLine ⟨![0, 0, 0], 2⟩ (Line.make (![0, 0, 0] : Vec ℝ 3) ![1, 0, 0]) (1 / 1000) = ⟨some p, some q⟩ ∧
    distSphere p ⟨![0, 0, 0], 2⟩ = 0 := by
  obtain ⟨p, q, h, -⟩ := C36_crossing ex_thousandth ![0, 0, 0] ![0, 0, 0] ![1, 0, 0] 2 _ ex_neX (by norm_num)
    (C20_point_line ![0, 0, 0] ![0, 0, 0] ![1, 0, 0] ex_neX) (by rw [ex_axis]; norm_num)
  exact ⟨p, q, h, ((C126_sphere_line ex_thousandth _ _ _ 2 ex_neX (by norm_num)).1 p q h p (Or.inl rfl)).2⟩
/-- C126: the ray along the axis meets the sphere in (2, 0, 0). -/
example : ∃ r, Ray.make true (![0, 0, 0] : Vec ℝ 3) ![1, 0, 0] = .ok r ∧ distSphere ![2, 0, 0] ⟨![0, 0, 0], 2⟩ = (0 : ℝ) := by
  obtain ⟨r, hr⟩ : ∃ r, Ray.make true (![0, 0, 0] : Vec ℝ 3) ![1, 0, 0] = .ok r := by
    refine ⟨_, Ray.make_ok ?_⟩
    rw [length_eq]; show (1 / 1000 : ℝ) < _; simp [dotProduct, Fin.sum_univ_three]; norm_num
  have hc : distVecLine (![0, 0, 0] : Vec ℝ 3) (Line.make ![0, 0, 0] ![1, 0, 0]) ^ 2 + 1 / 1000 / 4 < (2 : ℝ) ^ 2 := by
    rw [ex_axis]; norm_num
  have hp := C37_complete true ex_thousandth ![0, 0, 0] ![0, 0, 0] ![1, 0, 0] 2 _ ex_neX (by norm_num) r hr
    (C20_point_line ![0, 0, 0] ![0, 0, 0] ![1, 0, 0] ex_neX) (Or.inl hc) ![2, 0, 0]
    ⟨2, by norm_num, by funext i; fin_cases i <;> simp [Spec.pointAt]⟩ (by
      show Spec.dist _ _ = _
      simp [Spec.dist, Fin.sum_univ_three])
  exact ⟨r, hr, (C126_sphere_ray true ex_thousandth _ _ _ 2 ex_neX (by norm_num) r hr _ hp).2.2 hc⟩
/-- C126: the two lines through (1, 2, 3) have distance at most the tolerance. -/
example : ∃ x, distLineLine true (Line.make (![0, 2, 3] : Vec ℝ 3) ![1, 0, 0]) (Line.make ![1, 0, 3] ![0, 2, 0]) = .ok x ∧ |x| ≤ 1 / 1000 := by
  obtain ⟨x, hx, h, -⟩ := C126_lines_partial true ex_thousandth (by show (1 / 1000 : ℝ) < 1; norm_num) ![0, 2, 3] ![1, 0, 0]
    ![1, 0, 3] ![0, 2, 0] ex_neX ex_neY ex_angle3
  exact ⟨x, hx, h _ ex_meet3⟩
example := C126_sign_counterexample true (by show (1 / 1000 : ℝ) < 1; norm_num) ex_thousandth (by norm_num)
example := C126_parallel_counterexample true (by show (1 / 1000 : ℝ) < 1; norm_num) (1 / 1000)
example := C126_segment_counterexample (by show (1 / 1000 : ℝ) < 1 / 4; norm_num) 10 (by norm_num)
example := C126_segment_ray_counterexample true (by show (1 / 1000 : ℝ) < 1; norm_num) 7 (by norm_num)
end Examples
end Verif
