import Verif.Props.FloatAxis
import Verif.Props.FloatDistance

set_option linter.unusedSectionVars false

/-
C162: distances of points to axis-parallel planes, lines and rays in floating point arithmetic.
-/
namespace Verif
open Spec

section
variable {F : FloatFormat} {D : ℕ}

theorem dot_zeros_right (u v : Vec (Fl F) D) (h0 : ∀ i, (v i).1 = 0) : (dot u v).1 = 0 := by
  induction D with
  | zero => rfl
  | succ D ih =>
    rw [dot_succ_last, Fl.val_add, ih _ _ fun i => h0 _, Fl.val_mul, h0]
    simp [F.rounds.zero]

/-- The dot product with a vector along an axis. -/
theorem dot_axis_right (u v : Vec (Fl F) D) (a : Fin D) (h0 : ∀ i, i ≠ a → (v i).1 = 0) : dot u v = u a * v a := by
  apply Fl.ext
  induction D with
  | zero => exact a.elim0
  | succ D ih =>
    rw [dot_succ_last, Fl.val_add]
    rcases Fin.eq_castSucc_or_eq_last a with ⟨b, rfl⟩ | rfl
    · rw [ih (fun i => u i.castSucc) (fun i => v i.castSucc) b fun i hi => h0 _ fun h => hi (Fin.castSucc_injective _ h), Fl.val_mul (u (Fin.last D)),
        h0 (Fin.last D) (Fin.castSucc_lt_last b).ne']
      simp only [mul_zero, F.rounds.zero, add_zero]
      exact F.rounds.exact (u b.castSucc * v b.castSucc).2
    · rw [dot_zeros_right _ _ fun i => h0 _ (Fin.castSucc_lt_last i).ne, zero_add]
      exact F.rounds.exact (u (Fin.last D) * v (Fin.last D)).2

/-- Multiplying by one or minus one is exact. -/
theorem mul_sign (x y : Fl F) (hy : y.1 = 1 ∨ y.1 = -1) : (x * y).1 = x.1 * y.1 := by
  rw [Fl.val_mul]
  rcases hy with h | h <;> rw [h]
  · rw [mul_one]; exact F.rounds.exact x.2
  · rw [mul_neg, mul_one, F.rounds.odd, F.rounds.exact x.2]

/-- The part perpendicular to an axis: the coordinate along the axis is deleted. -/
theorem rejection_axis (u e : Vec (Fl F) D) (a : Fin D) (he : (e a).1 = 1 ∨ (e a).1 = -1) (h0 : ∀ i, i ≠ a → (e i).1 = 0) :
    rejection u e = fun i => if i = a then 0 else u i := by
  have hee : (dot e e).1 = 1 := by
    rw [dot_axis_right e e a h0, mul_sign _ _ he]
    rcases he with h | h <;> rw [h] <;> norm_num
  have hue : (dot u e).1 = (u a).1 * (e a).1 := by rw [dot_axis_right u e a h0, mul_sign _ _ he]
  have hq : (dot u e / dot e e).1 = (u a).1 * (e a).1 := by
    rw [Fl.val_div, hee, div_one, hue, ← mul_sign _ _ he]
    exact F.rounds.exact (u a * e a).2
  funext i
  apply Fl.ext
  show (u i - e i * (dot u e / dot e e)).1 = _
  rw [Fl.val_sub, Fl.val_mul, hq]
  by_cases hi : i = a
  · subst hi
    have hs : (e i).1 * ((u i).1 * (e i).1) = (u i).1 := by
      rcases he with h | h <;> rw [h] <;> ring
    rw [hs, F.rounds.exact (u i).2, sub_self, F.rounds.zero]
    simp [Fl.val_zero]
  · rw [h0 i hi, zero_mul, F.rounds.zero, sub_zero, F.rounds.exact (u i).2, if_neg hi]

/-- The unit vector of C161. -/
theorem normalize_axis {v : Vec (Fl F) D} {a : Fin D} (hne : (v a).1 ≠ 0) (h0 : ∀ i, i ≠ a → (v i).1 = 0)
    (hs : ∀ k, F.emin = some k → k + F.prec ≤ 1 ∧ (2 : ℝ) ^ ((k + F.prec) / 2) ≤ |(v a).1|) :
    ((normalize v a).1 = (v a).1 / |(v a).1|) ∧ ((normalize v a).1 = 1 ∨ (normalize v a).1 = -1) ∧ ∀ i, i ≠ a → (normalize v i).1 = 0 := by
  have h := C161_normalize v a hne h0 hs
  rw [norm_axis (Fl.toReal v) a h0] at h
  have ha : (normalize v a).1 = (v a).1 / |(v a).1| := congrFun h a
  refine ⟨ha, ?_, fun i hi => ?_⟩
  · rw [ha]
    rcases lt_or_gt_of_ne hne with q | q
    · right; rw [abs_of_neg q, div_neg, div_self hne]
    · left; rw [abs_of_pos q, div_self hne]
  · have : (normalize v i).1 = (v i).1 / |(v a).1| := congrFun h i
    rw [this, h0 i hi, zero_div]

/-- **C162** The computed distance of a point and a plane perpendicular to an axis is the correctly rounded distance, for all points however large or
small, and zero exactly for the points of the plane. -/
theorem C162_plane (v o n : Vec (Fl F) 3) (a : Fin 3) (hne : (n a).1 ≠ 0) (h0 : ∀ i, i ≠ a → (n i).1 = 0)
    (hs : ∀ k, F.emin = some k → k + F.prec ≤ 1 ∧ (2 : ℝ) ^ ((k + F.prec) / 2) ≤ |(n a).1|) :
    (∃ δ, IsDistance {Fl.toReal v} (plane (Fl.toReal o) (Fl.toReal n)) δ ∧ (distPlaneVec (Plane.make o n) v).1 = F.rnd δ) ∧
    ((distPlaneVec (Plane.make o n) v).1 = 0 ↔ Fl.toReal v ∈ plane (Fl.toReal o) (Fl.toReal n)) := by
  obtain ⟨-, hsg, hz⟩ := normalize_axis hne h0 hs
  have hval : (distPlaneVec (Plane.make o n) v).1 = |(o a - v a).1| := by
    show (stdAbs (dot (vsub o v) (normalize n))).1 = _
    rw [Fl.val_stdAbs, dot_axis_right _ _ a hz, mul_sign _ _ hsg, abs_mul]
    rcases hsg with h | h <;> rw [h] <;> simp [vsub]
  have hmem : ∀ p : Vec ℝ 3, p ∈ plane (Fl.toReal o) (Fl.toReal n) ↔ p a = (o a).1 := fun p => by
    unfold plane
    rw [Set.mem_ofPred_eq, Finset.sum_eq_single a (fun i _ hi => by
      rw [show Fl.toReal n i = 0 from h0 i hi, mul_zero]) (by simp), mul_eq_zero, or_iff_left (show Fl.toReal n a ≠ 0 from hne), sub_eq_zero]
    rfl
  refine ⟨⟨|(o a).1 - (v a).1|, ⟨⟨Fl.toReal v, rfl, Function.update (Fl.toReal v) a (o a).1, ?_, ?_⟩, ?_⟩, ?_⟩, ?_⟩
  · rw [hmem]; simp
  · have h1 := norm_axis (fun i => Fl.toReal v i - Function.update (Fl.toReal v) a (o a).1 i) a (fun i hi => by
      rw [Function.update_of_ne hi, sub_self])
    refine Eq.trans ?_ h1.symm
    rw [Function.update_self, abs_sub_comm]
    rfl
  · rintro x ⟨p, rfl, q, hq, rfl⟩
    rw [hmem] at hq
    have h1 := coord_le_norm (fun i => Fl.toReal v i - q i) a
    rw [hq, abs_sub_comm] at h1
    exact h1
  · rw [hval]; exact F.rounds.abs _
  · rw [hval, hmem, abs_eq_zero, (Fl.sub_sign _ _).2]
    exact eq_comm

/-- The nearest point of an axis-parallel line. -/
theorem line_axis (v o d : Vec ℝ D) (a : Fin D) (hne : d a ≠ 0) (h0 : ∀ i, i ≠ a → d i = 0) :
    Function.update o a (v a) ∈ line o d ∧ IsDistance {v} (line o d) (Spec.dist v (Function.update o a (v a))) := by
  have hmem : Function.update o a (v a) ∈ line o d := by
    refine ⟨(v a - o a) / d a, ?_⟩
    funext i
    unfold pointAt
    by_cases hi : i = a
    · subst hi; rw [Function.update_self]; field_simp; ring
    · rw [Function.update_of_ne hi, h0 i hi, mul_zero, add_zero]
  refine ⟨hmem, ⟨v, rfl, _, hmem, rfl⟩, ?_⟩
  rintro x ⟨p, rfl, q, ⟨t, rfl⟩, rfl⟩
  refine Real.sqrt_le_sqrt (Finset.sum_le_sum fun i _ => ?_)
  by_cases hi : i = a
  · subst hi
    rw [Function.update_self, sub_self, zero_pow two_ne_zero]
    exact sq_nonneg _
  · rw [Function.update_of_ne hi]
    unfold pointAt
    rw [h0 i hi, mul_zero, add_zero]

theorem vsub_foot (v o : Vec (Fl F) D) (a : Fin D) : vsub (Function.update o a (v a)) v = fun i => if i = a then 0 else vsub o v i := by
  funext i
  by_cases hi : i = a
  · subst hi
    rw [if_pos rfl]
    apply Fl.ext
    show (Function.update o i (v i) i - v i).1 = _
    rw [Function.update_self, Fl.val_zero]
    exact (Fl.sub_sign _ _).2.2 rfl
  · rw [if_neg hi]
    show Function.update o a (v a) i - v i = _
    rw [Function.update_of_ne hi]; rfl

theorem toReal_foot (v o : Vec (Fl F) D) (a : Fin D) : Fl.toReal (Function.update o a (v a)) = Function.update (Fl.toReal o) a (Fl.toReal v a) := by
  funext i
  unfold Fl.toReal
  by_cases hi : i = a
  · subst hi; rw [Function.update_self, Function.update_self]
  · rw [Function.update_of_ne hi, Function.update_of_ne hi]

/-- **C162** The computed distance of a point and an axis-parallel line is the computed length of the segment from the point to the nearest point of the
line: the projection adds no rounding error. So all that is known of computed lengths (C95, C159, C161) applies. -/
theorem C162_line (v o d : Vec (Fl F) D) (a : Fin D) (hne : (d a).1 ≠ 0) (h0 : ∀ i, i ≠ a → (d i).1 = 0)
    (hs : ∀ k, F.emin = some k → k + F.prec ≤ 1 ∧ (2 : ℝ) ^ ((k + F.prec) / 2) ≤ |(d a).1|) :
    ∃ foot : Vec (Fl F) D, Fl.toReal foot ∈ line (Fl.toReal o) (Fl.toReal d) ∧
      IsDistance {Fl.toReal v} (line (Fl.toReal o) (Fl.toReal d)) (Spec.dist (Fl.toReal v) (Fl.toReal foot)) ∧
      distVecLine v (Line.make o d) = (⟨v, foot⟩ : Segment (Fl F) D).length := by
  obtain ⟨-, hsg, hz⟩ := normalize_axis hne h0 hs
  obtain ⟨h1, h2⟩ := line_axis (Fl.toReal v) (Fl.toReal o) (Fl.toReal d) a hne h0
  rw [← toReal_foot] at h1 h2
  refine ⟨Function.update o a (v a), h1, h2, ?_⟩
  show length (rejection (vsub o v) (normalize d)) = length (vsub (Function.update o a (v a)) v)
  rw [rejection_axis _ _ a hsg hz, vsub_foot]

/-- **C162** The distance of a point and an axis-parallel line has a small *relative* error, wherever the line was said to start. -/
theorem C162_line_accurate (v o d : Vec (Fl F) D) (a : Fin D) (hne : (d a).1 ≠ 0) (h0 : ∀ i, i ≠ a → (d i).1 = 0)
    (hs : ∀ k, F.emin = some k → k + F.prec ≤ 1 ∧ (2 : ℝ) ^ ((k + F.prec) / 2) ≤ |(d a).1|) (hD : 64 * (D + 2) ≤ 2 ^ F.prec) (δ : ℝ)
    (hδ : IsDistance {Fl.toReal v} (line (Fl.toReal o) (Fl.toReal d)) δ) (hδ0 : 0 < δ)
    (hsmall : ∀ k, F.emin = some k → k ≤ -2 * (F.prec : ℤ) ∧ (2 : ℝ) ^ ((k + 1) / 2) ≤ (2 : ℝ)⁻¹ ^ F.prec * δ) :
    |(distVecLine v (Line.make o d)).1 - δ| ≤ (D + 4) * (2 : ℝ)⁻¹ ^ F.prec * δ := by
  obtain ⟨foot, -, h2, h3⟩ := C162_line v o d a hne h0 hs
  have e : δ = Spec.dist (Fl.toReal foot) (Fl.toReal v) := by rw [hδ.unique h2, dist_comm']
  rw [h3]
  subst e
  exact C95_length ⟨v, foot⟩ hD hδ0 hsmall

/-- **C162** Points of an axis-parallel line have the computed distance zero. -/
theorem C162_line_zero (v o d : Vec (Fl F) D) (a : Fin D) (hne : (d a).1 ≠ 0) (h0 : ∀ i, i ≠ a → (d i).1 = 0)
    (hs : ∀ k, F.emin = some k → k + F.prec ≤ 1 ∧ (2 : ℝ) ^ ((k + F.prec) / 2) ≤ |(d a).1|)
    (hv : Fl.toReal v ∈ line (Fl.toReal o) (Fl.toReal d)) : (distVecLine v (Line.make o d)).1 = 0 := by
  obtain ⟨foot, -, h2, h3⟩ := C162_line v o d a hne h0 hs
  have hle : Spec.dist (Fl.toReal v) (Fl.toReal foot) ≤ 0 := h2.2 ⟨_, rfl, _, hv, by simp [Spec.dist]⟩
  have heq := eq_of_dist_le_zero' hle
  rw [h3]
  show (HasSqrt.sqrt (dot (vsub foot v) (vsub foot v))).1 = 0
  rw [Fl.val_sqrt, dot_zeros (vsub foot v) fun i => (Fl.sub_sign _ _).2.2 (congrFun heq i).symm, Real.sqrt_zero, F.rounds.zero]

/-- **C162** In the plane the distance of a point and an axis-parallel line is correctly rounded. -/
theorem C162_line_plane (v o d : Vec (Fl F) 2) (a : Fin 2) (hne : (d a).1 ≠ 0) (h0 : ∀ i, i ≠ a → (d i).1 = 0)
    (hs : ∀ k, F.emin = some k → k + F.prec ≤ 1 ∧ (2 : ℝ) ^ ((k + F.prec) / 2) ≤ |(d a).1|) (δ : ℝ)
    (hδ : IsDistance {Fl.toReal v} (line (Fl.toReal o) (Fl.toReal d)) δ)
    (hsmall : δ = 0 ∨ ∀ k, F.emin = some k → (2 : ℝ) ^ ((k + F.prec) / 2) ≤ δ) :
    (distVecLine v (Line.make o d)).1 = F.rnd δ := by
  obtain ⟨hmem, h2⟩ := line_axis (Fl.toReal v) (Fl.toReal o) (Fl.toReal d) a hne h0
  rcases eq_or_ne δ 0 with rfl | hδ0
  · rw [F.rounds.zero]
    refine C162_line_zero v o d a hne h0 hs ?_
    rw [eq_of_dist_le_zero' (hδ.unique h2).symm.le]
    exact hmem
  replace hsmall := hsmall.resolve_left hδ0
  obtain ⟨-, hsg, hz⟩ := normalize_axis hne h0 hs
  obtain ⟨b, hb⟩ : ∃ b : Fin 2, ∀ i, i ≠ b ↔ i = a := by
    fin_cases a
    · exact ⟨1, by decide⟩
    · exact ⟨0, by decide⟩
  have hba : b ≠ a := fun h => (hb b).2 h rfl
  have hδv : δ = |(o b).1 - (v b).1| := by
    rw [hδ.unique h2]
    have h1 := norm_axis (fun i => Fl.toReal v i - Function.update (Fl.toReal o) a (Fl.toReal v a) i) b (fun i hi => by
      rw [(hb i).1 hi, Function.update_self, sub_self])
    rw [Function.update_of_ne hba, abs_sub_comm] at h1
    exact h1
  have hseg := C161_segment (⟨v, Function.update o a (v a)⟩ : Segment (Fl F) 2) b
    (by
      show (v b).1 ≠ (Function.update o a (v a) b).1
      rw [Function.update_of_ne hba]
      intro h
      exact hδ0 (by rw [hδv, h, sub_self, abs_zero]))
    (fun i hi => by
      show (v i).1 = (Function.update o a (v a) i).1
      rw [(hb i).1 hi, Function.update_self])
    (fun k hk => ⟨(hs k hk).1, by
      show _ ≤ |(Function.update o a (v a) b).1 - (v b).1|
      rw [Function.update_of_ne hba, ← hδv]
      exact hsmall k hk⟩)
  have he : Spec.dist (Fl.toReal (Function.update o a (v a))) (Fl.toReal v) = δ := by
    rw [toReal_foot, dist_comm']; exact h2.unique hδ
  have h3 : distVecLine v (Line.make o d) = (⟨v, Function.update o a (v a)⟩ : Segment (Fl F) 2).length := by
    show length (rejection (vsub o v) (normalize d)) = length (vsub (Function.update o a (v a)) v)
    rw [rejection_axis _ _ a hsg hz, vsub_foot]
  rw [h3]
  refine hseg.1.trans ?_
  exact congrArg F.rnd he

/-- **C162** The computed distance of a point and an axis-parallel ray is the computed length of the segment between the point and the nearest point of
the ray, if the comparison with zero is right for this point. -/
theorem C162_ray [Tol (Fl F)] (dbg : Bool) (v o d : Vec (Fl F) D) (a : Fin D) (r : Ray (Fl F) D) (hr : Ray.make dbg o d = .ok r) (hne : (d a).1 ≠ 0)
    (h0 : ∀ i, i ≠ a → (d i).1 = 0) (hs : ∀ k, F.emin = some k → k + F.prec ≤ 1 ∧ (2 : ℝ) ^ ((k + F.prec) / 2) ≤ |(d a).1|)
    (τ : Fl F) (hτ : 0 < τ.1) (hgt : ∀ x : Fl F, τ.1 ≤ x.1 → isGreater x 0 = true) (hle : ∀ x : Fl F, x.1 ≤ 0 → isGreater x 0 = false)
    (hv : ((v a).1 - (o a).1) * ((d a).1 / |(d a).1|) ≤ 0 ∨ τ.1 ≤ ((v a).1 - (o a).1) * ((d a).1 / |(d a).1|)) :
    ∃ near : Vec (Fl F) D, Fl.toReal near ∈ ray (Fl.toReal o) (Fl.toReal d) ∧
      IsDistance {Fl.toReal v} (ray (Fl.toReal o) (Fl.toReal d)) (Spec.dist (Fl.toReal v) (Fl.toReal near)) ∧
      (distRayVec r v = (⟨v, near⟩ : Segment (Fl F) D).length ∨ distRayVec r v = (⟨near, v⟩ : Segment (Fl F) D).length) := by
  obtain ⟨hval, hsg, hz⟩ := normalize_axis hne h0 hs
  have hr' : r = ⟨o, normalize d⟩ := by
    unfold Ray.make at hr
    cases hdbg : dbg <;> simp only [hdbg, geoAssert] at hr
    · cases hr; rfl
    · split at hr
      · cases hr
      · cases hr; rfl
  subst hr'
  have hσ : (d a).1 / |(d a).1| = 1 ∨ (d a).1 / |(d a).1| = -1 := by rw [← hval]; exact hsg
  have hdσ : 0 < (d a).1 * ((d a).1 / |(d a).1|) := by
    rw [← mul_div_assoc]
    exact div_pos (mul_self_pos.2 hne) (abs_pos.2 hne)
  set σ := (d a).1 / |(d a).1| with hσd
  have hdot : (dot (vsub v o) (normalize d)).1 = F.rnd (((v a).1 - (o a).1) * σ) := by
    rw [dot_axis_right _ _ a hz, mul_sign _ _ hsg, hval]
    show F.rnd ((v a).1 - (o a).1) * σ = _
    rcases hσ with h | h <;> rw [h]
    · rw [mul_one, mul_one]
    · rw [mul_neg, mul_one, mul_neg, mul_one, F.rounds.odd]
  have hpoint : ∀ t i, pointAt (Fl.toReal o) (Fl.toReal d) t i = if i = a then (o a).1 + t * (d a).1 else (o i).1 := fun t i => by
    unfold pointAt
    by_cases hi : i = a
    · subst hi; rw [if_pos rfl]; rfl
    · rw [if_neg hi, show Fl.toReal d i = 0 from h0 i hi, mul_zero, add_zero]; rfl
  rcases hv with hv | hv
  · -- behind the origin
    have hgr : isGreater (dot (vsub v o) (normalize d)) 0 = false := hle _ (by
      rw [hdot, ← F.rounds.zero]; exact F.rounds.mono hv)
    have hmem : Fl.toReal o ∈ ray (Fl.toReal o) (Fl.toReal d) := ⟨0, le_rfl, by funext i; simp [pointAt]⟩
    refine ⟨o, hmem, ⟨⟨_, rfl, _, hmem, rfl⟩, ?_⟩, .inl ?_⟩
    · rintro x ⟨p, rfl, q, ⟨t, ht, rfl⟩, rfl⟩
      refine Real.sqrt_le_sqrt (Finset.sum_le_sum fun i _ => ?_)
      rw [hpoint]
      by_cases hi : i = a
      · subst hi
        rw [if_pos rfl]
        show ((v i).1 - (o i).1) ^ 2 ≤ ((v i).1 - ((o i).1 + t * (d i).1)) ^ 2
        have hσ2 : σ * σ = 1 := by rcases hσ with h | h <;> rw [h] <;> norm_num
        have h1 : ((v i).1 - (o i).1) * (d i).1 ≤ 0 := by
          have e1 : ((v i).1 - (o i).1) * (d i).1 = (((v i).1 - (o i).1) * σ) * ((d i).1 * σ) := by
            linear_combination (-(((v i).1 - (o i).1) * (d i).1)) * hσ2
          rw [e1]
          exact mul_nonpos_of_nonpos_of_nonneg hv hdσ.le
        have h2 := mul_nonneg ht (neg_nonneg.2 h1)
        nlinarith [sq_nonneg (t * (d i).1)]
      · rw [if_neg hi]; rfl
    · show length (if isGreater (dot (vsub v o) (normalize d)) 0 then rejection (vsub v o) (normalize d) else vsub o v) = length (vsub o v)
      rw [hgr]; rfl
  · have hgr : isGreater (dot (vsub v o) (normalize d)) 0 = true := hgt _ (by
      rw [hdot]; exact F.rounds.le_of τ.2 hv)
    have hmem : Fl.toReal (Function.update o a (v a)) ∈ ray (Fl.toReal o) (Fl.toReal d) := by
      refine ⟨((v a).1 - (o a).1) / (d a).1, ?_, ?_⟩
      · have hσ2 : σ * σ = 1 := by rcases hσ with h | h <;> rw [h] <;> norm_num
        have e1 : ((v a).1 - (o a).1) / (d a).1 = (((v a).1 - (o a).1) * σ) / ((d a).1 * σ) := by
          have : σ ≠ 0 := by rcases hσ with h | h <;> rw [h] <;> norm_num
          rw [mul_div_mul_right _ _ this]
        rw [e1]
        exact div_nonneg (hτ.le.trans hv) hdσ.le
      · funext i
        rw [hpoint, toReal_foot]
        by_cases hi : i = a
        · subst hi
          rw [if_pos rfl, Function.update_self, div_mul_cancel₀ _ hne]
          show (v i).1 = _
          ring
        · rw [if_neg hi, Function.update_of_ne hi]; rfl
    refine ⟨Function.update o a (v a), hmem, ⟨⟨_, rfl, _, hmem, rfl⟩, ?_⟩, .inr ?_⟩
    · have h2 := (line_axis (Fl.toReal v) (Fl.toReal o) (Fl.toReal d) a hne h0).2
      rw [← toReal_foot] at h2
      rintro x ⟨p, hp, q, ⟨t, -, hq⟩, hx⟩
      exact h2.2 ⟨p, hp, q, ⟨t, hq⟩, hx⟩
    · show length (if isGreater (dot (vsub v o) (normalize d)) 0 then rejection (vsub v o) (normalize d) else vsub o v)
        = length (vsub v (Function.update o a (v a)))
      rw [hgr, if_pos rfl, rejection_axis _ _ a hsg hz]
      congr 1
      funext i
      by_cases hi : i = a
      · subst hi
        rw [if_pos rfl]
        apply Fl.ext
        show _ = (v i - Function.update o i (v i) i).1
        rw [Function.update_self, Fl.val_zero]
        exact ((Fl.sub_sign _ _).2.2 rfl).symm
      · rw [if_neg hi]
        show _ = v i - Function.update o a (v a) i
        rw [Function.update_of_ne hi]; rfl
end

section Examples

theorem third64_facts (c : ℤ) (hc : |c| < 2 ^ 53) (hc0 : c ≠ 0) : ((p64 0 0 c (by norm_num) (by norm_num) hc) 2).1 ≠ 0 ∧
    (∀ i, i ≠ 2 → ((p64 0 0 c (by norm_num) (by norm_num) hc) i).1 = 0) ∧ 1 ≤ |((p64 0 0 c (by norm_num) (by norm_num) hc) 2).1| := by
  have h1 : ((p64 0 0 c (by norm_num) (by norm_num) hc) 2).1 = c := by simp [p64, fl64_val]
  refine ⟨by rw [h1]; exact_mod_cast hc0, ?_, ?_⟩
  · intro i hi
    fin_cases i
    · simp [p64, fl64_val]
    · simp [p64, fl64_val]
    · exact absurd rfl hi
  · rw [h1]; exact_mod_cast Int.one_le_abs hc0

/-- The point (1, 2, 9) and the plane through (5, 6, 3) with normal (0, 0, -7). -/
example : ∃ δ, IsDistance {Fl.toReal (p64 1 2 9)} (plane (Fl.toReal (p64 5 6 3)) (Fl.toReal (p64 0 0 (-7)))) δ ∧
    (distPlaneVec (Plane.make (p64 5 6 3) (p64 0 0 (-7))) (p64 1 2 9)).1 = binary64.rnd δ := by
  obtain ⟨h1, h2, h3⟩ := third64_facts (-7) (by norm_num) (by norm_num)
  exact (C162_plane (p64 1 2 9) (p64 5 6 3) (p64 0 0 (-7)) 2 h1 h2 (axis_small64 h3)).1

/-- A point of that plane. -/
example : (distPlaneVec (Plane.make (p64 5 6 3) (p64 0 0 (-7))) (p64 1 2 3)).1 = 0 := by
  obtain ⟨h1, h2, h3⟩ := third64_facts (-7) (by norm_num) (by norm_num)
  refine (C162_plane (p64 1 2 3) (p64 5 6 3) (p64 0 0 (-7)) 2 h1 h2 (axis_small64 h3)).2.2 ?_
  rw [p64_real, p64_real, p64_real]
  show ∑ i, _ = _
  simp [Fin.sum_univ_three]

/-- The point (3, 4, 1000) and the line along (0, 0, 5) through (0, 0, -70000): nearest point and relative accuracy. -/
example : |(distVecLine (p64 3 4 1000) (Line.make (p64 0 0 (-70000)) (p64 0 0 5))).1 - 5| ≤ 7 * (2 : ℝ)⁻¹ ^ 53 * 5 := by
  obtain ⟨h1, h2, h3⟩ := third64_facts 5 (by norm_num) (by norm_num)
  have hδ := (line_axis (Fl.toReal (p64 3 4 1000)) (Fl.toReal (p64 0 0 (-70000))) (Fl.toReal (p64 0 0 5)) 2 h1 h2).2
  have e : Spec.dist (Fl.toReal (p64 3 4 1000)) (Function.update (Fl.toReal (p64 0 0 (-70000))) 2 (Fl.toReal (p64 3 4 1000) 2)) = 5 := by
    rw [p64_real, p64_real]
    unfold Spec.dist
    rw [Real.sqrt_eq_iff_mul_self_eq (Finset.sum_nonneg fun i _ => sq_nonneg _) (by norm_num)]
    simp [Fin.sum_univ_three, Function.update]
    norm_num
  rw [e] at hδ
  have := C162_line_accurate (p64 3 4 1000) (p64 0 0 (-70000)) (p64 0 0 5) 2 h1 h2 (axis_small64 h3) (by show 64 * (3 + 2) ≤ 2 ^ 53; norm_num) 5 hδ
    (by norm_num) (fun k hk => by
      cases hk
      refine ⟨by decide, ?_⟩
      show (2 : ℝ) ^ ((-1074 + 1 : ℤ) / 2) ≤ (2 : ℝ)⁻¹ ^ 53 * 5
      refine le_trans (zpow_le_zpow_right₀ (by norm_num) (show ((-1074 + 1 : ℤ) / 2) ≤ -53 by decide)) ?_
      norm_num)
  push_cast at this
  refine this.trans (le_of_eq ?_)
  norm_num [show binary64.prec = 53 from rfl]

/-- A point of the line. -/
example : (distVecLine (p64 3 4 1000) (Line.make (p64 3 4 (-70000)) (p64 0 0 5))).1 = 0 := by
  obtain ⟨h1, h2, h3⟩ := third64_facts 5 (by norm_num) (by norm_num)
  refine C162_line_zero _ _ _ 2 h1 h2 (axis_small64 h3) ⟨14200, ?_⟩
  rw [p64_real, p64_real, p64_real]
  funext i
  fin_cases i <;> norm_num [pointAt]

/-- A point on the line, with the nearest point. -/
example : ∃ foot, Fl.toReal foot ∈ line (Fl.toReal (p64 1 1 1)) (Fl.toReal (p64 0 0 5)) ∧
    distVecLine (p64 3 4 7) (Line.make (p64 1 1 1) (p64 0 0 5)) = (⟨p64 3 4 7, foot⟩ : Segment (Fl binary64) 3).length := by
  obtain ⟨h1, h2, h3⟩ := third64_facts 5 (by norm_num) (by norm_num)
  obtain ⟨foot, q1, -, q2⟩ := C162_line (p64 3 4 7) (p64 1 1 1) (p64 0 0 5) 2 h1 h2 (axis_small64 h3)
  exact ⟨foot, q1, q2⟩

/-- The point (4, 9) and the line through (1, 2) along the first axis. -/
example : (distVecLine ![fl64 4, fl64 9] (Line.make ![fl64 1, fl64 2] ![fl64 (-3), fl64 0])).1 = binary64.rnd 7 := by
  have h1 : ((![fl64 (-3), fl64 0] : Vec (Fl binary64) 2) 0).1 = -3 := by simp [fl64_val]
  have h0 : ∀ i, i ≠ 0 → ((![fl64 (-3), fl64 0] : Vec (Fl binary64) 2) i).1 = 0 := by
    intro i hi
    fin_cases i
    · exact absurd rfl hi
    · simp [fl64_val]
  have hδ := (line_axis (Fl.toReal ![fl64 4, fl64 9]) (Fl.toReal ![fl64 1, fl64 2]) (Fl.toReal ![fl64 (-3), fl64 0]) 0
    (by rw [show Fl.toReal ![fl64 (-3), fl64 0] 0 = _ from h1]; norm_num) h0).2
  have e : Spec.dist (Fl.toReal ![fl64 4, fl64 9]) (Function.update (Fl.toReal ![fl64 1, fl64 2]) 0 (Fl.toReal ![fl64 4, fl64 9] 0)) = 7 := by
    unfold Spec.dist
    rw [Real.sqrt_eq_iff_mul_self_eq (Finset.sum_nonneg fun i _ => sq_nonneg _) (by norm_num)]
    simp [Fin.sum_univ_two, Function.update, Fl.toReal, fl64_val]
    norm_num
  rw [e] at hδ
  refine C162_line_plane _ _ _ 0 (by rw [h1]; norm_num) h0 (axis_small64 (by rw [h1]; norm_num)) 7 hδ (.inr fun k hk => ?_)
  have := (axis_small64 (x := 7) (by norm_num) k hk).2
  rwa [abs_of_pos (by norm_num)] at this

/-- The point (3, 4, 7) and the ray from (1, 1, 1) along (0, 0, 5). -/
example : ∃ r near, @Ray.make (Fl binary64) 3 _ _ _ _ _ tol64 _ _ true (p64 1 1 1) (p64 0 0 5) = .ok r ∧
    IsDistance {Fl.toReal (p64 3 4 7)} (ray (Fl.toReal (p64 1 1 1)) (Fl.toReal (p64 0 0 5))) (Spec.dist (Fl.toReal (p64 3 4 7)) (Fl.toReal near)) ∧
    (@distRayVec (Fl binary64) 3 _ _ _ _ _ _ tol64 r (p64 3 4 7) = (⟨p64 3 4 7, near⟩ : Segment (Fl binary64) 3).length ∨
      @distRayVec (Fl binary64) 3 _ _ _ _ _ _ tol64 r (p64 3 4 7) = (⟨near, p64 3 4 7⟩ : Segment (Fl binary64) 3).length) := by
  obtain ⟨h1, h2, h3⟩ := third64_facts 5 (by norm_num) (by norm_num)
  obtain ⟨-, -, r, hr, -, -⟩ := @C161_make binary64 3 tol64 true (p64 1 1 1) (p64 0 0 5) 2 h1 h2 (axis_small64 h3)
    (lt_of_le_of_lt (binary64.rounds.of_le binary64.one_mem (show (1 / 10 ^ 6 : ℝ) ≤ 1 by norm_num)) (by simp [p64, fl64_val]))
  obtain ⟨near, -, q1, q2⟩ := @C162_ray binary64 3 tol64 true (p64 3 4 7) (p64 1 1 1) (p64 0 0 5) 2 r hr h1 h2 (axis_small64 h3) (fl64 1)
    (by rw [fl64_val]; norm_num)
    (fun x hx => by
      rw [fl64_val] at hx
      show decide ((0 : Fl binary64).1 < x.1 - 1 / 10 ^ 6) = true
      rw [Fl.val_zero, decide_eq_true_eq]
      push_cast at hx
      linarith)
    (fun x hx => by
      show decide ((0 : Fl binary64).1 < x.1 - 1 / 10 ^ 6) = false
      rw [Fl.val_zero, decide_eq_false_iff_not]
      linarith)
    (.inr (by
      have e1 : ((p64 3 4 7) 2).1 = 7 := by simp [p64, fl64_val]
      have e2 : ((p64 1 1 1) 2).1 = 1 := by simp [p64, fl64_val]
      have e3 : ((p64 0 0 5) 2).1 = 5 := by simp [p64, fl64_val]
      rw [e1, e2, e3, fl64_val]; norm_num))
  exact ⟨r, near, hr, q1, q2⟩
end Examples
end Verif
