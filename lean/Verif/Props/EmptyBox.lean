import Verif.Props.AABB
import Verif.Props.RayBox

set_option linter.unusedSectionVars false

/-
C123: the empty box (`AABB()`, `AABB.hpp:27-31`) as the empty set: what holds and what does not.
-/
namespace Verif

section
variable {K : Type*} [Field K] [LinearOrder K] [IsStrictOrderedRing K] [Tol K] [LawfulTol K] {D : ℕ}

theorem isEmpty_iff (b : AABB K D) : b.isEmpty = true ↔ ∃ i, isLess (b.max i) (b.min i) = true := by
  unfold AABB.isEmpty
  rw [Bool.not_eq_true', forallFin_false_iff]
  simp [isGreater_eq]

theorem isLess_mono {a b a' b' : K} (h : isLess a b = true) (ha : a' ≤ a) (hb : b ≤ b') : isLess a' b' = true := by
  have h1 := of_isLess h
  rcases ha.eq_or_lt with rfl | ha
  · rcases hb.eq_or_lt with rfl | hb
    · exact h
    · exact isLess_true (by linarith)
  · exact isLess_true (by linarith)

theorem not_has_of_empty {b : AABB K D} (h : b.isEmpty = true) : ¬ ∃ p, b.Has 0 p := fun hp => by
  rw [(C13_empty b).1 hp] at h; cases h

/-- **C123** (what holds) Intersecting two boxes of which one is empty, in a release build, gives an empty box. -/
theorem C123_intersect_partial (l r : AABB K D) (h2 : (eps : K) < 2) (h : l.isEmpty = true ∨ r.isEmpty = true) :
    ∃ b, aabbIntersect false l r = .ok b ∧ b.isEmpty = true ∧ ¬ ∃ p, b.Has 0 p := by
  have hD : 0 < D := by
    rcases h with h | h <;> obtain ⟨i, _⟩ := (isEmpty_iff _).1 h <;> exact i.pos
  unfold aabbIntersect
  split
  · refine ⟨⟨fun i => stdMax (l.min i) (r.min i), fun i => stdMin (l.max i) (r.max i)⟩, rfl, ?_⟩
    have he : (AABB.mk (fun i => stdMax (l.min i) (r.min i)) (fun i => stdMin (l.max i) (r.max i))).isEmpty = true := by
      rw [isEmpty_iff]
      rcases h with h | h <;> obtain ⟨i, hi⟩ := (isEmpty_iff _).1 h
      · exact ⟨i, by simp only [stdMax_eq, stdMin_eq]; exact isLess_mono hi (min_le_left _ _) (le_max_left _ _)⟩
      · exact ⟨i, by simp only [stdMax_eq, stdMin_eq]; exact isLess_mono hi (min_le_right _ _) (le_max_right _ _)⟩
    exact ⟨he, not_has_of_empty he⟩
  · have he := (C12_default_invalid (K := K) hD h2).2
    exact ⟨_, rfl, he, not_has_of_empty he⟩

/-- **C123** (what holds) The common part of two valid boxes that do not intersect is empty. -/
theorem C123_disjoint (dbg : Bool) (l r : AABB K D) (h2 : (eps : K) < 2) (hl : l.isValid = true) (hr : r.isValid = true)
    (h : aabbIsIntersecting l r = false) :
    ∃ b, aabbIntersect dbg l r = .ok b ∧ b.isEmpty = true ∧ ¬ ∃ p, b.Has 0 p := by
  have hD : 0 < D := by
    unfold aabbIsIntersecting at h
    rw [forallFin_false_iff] at h
    obtain ⟨i, _⟩ := h
    exact i.pos
  have he := (C12_default_invalid (K := K) hD h2).2
  refine ⟨AABB.default, ?_, he, not_has_of_empty he⟩
  rw [aabbIntersect_eq dbg l r hl hr, h]
  rfl

/-- **C123** (what holds) A box that is empty along an axis does not intersect a box that ends inside of the gap along this axis. -/
theorem C123_box_partial (b r : AABB K D) (i : Fin D) (h : r.max i ≤ b.min i ∨ b.max i ≤ r.min i) :
    aabbIsIntersecting b r = false ∧ aabbIsIntersecting r b = false := by
  have h1 : aabbIsIntersecting b r = false := by
    rw [← Bool.not_eq_true, aabbIsIntersecting_iff]
    intro hc
    rcases h with h | h
    · have := (hc i).2; rw [not_isLess_of_le h] at this; cases this
    · have := (hc i).1; rw [not_isLess_of_le h] at this; cases this
  exact ⟨h1, by rw [C14_symmetric]; exact h1⟩

/-- **C123** is false: the default constructed box, which is empty, intersects every box that reaches beyond ±1 by more than the tolerance in
every direction; computing the common part then stops at the assertion of the constructor in a debug build. -/
theorem C123_box_counterexample (hD : 0 < D) (h2 : (eps : K) < 2) (r : AABB K D) (hr : ∀ i, r.min i + eps < -1 ∧ 1 + eps < r.max i) :
    (AABB.default : AABB K D).isEmpty = true ∧ r.isValid = true ∧ aabbIsIntersecting AABB.default r = true ∧
      aabbIsIntersecting r AABB.default = true ∧ aabbIntersect true AABB.default r = .error .assertFailed := by
  have hep := eps_pos (K := K)
  have hi : aabbIsIntersecting (AABB.default : AABB K D) r = true := by
    rw [aabbIsIntersecting_iff]
    exact fun i => ⟨isLess_true (hr i).1, isLess_true (hr i).2⟩
  refine ⟨(C12_default_invalid hD h2).2, (C13_valid_partial r).2 fun i => by have := hr i; linarith, hi, by rw [C14_symmetric]; exact hi, ?_⟩
  unfold aabbIntersect
  rw [if_pos (show forallFin D _ = true from hi)]
  have hv : (AABB.mk (fun i => stdMax ((AABB.default : AABB K D).min i) (r.min i)) (fun i => stdMin ((AABB.default : AABB K D).max i) (r.max i))).isValid = false := by
    unfold AABB.isValid
    rw [forallFin_false_iff]
    refine ⟨⟨0, hD⟩, ?_⟩
    simp only [isGreaterEq_eq, stdMax_eq, stdMin_eq, Bool.not_not]
    apply not_isLess_of_le
    have h1 : min ((AABB.default : AABB K D).max ⟨0, hD⟩) (r.max ⟨0, hD⟩) ≤ -1 := min_le_left _ _
    have h3 : (1 : K) ≤ max ((AABB.default : AABB K D).min ⟨0, hD⟩) (r.min ⟨0, hD⟩) := le_max_left _ _
    linarith
  dsimp only [AABB.mk?]
  rw [hv]
  rfl

/-- **C123** (what holds) Adding a box that lies inside the bounds changes nothing, whether it is empty or not; for the default box this means
bounds that reach up to 1 from below and down to -1 from above. -/
theorem C123_add_partial (b o : AABB K D) (h : ∀ i, b.min i ≤ o.min i ∧ o.max i ≤ b.max i) : b.addBox o = b := by
  obtain ⟨lo, hi⟩ := b
  simp only [AABB.addBox, AABB.mk.injEq]
  exact ⟨funext fun i => by rw [not_isLess_of_le (h i).1]; rfl, funext fun i => by rw [isGreater_eq, not_isLess_of_le (h i).2]; rfl⟩

/-- **C123** is false: adding the default constructed box to a box that is beyond 1 (below -1) in some coordinate moves this bound to 1 (-1). -/
theorem C123_add_counterexample (b : AABB K D) (i : Fin D) :
    (1 + eps < b.min i → (b.addBox AABB.default).min i = 1) ∧ (b.max i + eps < -1 → (b.addBox AABB.default).max i = -1) := by
  constructor
  · intro h
    show (if isLess 1 (b.min i) then (1 : K) else b.min i) = 1
    rw [isLess_true h]; rfl
  · intro h
    show (if isGreater (-1) (b.max i) then (-1 : K) else b.max i) = -1
    rw [isGreater_eq, isLess_true h]; rfl
end

section
variable {K : Type*} [Field K] [LinearOrder K] [IsStrictOrderedRing K] [Tol K] [LawfulTol K] [HasLimits K]

theorem raySlab_flip {o d lo hi : K} (h : isZero d = false) : raySlab o d lo hi = raySlab o d hi lo := by
  unfold raySlab
  rw [h]
  simp only [Bool.false_eq_true, if_false, stdMin_eq, stdMax_eq, min_comm ((lo - o) * (1 / d)), max_comm ((lo - o) * (1 / d))]

/-- **C123** (what happens) For a ray that is not parallel to any coordinate plane the two corners of a box may be exchanged: an empty box is treated
as the box with the corners exchanged, both by the test and by the intersection. -/
theorem C123_ray_flipped (dbg : Bool) (o d lo hi : Vec K 3) (hd : ∀ i, isZero (d i) = false) :
    isIntersectingRayBox ⟨o, d⟩ ⟨lo, hi⟩ = isIntersectingRayBox ⟨o, d⟩ ⟨hi, lo⟩ ∧
      intersectRayBox dbg ⟨o, d⟩ ⟨lo, hi⟩ = intersectRayBox dbg ⟨o, d⟩ ⟨hi, lo⟩ := by
  have e : aabbRayInterval ⟨o, d⟩ ⟨lo, hi⟩ = aabbRayInterval ⟨o, d⟩ ⟨hi, lo⟩ := by
    unfold aabbRayInterval
    simp only [raySlab_flip (hd _) (lo := lo _)]
  unfold isIntersectingRayBox intersectRayBox
  rw [e]
  exact ⟨rfl, rfl⟩

/-- **C123** (what holds) A ray parallel to a coordinate plane across which the box is empty by more than twice the tolerance does not hit it. -/
theorem C123_ray_partial (dbg : Bool) (o d lo hi : Vec K 3) (i : Fin 3) (hd : isZero (d i) = true) (h : hi i + 2 * eps < lo i)
    (hlim : HasLimits.lowest + eps < (HasLimits.maxVal : K)) :
    isIntersectingRayBox ⟨o, d⟩ ⟨lo, hi⟩ = false ∧ ∃ r, intersectRayBox dbg ⟨o, d⟩ ⟨lo, hi⟩ = .ok r ∧ r.enter = none ∧ r.exit = none := by
  have hep := eps_pos (K := K)
  have hs : raySlab (o i) (d i) (lo i) (hi i) = none := by
    unfold raySlab
    rw [hd, if_pos rfl, isGreater_eq]
    have : (isLess (o i) (lo i) || isLess (hi i) (o i)) = true := by
      rcases lt_or_ge (o i + eps) (lo i) with h1 | h1
      · rw [isLess_true h1]; rfl
      · rw [isLess_true (show hi i + eps < o i by linarith)]; simp
    rw [this]; rfl
  have e : aabbRayInterval ⟨o, d⟩ ⟨lo, hi⟩ = (.fin HasLimits.maxVal, .fin HasLimits.lowest) := by
    unfold aabbRayInterval
    dsimp only
    split
    · rename_i h0 h1 h2
      fin_cases i
      · exact absurd (hs.symm.trans h0) (by simp)
      · exact absurd (hs.symm.trans h1) (by simp)
      · exact absurd (hs.symm.trans h2) (by simp)
    · rfl
  have hl : isLess (HasLimits.maxVal : K) HasLimits.lowest = false := not_isLess_of_le (by linarith)
  constructor
  · unfold isIntersectingRayBox
    rw [e]
    simp only [Ext.isLessEq, isLessEq_eq, isLess_true hlim]
    rfl
  · refine ⟨_, intersectRayBox_eval dbg e, ?_⟩
    rw [hl]
    exact ⟨rfl, rfl⟩

/-- **C123** is false: take any two valid boxes that do not intersect.  Their common part is empty, but there is a ray with unit direction that
hits it according to the test, and the intersection reports where it enters and leaves. -/
theorem C123_ray_counterexample (dbg : Bool) (l r : AABB K 3) (he : (eps : K) < 1 / 3) (hl : l.isValid = true) (hr : r.isValid = true)
    (h : aabbIsIntersecting l r = false) :
    ∃ b, aabbIntersect dbg l r = .ok b ∧ b.isEmpty = true ∧ (¬ ∃ p, b.Has 0 p) ∧
      ∃ o d : Vec K 3, ∑ i, d i ^ 2 = 1 ∧ AxesClear d ∧ isIntersectingRayBox ⟨o, d⟩ b = true ∧
        ∃ res p q, intersectRayBox dbg ⟨o, d⟩ b = .ok res ∧ res.enter = some p ∧ res.exit = some q := by
  have hep := eps_pos (K := K)
  have h2 : (eps : K) < 2 := by linarith
  have hem := (C12_default_invalid (K := K) (D := 3) (by norm_num) h2).2
  refine ⟨AABB.default, by rw [aabbIntersect_eq dbg l r hl hr, h]; rfl, hem, not_has_of_empty hem, ?_⟩
  set d : Vec K 3 := ![1 / 3, 2 / 3, 2 / 3] with hd
  set o : Vec K 3 := ![-3, -6, -6] with ho
  have hu : ∑ i, d i ^ 2 = 1 := by rw [hd]; simp [Fin.sum_univ_three]; norm_num
  have hab : ∀ i, eps < |d i| := by
    intro i
    have h1 : |(1 / 3 : K)| = 1 / 3 := abs_of_pos (by norm_num)
    have h3 : |(2 / 3 : K)| = 2 / 3 := abs_of_pos (by norm_num)
    have : (1 / 3 : K) ≤ |d i| := by
      fin_cases i
      · show (1 / 3 : K) ≤ |1 / 3|; rw [h1]
      · show (1 / 3 : K) ≤ |2 / 3|; rw [h3]; norm_num
      · show (1 / 3 : K) ≤ |2 / 3|; rw [h3]; norm_num
    linarith
  have hc : AxesClear d := fun i => .inr (hab i)
  have hb : ∀ i : Fin 3, (AABB.default : AABB K 3).max i ≤ (AABB.default : AABB K 3).min i := fun i => by
    show (-1 : K) ≤ 1; linarith [one_pos (α := K)]
  obtain ⟨f1, f2⟩ := C123_ray_flipped dbg o d (AABB.default : AABB K 3).min (AABB.default : AABB K 3).max (fun i => isZero_false (hab i))
  have hin : ∀ t : K, 8 ≤ t → t ≤ 10 → Spec.inBox (AABB.default : AABB K 3).max (AABB.default : AABB K 3).min 0 (Spec.pointAt o d t) := by
    intro t h1 h3 i
    show (-1 : K) - 0 ≤ o i + t * d i ∧ o i + t * d i ≤ 1 + 0
    fin_cases i
    · show (-1 : K) - 0 ≤ -3 + t * (1 / 3) ∧ -3 + t * (1 / 3) ≤ 1 + 0
      constructor <;> linarith
    · show (-1 : K) - 0 ≤ -6 + t * (2 / 3) ∧ -6 + t * (2 / 3) ≤ 1 + 0
      constructor <;> linarith
    · show (-1 : K) - 0 ≤ -6 + t * (2 / 3) ∧ -6 + t * (2 / 3) ≤ 1 + 0
      constructor <;> linarith
  refine ⟨o, d, hu, hc, ?_, ?_⟩
  · exact f1.trans (C17_no_false_negative o d _ _ hu hc hb 8 (by norm_num) (hin 8 le_rfl (by norm_num)))
  · obtain ⟨res, te, tx, e1, _, e3, _, e4, _⟩ := C18_chord dbg o d _ _ hu hc hb 8 10 (by norm_num) (by linarith)
      (hin 8 le_rfl (by norm_num)) (hin 10 (by norm_num) le_rfl)
    refine ⟨res, _, _, f2.trans e1, e4 fun hc => ?_, e3⟩
    have := (hc 0).1
    have h0 : (-1 : K) - 0 ≤ -3 := this
    linarith
end

section Examples
attribute [local instance] ratTol ratTol_lawful
local instance : HasLimits ℚ := ⟨10 ^ 9, -10 ^ 9⟩

theorem exEps2 : (eps : ℚ) < 2 := by show (1 / 1000 : ℚ) < 2; norm_num

/-- Two boxes far from each other and from the origin. -/
example : ∃ b, aabbIntersect true (⟨![10, 10, 10], ![11, 12, 13]⟩ : AABB ℚ 3) ⟨![20, 10, 10], ![21, 12, 13]⟩ = .ok b ∧ b.isEmpty = true ∧
    (¬ ∃ p, b.Has 0 p) ∧ ∃ o d : Vec ℚ 3, ∑ i, d i ^ 2 = 1 ∧ AxesClear d ∧ isIntersectingRayBox ⟨o, d⟩ b = true ∧
      ∃ res p q, intersectRayBox true ⟨o, d⟩ b = .ok res ∧ res.enter = some p ∧ res.exit = some q :=
  C123_ray_counterexample true _ _ (by show (1 / 1000 : ℚ) < 1 / 3; norm_num) (by decide +kernel) (by decide +kernel) (by decide +kernel)

example : ∃ b, aabbIntersect true (⟨![10, 10], ![11, 12]⟩ : AABB ℚ 2) ⟨![20, 10], ![21, 12]⟩ = .ok b ∧ b.isEmpty = true ∧ ¬ ∃ p, b.Has 0 p :=
  C123_disjoint true _ _ exEps2 (by decide +kernel) (by decide +kernel) (by decide +kernel)

example : ∃ b, aabbIntersect false (⟨![10, 14], ![11, 12]⟩ : AABB ℚ 2) ⟨![10, 10], ![21, 15]⟩ = .ok b ∧ b.isEmpty = true ∧ ¬ ∃ p, b.Has 0 p :=
  C123_intersect_partial _ _ exEps2 (.inl (by decide +kernel))

example : aabbIsIntersecting (AABB.default : AABB ℚ 2) ⟨![-5, 0], ![5, 7]⟩ = false ∧ aabbIsIntersecting ⟨![-5, 0], ![5, 7]⟩ (AABB.default : AABB ℚ 2) = false :=
  C123_box_partial _ _ 1 (.inr (by decide +kernel))

example : aabbIsIntersecting (AABB.default : AABB ℚ 2) ⟨![-5, -2], ![5, 7]⟩ = true ∧
    aabbIntersect true (AABB.default : AABB ℚ 2) ⟨![-5, -2], ![5, 7]⟩ = .error .assertFailed := by
  obtain ⟨-, -, h, -, h'⟩ := C123_box_counterexample (by norm_num) exEps2 (⟨![-5, -2], ![5, 7]⟩ : AABB ℚ 2) (by decide +kernel)
  exact ⟨h, h'⟩

example : (⟨![-5, -2], ![5, 7]⟩ : AABB ℚ 2).addBox AABB.default = ⟨![-5, -2], ![5, 7]⟩ := C123_add_partial _ _ (by decide +kernel)

example : ((⟨![5, 6], ![7, 8]⟩ : AABB ℚ 2).addBox AABB.default).min 0 = 1 := (C123_add_counterexample _ 0).1 (by decide +kernel)

example : isIntersectingRayBox (T := ℚ) ⟨![0, 0, 1 / 2], ![1 / 3, 2 / 3, 2 / 3]⟩ ⟨![6, 6, 1], ![3, 3, 0]⟩ =
    isIntersectingRayBox (T := ℚ) ⟨![0, 0, 1 / 2], ![1 / 3, 2 / 3, 2 / 3]⟩ ⟨![3, 3, 0], ![6, 6, 1]⟩ :=
  (C123_ray_flipped true _ _ _ _ (by decide +kernel)).1

example : isIntersectingRayBox (T := ℚ) ⟨![0, 0, 1 / 2], ![3 / 5, 4 / 5, 0]⟩ ⟨![3, 3, 1], ![6, 6, 0]⟩ = false :=
  (C123_ray_partial true _ _ _ _ 2 (by decide +kernel) (by decide +kernel) exLim).1
end Examples
end Verif
