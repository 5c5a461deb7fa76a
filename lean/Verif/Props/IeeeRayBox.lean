import Verif.Model.RayBoxIeee
import Verif.Props.IeeeFinite
import Verif.Props.FloatBox

set_option linter.unusedSectionVars false

/-
Properties C127 and C128: the ray/box test with IEEE numbers: huge and unbounded boxes and overflow (C127), NaN (C128).
-/
namespace Verif
open Spec
namespace Ieee
variable {F : IeeeFormat}

/-! ### Arithmetic keeps the order -/

theorem ord_ofReal_mono {s t : Bool} {q r : ℝ} (h : q ≤ r) : ord (ofReal (F := F) s q) ≤ ord (ofReal (F := F) t r) := by
  have key : ∀ (s : Bool) (r : ℝ), ord (ofReal (F := F) s r) =
      if |F.rnd r| < 2 ^ F.emax then ((F.rnd r : ℝ) : EReal) else if F.rnd r < 0 then ⊥ else ⊤ := by
    intro s r
    have e : (Fl.round r : Fl F.toFloatFormat).1 = F.rnd r := rfl
    unfold ofReal
    simp only [e]
    by_cases h0 : F.rnd r = 0
    · have hp : |(0 : ℝ)| < 2 ^ F.emax := by rw [abs_zero]; positivity
      rw [if_pos h0, h0, if_pos hp]
      cases s
      · rw [if_neg (by simp)]; rfl
      · rw [if_pos rfl]; rfl
    · rw [if_neg h0]
      by_cases h1 : |F.rnd r| < 2 ^ F.emax
      · rw [dif_pos h1, if_pos h1]; rfl
      · rw [dif_neg h1, if_neg h1]
        by_cases h2 : F.rnd r < 0
        · simp only [h2, decide_true, if_true]; rfl
        · simp only [h2, decide_false, if_false]; rfl
  rw [key, key]
  have hm := F.rounds.mono h
  have hp : (0 : ℝ) < 2 ^ F.emax := by positivity
  by_cases h1 : |F.rnd q| < 2 ^ F.emax
  · rw [if_pos h1]
    rw [abs_lt] at h1
    by_cases h2 : |F.rnd r| < 2 ^ F.emax
    · rw [if_pos h2]; exact EReal.coe_le_coe_iff.2 hm
    · rw [if_neg h2, if_neg]
      · exact le_top
      · intro h3
        rw [not_lt, abs_of_neg h3] at h2
        linarith [h1.1]
  · rw [if_neg h1]
    by_cases h3 : F.rnd q < 0
    · rw [if_pos h3]; exact bot_le
    · rw [if_neg h3]
      rw [not_lt, abs_of_nonneg (not_lt.1 h3)] at h1
      have h4 : ¬ |F.rnd r| < 2 ^ F.emax := by rw [abs_lt]; intro h; linarith [h.2]
      rw [if_neg h4, if_neg (by linarith)]

theorem ofReal_ne_nan (s : Bool) (r : ℝ) : ofReal (F := F) s r ≠ nan := by
  unfold ofReal
  simp only
  split_ifs <;> exact fun h => by cases h

/-- Neither NaN nor infinite. -/
def Finite (a : Ieee F) : Prop := ∃ r, a.val? = some r

theorem Finite.ne_nan {a : Ieee F} (h : Finite a) : a ≠ nan := by
  obtain ⟨r, h⟩ := h
  intro hc; rw [hc] at h; cases h

theorem ext_cases {a : Ieee F} (h : a ≠ nan) : (∃ s, a = inf s) ∨ ∃ r, a.val? = some r := by
  rcases wild_or a with (h1 | h1) | h1
  · exact absurd h1 h
  · exact .inl h1
  · exact .inr h1

theorem val_neg {a : Ieee F} {r : ℝ} (h : a.val? = some r) : (-a).val? = some (-r) := by
  cases a with
  | nan => cases h
  | inf s => cases h
  | negZero => simp only [val?, Option.some.injEq] at h; subst h; show some (0 : ℝ) = _; simp
  | fin x hx =>
    simp only [val?, Option.some.injEq] at h
    show val? (@ite (Ieee F) _ (Classical.propDecidable _) _ _) = _
    split_ifs with h0
    · show some (0 : ℝ) = _; rw [← h, h0, neg_zero]
    · show some (-x.1) = _; rw [h]

theorem inf_sub {o : Ieee F} {v : ℝ} (ho : o.val? = some v) (s : Bool) : inf s - o = inf s := by
  show inf s + -o = inf s
  have h := val_neg ho
  cases hn : -o <;> rw [hn] at h <;> first | rfl | cases h

theorem sub_def {a o : Ieee F} {u v : ℝ} (ha : a.val? = some u) (ho : o.val? = some v) : ∃ s, a - o = ofReal s (u - v) := by
  obtain ⟨s, hs⟩ := add_def ha (val_neg ho)
  exact ⟨s, by rw [sub_eq_add_neg]; exact hs⟩

theorem inf_mul {q : Ieee F} {v : ℝ} (hq : q.val? = some v) (hv : v ≠ 0) (s : Bool) : inf s * q = inf (s ^^ q.signBit) := by
  have h : ¬ q.val? = some 0 := by rw [hq]; simpa using hv
  cases q with
  | nan => cases hq
  | inf t => cases hq
  | negZero => exact absurd rfl h
  | fin x hx =>
    show (@ite (Ieee F) _ (Classical.propDecidable _) _ _) = _
    rw [if_neg h]

theorem signBit_of {q : Ieee F} {v : ℝ} (hq : q.val? = some v) (hv : v ≠ 0) : q.signBit = true ↔ v < 0 := by
  cases q with
  | nan => cases hq
  | inf s => cases hq
  | negZero => simp only [val?, Option.some.injEq] at hq; exact absurd hq.symm hv
  | fin x hx =>
    simp only [val?, Option.some.injEq] at hq
    subst hq
    show @decide (x.1 < 0) (Classical.propDecidable _) = true ↔ _
    exact ⟨@of_decide_eq_true _ (Classical.propDecidable _), @decide_eq_true _ (Classical.propDecidable _)⟩

/-- Subtracting a finite number keeps the order and gives no NaN. -/
theorem sub_mono {a b o : Ieee F} (ho : Finite o) (ha : a ≠ nan) (hb : b ≠ nan) (h : ord a ≤ ord b) :
    a - o ≠ nan ∧ b - o ≠ nan ∧ ord (a - o) ≤ ord (b - o) := by
  obtain ⟨v, ho⟩ := ho
  have hn : ∀ {a : Ieee F}, a ≠ nan → a - o ≠ nan := by
    intro a ha
    rcases ext_cases ha with ⟨s, rfl⟩ | ⟨u, hu⟩
    · rw [inf_sub ho]; exact fun h => by cases h
    · obtain ⟨s, hs⟩ := sub_def hu ho; rw [hs]; exact ofReal_ne_nan _ _
  refine ⟨hn ha, hn hb, ?_⟩
  rcases ext_cases ha with ⟨s, rfl⟩ | ⟨u, hu⟩
  · rw [inf_sub ho]
    cases s
    · have : ord b = ⊤ := top_le_iff.1 h
      rcases ext_cases hb with ⟨t, rfl⟩ | ⟨w, hw⟩
      · rw [inf_sub ho]; exact h
      · rw [ord_of_val hw] at this; exact absurd this (EReal.coe_ne_top _)
    · exact bot_le
  · rcases ext_cases hb with ⟨t, rfl⟩ | ⟨w, hw⟩
    · rw [inf_sub ho]
      cases t
      · exact le_top
      · rw [ord_of_val hu] at h
        exact absurd (le_bot_iff.1 h) (EReal.coe_ne_bot _)
    · obtain ⟨s, hs⟩ := sub_def hu ho
      obtain ⟨t, ht⟩ := sub_def hw ho
      rw [hs, ht]
      rw [ord_of_val hu, ord_of_val hw, EReal.coe_le_coe_iff] at h
      exact ord_ofReal_mono (by linarith)

/-- Multiplying by a finite number other than zero gives no NaN. -/
theorem mul_ne_nan {a q : Ieee F} {v : ℝ} (hq : q.val? = some v) (hv : v ≠ 0) (ha : a ≠ nan) : a * q ≠ nan := by
  rcases ext_cases ha with ⟨s, rfl⟩ | ⟨u, hu⟩
  · rw [inf_mul hq hv]; exact fun h => by cases h
  · obtain ⟨s, hs⟩ := mul_def hu hq; rw [hs]; exact ofReal_ne_nan _ _

theorem mul_mono {a b q : Ieee F} {v : ℝ} (hq : q.val? = some v) (hv : 0 < v) (ha : a ≠ nan) (hb : b ≠ nan) (h : ord a ≤ ord b) :
    ord (a * q) ≤ ord (b * q) := by
  have hs : q.signBit = false := by
    have := (signBit_of hq hv.ne').not.2 (not_lt.2 hv.le)
    simpa using this
  rcases ext_cases ha with ⟨s, rfl⟩ | ⟨u, hu⟩
  · rw [inf_mul hq hv.ne', hs]
    cases s
    · rcases ext_cases hb with ⟨t, rfl⟩ | ⟨w, hw⟩
      · rw [inf_mul hq hv.ne', hs]; cases t
        · exact le_rfl
        · exact absurd h (by simp [ord])
      · rw [ord_of_val hw] at h; exact absurd (top_le_iff.1 h) (EReal.coe_ne_top _)
    · exact bot_le
  · rcases ext_cases hb with ⟨t, rfl⟩ | ⟨w, hw⟩
    · rw [inf_mul hq hv.ne', hs]
      cases t
      · exact le_top
      · rw [ord_of_val hu] at h
        exact absurd (le_bot_iff.1 h) (EReal.coe_ne_bot _)
    · obtain ⟨s, hs⟩ := mul_def hu hq
      obtain ⟨t, ht⟩ := mul_def hw hq
      rw [hs, ht]
      rw [ord_of_val hu, ord_of_val hw, EReal.coe_le_coe_iff] at h
      exact ord_ofReal_mono (by nlinarith)

theorem mul_anti {a b q : Ieee F} {v : ℝ} (hq : q.val? = some v) (hv : v < 0) (ha : a ≠ nan) (hb : b ≠ nan) (h : ord a ≤ ord b) :
    ord (b * q) ≤ ord (a * q) := by
  have hs : q.signBit = true := (signBit_of hq hv.ne).2 hv
  rcases ext_cases ha with ⟨s, rfl⟩ | ⟨u, hu⟩
  · rw [inf_mul hq hv.ne, hs]
    cases s
    · rcases ext_cases hb with ⟨t, rfl⟩ | ⟨w, hw⟩
      · rw [inf_mul hq hv.ne, hs]; cases t
        · exact le_rfl
        · exact absurd h (by simp [ord])
      · rw [ord_of_val hw] at h; exact absurd (top_le_iff.1 h) (EReal.coe_ne_top _)
    · exact le_top
  · rcases ext_cases hb with ⟨t, rfl⟩ | ⟨w, hw⟩
    · rw [inf_mul hq hv.ne, hs]
      cases t
      · exact bot_le
      · rw [ord_of_val hu] at h
        exact absurd (le_bot_iff.1 h) (EReal.coe_ne_bot _)
    · obtain ⟨s, hs⟩ := mul_def hu hq
      obtain ⟨t, ht⟩ := mul_def hw hq
      rw [hs, ht]
      rw [ord_of_val hu, ord_of_val hw, EReal.coe_le_coe_iff] at h
      exact ord_ofReal_mono (by nlinarith)

theorem ord_stdMin {a b : Ieee F} (ha : a ≠ nan) : ord (stdMin a b) = Min.min (ord a) (ord b) := by
  unfold stdMin
  by_cases h : b < a
  · rw [if_pos h]; exact (min_eq_right ((lt_iff_ord ha).1 h).le).symm
  · rw [if_neg h]; exact (min_eq_left ((not_lt_iff_ord ha).1 h)).symm

theorem ord_stdMax {a b : Ieee F} (hb : b ≠ nan) : ord (stdMax a b) = Max.max (ord a) (ord b) := by
  unfold stdMax
  by_cases h : a < b
  · rw [if_pos h]; exact (max_eq_right ((lt_iff_ord hb).1 h).le).symm
  · rw [if_neg h]; exact (max_eq_left ((not_lt_iff_ord hb).1 h)).symm

theorem stdMin_ne_nan {a b : Ieee F} (ha : a ≠ nan) (hb : b ≠ nan) : stdMin a b ≠ nan := by
  unfold stdMin; split_ifs <;> assumption
theorem stdMax_ne_nan {a b : Ieee F} (ha : a ≠ nan) (hb : b ≠ nan) : stdMax a b ≠ nan := by
  unfold stdMax; split_ifs <;> assumption

/-! ### The comparisons -/

/-- What is assumed of `linal`'s comparisons of numbers that are not NaN: a smaller left side and a larger right side do not turn
"less" into "not less"; numbers in the right order satisfy `isLessEq` unless both are the same infinity; `isLess` and
`isGreater` hold only for numbers in that order; the largest number is not `isLessEq` the lowest. -/
structure OrderedTol (F : IeeeFormat) [Tol (Ieee F)] : Prop where
  less_mono : ∀ {a b a' b' : Ieee F}, a ≠ nan → b ≠ nan → a' ≠ nan → b' ≠ nan → ord a' ≤ ord a → ord b ≤ ord b' → isLess a b = true → isLess a' b' = true
  greater_mono : ∀ {a b a' b' : Ieee F}, a ≠ nan → b ≠ nan → a' ≠ nan → b' ≠ nan → ord a ≤ ord a' → ord b' ≤ ord b → isGreater a b = true → isGreater a' b' = true
  lessEq_mono : ∀ {a b a' b' : Ieee F}, a ≠ nan → b ≠ nan → a' ≠ nan → b' ≠ nan → ord a' ≤ ord a → ord b ≤ ord b' → isLessEq a b = true → isLessEq a' b' = true
  greaterEq_mono : ∀ {a b a' b' : Ieee F}, a ≠ nan → b ≠ nan → a' ≠ nan → b' ≠ nan → ord a ≤ ord a' → ord b' ≤ ord b → isGreaterEq a b = true → isGreaterEq a' b' = true
  less_lt : ∀ {a b : Ieee F}, a ≠ nan → b ≠ nan → isLess a b = true → ord a < ord b
  greater_gt : ∀ {a b : Ieee F}, a ≠ nan → b ≠ nan → isGreater a b = true → ord b < ord a
  lessEq_of : ∀ {a b : Ieee F}, a ≠ nan → b ≠ nan → ord a ≤ ord b → (ord a < ord b ∨ Finite a) → isLessEq a b = true
  greaterEq_of : ∀ {a b : Ieee F}, a ≠ nan → b ≠ nan → ord b ≤ ord a → (ord b < ord a ∨ Finite a) → isGreaterEq a b = true
  limits_false : isLessEq (HasLimits.maxVal : Ieee F) HasLimits.lowest = false

/-- A component of the direction: taken for zero, or with a reciprocal that neither overflows nor underflows. -/
def DirOk [Tol (Ieee F)] (d : Ieee F) : Prop := isZero d = true ∨ ∃ q, (1 / d).val? = some q ∧ q ≠ 0

/-- Components of at most 1 that are not extremely small are fine. -/
theorem dirOk_of [Tol (Ieee F)] {d : Ieee F} {r : ℝ} {j : ℕ} (hd : d.val? = some r) (h1 : |r| ≤ 1) (hj : 1 ≤ |r| * 2 ^ j) (hk : j < F.emax) :
    DirOk d := by
  right
  have hr : r ≠ 0 := by rintro rfl; simp at hj; linarith
  obtain ⟨s, hs⟩ := div_def (a := (1 : Ieee F)) rfl hd hr
  have ha : 0 < |r| := abs_pos.2 hr
  have hle : |1 / r| ≤ 2 ^ j := by
    rw [abs_div, abs_one, div_le_iff₀ ha, mul_comm]; exact hj
  have hge : 1 ≤ |1 / r| := by rw [abs_div, abs_one, le_div_iff₀ ha]; linarith
  have hn := ofReal_near (F := F) (s := s) hle hk
  refine ⟨_, by rw [hs]; exact hn.val, ?_⟩
  show F.rnd (1 / r) ≠ 0
  have : 1 ≤ |F.rnd (1 / r)| := by
    rw [F.rounds.abs]; exact F.rounds.le_of F.one_mem hge
  intro h
  rw [h, abs_zero] at this
  linarith

section
variable [Tol (Ieee F)]

theorem slab_nonzero {o d lo hi : Ieee F} (hz : isZero d = false) :
    raySlabRaw o d lo hi = some (stdMin ((lo - o) * (1 / d)) ((hi - o) * (1 / d)), stdMax ((lo - o) * (1 / d)) ((hi - o) * (1 / d))) := by
  unfold raySlabRaw; simp [hz]

theorem slab_zero {o d lo hi : Ieee F} (hz : isZero d = true) :
    raySlabRaw o d lo hi = if (isLess o lo || isGreater o hi) = true then none else some (inf true, inf false) := by
  unfold raySlabRaw; simp [hz]; rfl

/-- The slab of a larger box: entered not later and left not earlier. -/
theorem slab_grow (ht : OrderedTol F) {o d lo hi lo' hi' : Ieee F} (ho : Finite o) (hd : DirOk d) (h1 : lo' ≠ nan) (h2 : lo ≠ nan)
    (h3 : hi ≠ nan) (h4 : hi' ≠ nan) (h12 : ord lo' ≤ ord lo) (h23 : ord lo ≤ ord hi) (h34 : ord hi ≤ ord hi') {p : Ieee F × Ieee F}
    (hp : raySlabRaw o d lo hi = some p) :
    ∃ p', raySlabRaw o d lo' hi' = some p' ∧ p.1 ≠ nan ∧ p.2 ≠ nan ∧ p'.1 ≠ nan ∧ p'.2 ≠ nan ∧ ord p'.1 ≤ ord p.1 ∧ ord p.2 ≤ ord p'.2 := by
  cases hz : isZero d with
  | true =>
    rw [slab_zero hz] at hp
    split_ifs at hp with hc
    simp only [Option.some.injEq] at hp
    subst hp
    refine ⟨(inf true, inf false), ?_, fun h => (by cases h), fun h => (by cases h), fun h => (by cases h), fun h => (by cases h), le_rfl, le_rfl⟩
    rw [slab_zero hz, if_neg]
    intro hc'
    apply hc
    rw [Bool.or_eq_true] at hc' ⊢
    rcases hc' with h | h
    · exact .inl (ht.less_mono ho.ne_nan h1 ho.ne_nan h2 le_rfl h12 h)
    · exact .inr (ht.greater_mono ho.ne_nan h4 ho.ne_nan h3 le_rfl h34 h)
  | false =>
    obtain ⟨v, hq, hv⟩ : ∃ q, (1 / d).val? = some q ∧ q ≠ 0 := by
      rcases hd with h | h
      · rw [hz] at h; cases h
      · exact h
    rw [slab_nonzero hz] at hp
    simp only [Option.some.injEq] at hp
    subst hp
    rw [slab_nonzero hz]
    obtain ⟨n1, n2, s12⟩ := sub_mono ho h1 h2 h12
    obtain ⟨_, n3, s23⟩ := sub_mono ho h2 h3 h23
    obtain ⟨_, n4, s34⟩ := sub_mono ho h3 h4 h34
    have m1 := mul_ne_nan hq hv n1
    have m2 := mul_ne_nan hq hv n2
    have m3 := mul_ne_nan hq hv n3
    have m4 := mul_ne_nan hq hv n4
    refine ⟨_, rfl, stdMin_ne_nan m2 m3, stdMax_ne_nan m2 m3, stdMin_ne_nan m1 m4, stdMax_ne_nan m1 m4, ?_, ?_⟩
    · dsimp only
      rw [ord_stdMin m2, ord_stdMin m1]
      rcases lt_or_gt_of_ne hv with hv | hv
      · have a1 := mul_anti hq hv n1 n2 s12
        have a2 := mul_anti hq hv n2 n3 s23
        have a3 := mul_anti hq hv n3 n4 s34
        exact le_min (min_le_right _ _ |>.trans (a3.trans a2)) (min_le_right _ _ |>.trans a3)
      · have a1 := mul_mono hq hv n1 n2 s12
        have a2 := mul_mono hq hv n2 n3 s23
        exact le_min (min_le_left _ _ |>.trans a1) (min_le_left _ _ |>.trans (a1.trans a2))
    · dsimp only
      rw [ord_stdMax m3, ord_stdMax m4]
      rcases lt_or_gt_of_ne hv with hv | hv
      · have a1 := mul_anti hq hv n1 n2 s12
        have a2 := mul_anti hq hv n2 n3 s23
        exact max_le (a1.trans (le_max_left _ _)) ((a2.trans a1).trans (le_max_left _ _))
      · have a2 := mul_mono hq hv n2 n3 s23
        have a3 := mul_mono hq hv n3 n4 s34
        exact max_le ((a2.trans a3).trans (le_max_right _ _)) (a3.trans (le_max_right _ _))

/-- **C127** With IEEE numbers – overflow, infinite box coordinates and all roundings included – making a box larger never loses a hit of a
ray with finite origin. -/
theorem C127_grow (ht : OrderedTol F) (r : Ray (Ieee F) 3) (b b' : AABB (Ieee F) 3) (ho : ∀ i, Finite (r.origin i)) (hd : ∀ i, DirOk (r.direction i))
    (hn : ∀ i, b.min i ≠ nan ∧ b.max i ≠ nan ∧ b'.min i ≠ nan ∧ b'.max i ≠ nan) (hb : ∀ i, ord (b.min i) ≤ ord (b.max i))
    (hsub : ∀ i, ord (b'.min i) ≤ ord (b.min i) ∧ ord (b.max i) ≤ ord (b'.max i)) (hhit : isIntersectingRayBoxRaw r b = true) :
    isIntersectingRayBoxRaw r b' = true := by
  have hs : ∀ i p, raySlabRaw (r.origin i) (r.direction i) (b.min i) (b.max i) = some p → _ := fun i p hp =>
    slab_grow ht (ho i) (hd i) (hn i).2.2.1 (hn i).1 (hn i).2.1 (hn i).2.2.2 (hsub i).1 (hb i) (hsub i).2 hp
  unfold isIntersectingRayBoxRaw aabbRayIntervalRaw at hhit ⊢
  dsimp only at hhit ⊢
  cases h0 : raySlabRaw (r.origin 0) (r.direction 0) (b.min 0) (b.max 0) with
  | none => rw [h0] at hhit; simp [ht.limits_false] at hhit
  | some p0 =>
  cases h1 : raySlabRaw (r.origin 1) (r.direction 1) (b.min 1) (b.max 1) with
  | none => rw [h0, h1] at hhit; simp [ht.limits_false] at hhit
  | some p1 =>
  cases h2 : raySlabRaw (r.origin 2) (r.direction 2) (b.min 2) (b.max 2) with
  | none => rw [h0, h1, h2] at hhit; simp [ht.limits_false] at hhit
  | some p2 =>
  obtain ⟨q0, e0, a0, c0, f0, g0, i0, j0⟩ := hs 0 p0 h0
  obtain ⟨q1, e1, a1, c1, f1, g1, i1, j1⟩ := hs 1 p1 h1
  obtain ⟨q2, e2, a2, c2, f2, g2, i2, j2⟩ := hs 2 p2 h2
  rw [h0, h1, h2] at hhit
  rw [e0, e1, e2]
  dsimp only at hhit ⊢
  rw [Bool.and_eq_true] at hhit ⊢
  have nx : stdMin p0.2 (stdMin p1.2 p2.2) ≠ nan := stdMin_ne_nan c0 (stdMin_ne_nan c1 c2)
  have nx' : stdMin q0.2 (stdMin q1.2 q2.2) ≠ nan := stdMin_ne_nan g0 (stdMin_ne_nan g1 g2)
  have ne : stdMax p0.1 (stdMax p1.1 p2.1) ≠ nan := stdMax_ne_nan a0 (stdMax_ne_nan a1 a2)
  have ne' : stdMax q0.1 (stdMax q1.1 q2.1) ≠ nan := stdMax_ne_nan f0 (stdMax_ne_nan f1 f2)
  have hx : ord (stdMin p0.2 (stdMin p1.2 p2.2)) ≤ ord (stdMin q0.2 (stdMin q1.2 q2.2)) := by
    rw [ord_stdMin c0, ord_stdMin c1, ord_stdMin g0, ord_stdMin g1]
    exact min_le_min j0 (min_le_min j1 j2)
  have he : ord (stdMax q0.1 (stdMax q1.1 q2.1)) ≤ ord (stdMax p0.1 (stdMax p1.1 p2.1)) := by
    rw [ord_stdMax (stdMax_ne_nan a1 a2), ord_stdMax a2, ord_stdMax (stdMax_ne_nan f1 f2), ord_stdMax f2]
    exact max_le_max i0 (max_le_max i1 i2)
  have n0 : (0 : Ieee F) ≠ nan := fun h => by cases h
  exact ⟨ht.lessEq_mono ne nx ne' nx' he hx hhit.1, ht.greaterEq_mono nx n0 nx' n0 hx le_rfl hhit.2⟩

/-- The slab of a box around the origin of the ray: entered at or before 0, left at or after 0. -/
theorem slab_inside (ht : OrderedTol F) {o d lo hi : Ieee F} (ho : Finite o) (hd : DirOk d) (h1 : lo ≠ nan) (h2 : hi ≠ nan)
    (hlo : ord lo ≤ ord o) (hhi : ord o ≤ ord hi) :
    ∃ p, raySlabRaw o d lo hi = some p ∧ p.1 ≠ nan ∧ p.2 ≠ nan ∧ ord p.1 ≤ 0 ∧ 0 ≤ ord p.2 := by
  cases hz : isZero d with
  | true =>
    refine ⟨(inf true, inf false), ?_, fun h => (by cases h), fun h => (by cases h), bot_le, le_top⟩
    rw [slab_zero hz, if_neg]
    rw [Bool.or_eq_true]
    rintro (h | h)
    · exact absurd (ht.less_lt ho.ne_nan h1 h) (not_lt.2 hlo)
    · exact absurd (ht.greater_gt ho.ne_nan h2 h) (not_lt.2 hhi)
  | false =>
    obtain ⟨v, hq, hv⟩ : ∃ q, (1 / d).val? = some q ∧ q ≠ 0 := by
      rcases hd with h | h
      · rw [hz] at h; cases h
      · exact h
    rw [slab_nonzero hz]
    obtain ⟨n1, n0, s1⟩ := sub_mono ho h1 ho.ne_nan hlo
    obtain ⟨_, n2, s2⟩ := sub_mono ho ho.ne_nan h2 hhi
    have hz0 : ord ((o - o) * (1 / d)) = 0 := by
      obtain ⟨w, ho⟩ := ho
      obtain ⟨s, hs⟩ := sub_def ho ho
      have h0 : (o - o).val? = some 0 := by
        rw [hs, sub_self]; exact ofReal_val Representable.zero (by rw [abs_zero]; positivity)
      obtain ⟨s', hs'⟩ := mul_def h0 hq
      rw [hs', zero_mul, ord_of_val (ofReal_val Representable.zero (by rw [abs_zero]; positivity))]
      rfl
    have m1 := mul_ne_nan hq hv n1
    have m2 := mul_ne_nan hq hv n2
    refine ⟨_, rfl, stdMin_ne_nan m1 m2, stdMax_ne_nan m1 m2, ?_, ?_⟩
    · dsimp only
      rw [ord_stdMin m1, ← hz0]
      rcases lt_or_gt_of_ne hv with hv | hv
      · exact (min_le_right _ _).trans (mul_anti hq hv n0 n2 s2)
      · exact (min_le_left _ _).trans (mul_mono hq hv n1 n0 s1)
    · dsimp only
      rw [ord_stdMax m2, ← hz0]
      rcases lt_or_gt_of_ne hv with hv | hv
      · exact (mul_anti hq hv n1 n0 s1).trans (le_max_left _ _)
      · exact (mul_mono hq hv n0 n2 s2).trans (le_max_right _ _)

/-- **C127** A ray that starts inside a box always hits it, in every direction – also when the box is so large that differences overflow or
its coordinates are infinite. -/
theorem C127_inside (ht : OrderedTol F) (r : Ray (Ieee F) 3) (b : AABB (Ieee F) 3) (ho : ∀ i, Finite (r.origin i)) (hd : ∀ i, DirOk (r.direction i))
    (hn : ∀ i, b.min i ≠ nan ∧ b.max i ≠ nan) (hin : ∀ i, ord (b.min i) ≤ ord (r.origin i) ∧ ord (r.origin i) ≤ ord (b.max i)) :
    isIntersectingRayBoxRaw r b = true := by
  have hs := fun i => slab_inside ht (ho i) (hd i) (hn i).1 (hn i).2 (hin i).1 (hin i).2
  obtain ⟨p0, e0, a0, c0, i0, j0⟩ := hs 0
  obtain ⟨p1, e1, a1, c1, i1, j1⟩ := hs 1
  obtain ⟨p2, e2, a2, c2, i2, j2⟩ := hs 2
  unfold isIntersectingRayBoxRaw aabbRayIntervalRaw
  dsimp only
  rw [e0, e1, e2]
  dsimp only
  have nx : stdMin p0.2 (stdMin p1.2 p2.2) ≠ nan := stdMin_ne_nan c0 (stdMin_ne_nan c1 c2)
  have ne : stdMax p0.1 (stdMax p1.1 p2.1) ≠ nan := stdMax_ne_nan a0 (stdMax_ne_nan a1 a2)
  have hx : 0 ≤ ord (stdMin p0.2 (stdMin p1.2 p2.2)) := by
    rw [ord_stdMin c0, ord_stdMin c1]; exact le_min j0 (le_min j1 j2)
  have he : ord (stdMax p0.1 (stdMax p1.1 p2.1)) ≤ 0 := by
    rw [ord_stdMax (stdMax_ne_nan a1 a2), ord_stdMax a2]; exact max_le i0 (max_le i1 i2)
  have n0 : (0 : Ieee F) ≠ nan := fun h => by cases h
  have z0 : ord (0 : Ieee F) = 0 := rfl
  have fin_of : ∀ {a : Ieee F}, a ≠ nan → ord a = 0 → Finite a := by
    intro a ha h
    rcases ext_cases ha with ⟨s, rfl⟩ | h
    · cases s <;> simp [ord] at h
    · exact h
  rw [Bool.and_eq_true]
  constructor
  · refine ht.lessEq_of ne nx (he.trans hx) ?_
    rcases he.lt_or_eq with h | h
    · exact .inl (h.trans_le hx)
    · exact .inr (fin_of ne h)
  · refine ht.greaterEq_of nx n0 (by rw [z0]; exact hx) ?_
    rcases hx.lt_or_eq with h | h
    · exact .inl (by rw [z0]; exact h)
    · exact .inr (fin_of nx h.symm)

theorem stdMin_nan_left (b : Ieee F) : stdMin nan b = nan := by unfold stdMin; rw [if_neg (not_lt_nan b)]
theorem stdMax_nan_left (b : Ieee F) : stdMax nan b = nan := by unfold stdMax; rw [if_neg (not_nan_lt b)]
theorem stdMin_nan_right (a : Ieee F) : stdMin a nan = a := by unfold stdMin; rw [if_neg (not_nan_lt a)]
theorem stdMax_nan_right (a : Ieee F) : stdMax a nan = a := by unfold stdMax; rw [if_neg (not_lt_nan a)]

/-- **C128** NaN in the lower `y` corner: `std::max(x, std::max(NaN, z))` is `x`, so the `y` **and** the `z` slab are both ignored. -/
theorem C128_nan_y (r : Ray (Ieee F) 3) (b : AABB (Ieee F) 3) (hnan : b.min 1 = nan) (h1 : isZero (r.direction 1) = false)
    (h2 : isZero (r.direction 2) = false) : ∀ p, raySlabRaw (r.origin 0) (r.direction 0) (b.min 0) (b.max 0) = some p → aabbRayIntervalRaw r b = p := by
  intro p hp
  unfold aabbRayIntervalRaw
  dsimp only
  rw [hp, slab_nonzero h1, slab_nonzero h2, hnan]
  simp [stdMin_nan_left, stdMax_nan_left, stdMin_nan_right, stdMax_nan_right]

/-- **C128** NaN in the upper corner (only): the slab shrinks to its lower plane. -/
theorem C128_nan_max (o d lo : Ieee F) (hz : isZero d = false) : raySlabRaw o d lo nan = raySlabRaw o d lo lo := by
  rw [slab_nonzero hz, slab_nonzero hz]
  simp [stdMin, stdMax]

/-- **C128** The consequence of one NaN coordinate: a ray in the plane `x = 0` hits every box with a NaN lower `y` corner whose `x` range
contains 0 – wherever the box is in `z`, behind the ray and out of its line included. -/
theorem C128_counterexample (ht : OrderedTol F) (r : Ray (Ieee F) 3) (b : AABB (Ieee F) 3) (h0 : isZero (r.direction 0) = true) (ho : Finite (r.origin 0))
    (hx : b.min 0 ≠ nan ∧ b.max 0 ≠ nan ∧ ord (b.min 0) ≤ ord (r.origin 0) ∧ ord (r.origin 0) ≤ ord (b.max 0)) (hnan : b.min 1 = nan)
    (h1 : isZero (r.direction 1) = false) (h2 : isZero (r.direction 2) = false) : isIntersectingRayBoxRaw r b = true := by
  have hs : raySlabRaw (r.origin 0) (r.direction 0) (b.min 0) (b.max 0) = some (inf true, inf false) := by
    rw [slab_zero h0, if_neg]
    rw [Bool.or_eq_true]
    rintro (h | h)
    · exact absurd (ht.less_lt ho.ne_nan hx.1 h) (not_lt.2 hx.2.2.1)
    · exact absurd (ht.greater_gt ho.ne_nan hx.2.1 h) (not_lt.2 hx.2.2.2)
  unfold isIntersectingRayBoxRaw
  rw [C128_nan_y r b hnan h1 h2 _ hs]
  have n : ∀ s, (inf s : Ieee F) ≠ nan := fun s h => by cases h
  rw [Bool.and_eq_true]
  exact ⟨ht.lessEq_of (n _) (n _) bot_le (.inl (by simp [ord])), ht.greaterEq_of (n _) (fun h => by cases h) le_top (.inl (by
    rw [show ord (0 : Ieee F) = ((0 : ℝ) : EReal) from rfl]; exact EReal.coe_lt_top _))⟩

/-! ### Agreement with the model that keeps the infinities apart -/

/-- The comparisons and limits of the two number types agree on finite numbers. -/
structure SameTol (F : IeeeFormat) [Tol (Ieee F)] [Tol (Fl F.toFloatFormat)] [HasLimits (Fl F.toFloatFormat)] : Prop where
  zero : ∀ {a : Ieee F} {x : Fl F.toFloatFormat}, a.val? = some x.1 → isZero a = isZero x
  less : ∀ {a b : Ieee F} {x y : Fl F.toFloatFormat}, a.val? = some x.1 → b.val? = some y.1 → isLess a b = isLess x y
  greater : ∀ {a b : Ieee F} {x y : Fl F.toFloatFormat}, a.val? = some x.1 → b.val? = some y.1 → isGreater a b = isGreater x y
  lessEq : ∀ {a b : Ieee F} {x y : Fl F.toFloatFormat}, a.val? = some x.1 → b.val? = some y.1 → isLessEq a b = isLessEq x y
  greaterEq : ∀ {a b : Ieee F} {x y : Fl F.toFloatFormat}, a.val? = some x.1 → b.val? = some y.1 → isGreaterEq a b = isGreaterEq x y
  maxVal : (HasLimits.maxVal : Ieee F).val? = some (HasLimits.maxVal : Fl F.toFloatFormat).1
  lowest : (HasLimits.lowest : Ieee F).val? = some (HasLimits.lowest : Fl F.toFloatFormat).1

/-- The same number. -/
def Same (a : Ieee F) : Ext (Fl F.toFloatFormat) → Prop
  | .negInf => a = inf true
  | .fin x => a.val? = some x.1
  | .posInf => a = inf false

/-- The place of a possibly infinite number in the order of the extended real numbers. -/
noncomputable def extOrd : Ext (Fl F.toFloatFormat) → EReal
  | .negInf => ⊥
  | .fin x => (x.1 : ℝ)
  | .posInf => ⊤

theorem Same.ord {a : Ieee F} {e : Ext (Fl F.toFloatFormat)} (h : Same a e) : ord a = extOrd e := by
  cases e with
  | negInf => rw [show a = inf true from h]; rfl
  | fin x => exact ord_of_val h
  | posInf => rw [show a = inf false from h]; rfl

theorem Same.lt_iff {a b : Ieee F} {e f : Ext (Fl F.toFloatFormat)} (h : Same a e) (h' : Same b f) : a < b ↔ Ext.ltb e f = true := by
  have hb : b ≠ nan := by
    rintro rfl
    cases f <;> cases h'
  rw [lt_iff_ord hb, h.ord, h'.ord]
  cases e <;> cases f <;> simp [Ext.ltb, extOrd]
  exact Iff.rfl

theorem Same.stdMin {a b : Ieee F} {e f : Ext (Fl F.toFloatFormat)} (h : Same a e) (h' : Same b f) : Same (Verif.stdMin a b) (Ext.min e f) := by
  unfold Verif.stdMin Ext.min
  by_cases hc : b < a
  · rw [if_pos hc, if_pos ((h'.lt_iff h).1 hc)]; exact h'
  · rw [if_neg hc, if_neg (fun h2 => hc ((h'.lt_iff h).2 h2))]; exact h

theorem Same.stdMax {a b : Ieee F} {e f : Ext (Fl F.toFloatFormat)} (h : Same a e) (h' : Same b f) : Same (Verif.stdMax a b) (Ext.max e f) := by
  unfold Verif.stdMax Ext.max
  by_cases hc : a < b
  · rw [if_pos hc, if_pos ((h.lt_iff h').1 hc)]; exact h'
  · rw [if_neg hc, if_neg (fun h2 => hc ((h.lt_iff h').2 h2))]; exact h

variable [Tol (Fl F.toFloatFormat)] [HasLimits (Fl F.toFloatFormat)]

/-- Not larger than `2 ^ k` unless infinite. -/
def Bound (k : ℕ) : Ext (Fl F.toFloatFormat) → Prop
  | .fin x => |x.1| ≤ 2 ^ k
  | _ => True

theorem slab_same (hs : SameTol F) {k j m : ℕ} (hk : k + 1 + j < F.emax) {o d lo hi : Ieee F} {o' d' lo' hi' : Fl F.toFloatFormat}
    (ho : Near k o o') (hd : Near m d d') (hdj : isZero d = true ∨ 1 ≤ |d'.1| * 2 ^ j) (hlo : Near k lo lo') (hhi : Near k hi hi') :
    (raySlabRaw o d lo hi = none ∧ raySlab o' d' lo' hi' = none) ∨ ∃ p e, raySlabRaw o d lo hi = some p ∧ raySlab o' d' lo' hi' = some e ∧
      Same p.1 e.1 ∧ Same p.2 e.2 ∧ e.1 ≠ .posInf ∧ e.2 ≠ .negInf ∧ (isZero d = false → e.1 ≠ .negInf ∧ e.2 ≠ .posInf) ∧
      Bound (k + 1 + j) e.1 ∧ Bound (k + 1 + j) e.2 := by
  have hz' := hs.zero hd.val
  cases hz : isZero d with
  | true =>
    rw [slab_zero hz]
    unfold raySlab
    have hz2 : isZero d' = true := by rw [← hz', hz]
    rw [if_pos hz2, hs.less ho.val hlo.val, hs.greater ho.val hhi.val]
    by_cases hc : (isLess o' lo' || isGreater o' hi') = true
    · rw [if_pos hc, if_pos hc]; exact .inl ⟨rfl, rfl⟩
    · rw [if_neg hc, if_neg hc]
      exact .inr ⟨_, _, rfl, rfl, rfl, rfl, by simp, by simp, by simp, trivial, trivial⟩
  | false =>
    rw [slab_nonzero hz]
    unfold raySlab
    rw [if_neg (by rw [← hz', hz]; simp)]
    right
    have hdj' : 1 ≤ |d'.1| * 2 ^ j := by
      rcases hdj with h | h
      · rw [hz] at h; cases h
      · exact h
    have hinv := near_one.div (i := 0) (j := j) hd hdj' (by omega)
    have t1 := (hlo.sub ho (by omega)).mul hinv (by omega)
    have t2 := (hhi.sub ho (by omega)).mul hinv (by omega)
    exact ⟨_, _, rfl, rfl, (t1.stdMin t2).val, (t1.stdMax t2).val, by simp, by simp, by simp, by simpa [Bound] using (t1.stdMin t2).le, by simpa [Bound] using (t1.stdMax t2).le⟩

theorem ext_max_fin {e f : Ext (Fl F.toFloatFormat)} (he : e ≠ .posInf) (hf : f ≠ .posInf) :
    Ext.max e f ≠ .posInf ∧ (e ≠ .negInf ∨ f ≠ .negInf → Ext.max e f ≠ .negInf) := by
  cases e <;> cases f <;> simp_all [Ext.max, Ext.ltb]
  rename_i x y
  by_cases h : x < y <;> simp [h]

theorem ext_min_fin {e f : Ext (Fl F.toFloatFormat)} (he : e ≠ .negInf) (hf : f ≠ .negInf) :
    Ext.min e f ≠ .negInf ∧ (e ≠ .posInf ∨ f ≠ .posInf → Ext.min e f ≠ .posInf) := by
  cases e <;> cases f <;> simp_all [Ext.min, Ext.ltb]
  rename_i x y
  by_cases h : y < x <;> simp [h]

theorem Bound.max {k : ℕ} {e f : Ext (Fl F.toFloatFormat)} (he : Bound k e) (hf : Bound k f) : Bound k (Ext.max e f) := by
  unfold Ext.max; split_ifs <;> assumption
theorem Bound.min {k : ℕ} {e f : Ext (Fl F.toFloatFormat)} (he : Bound k e) (hf : Bound k f) : Bound k (Ext.min e f) := by
  unfold Ext.min; split_ifs <;> assumption

/-- The intervals of the two models agree; they are both the early return or finite and not too large. -/
theorem interval_same (hs : SameTol F) {k j m : ℕ} (hk : k + 1 + j < F.emax) (r : Ray (Ieee F) 3) (b : AABB (Ieee F) 3)
    (ho : ∀ i, AtMost k (r.origin i)) (hd : ∀ i, AtMost m (r.direction i)) (hlo : ∀ i, AtMost k (b.min i)) (hhi : ∀ i, AtMost k (b.max i))
    (hdj : ∀ i, isZero (r.direction i) = true ∨ 1 ≤ |(flOf r.direction i).1| * 2 ^ j) (hne : ∃ i, isZero (r.direction i) = false) :
    (aabbRayIntervalRaw r b = (HasLimits.maxVal, HasLimits.lowest) ∧
      aabbRayInterval ⟨flOf r.origin, flOf r.direction⟩ ⟨flOf b.min, flOf b.max⟩ = (.fin HasLimits.maxVal, .fin HasLimits.lowest)) ∨
    ∃ t u : Ieee F, ∃ x y : Fl F.toFloatFormat, aabbRayIntervalRaw r b = (t, u) ∧
      aabbRayInterval ⟨flOf r.origin, flOf r.direction⟩ ⟨flOf b.min, flOf b.max⟩ = (.fin x, .fin y) ∧ Near (k + 1 + j) t x ∧ Near (k + 1 + j) u y := by
  have hsl := fun i => slab_same hs hk (ho i).near (hd i).near (hdj i) (hlo i).near (hhi i).near
  unfold aabbRayIntervalRaw aabbRayInterval
  dsimp only
  have e : ∀ i, flOf r.origin i = toFl (r.origin i) ∧ flOf r.direction i = toFl (r.direction i) ∧ flOf b.min i = toFl (b.min i) ∧
    flOf b.max i = toFl (b.max i) := fun i => ⟨rfl, rfl, rfl, rfl⟩
  simp only [(e _).1, (e _).2.1, (e _).2.2.1, (e _).2.2.2]
  rcases hsl 0 with ⟨h, h'⟩ | ⟨p0, e0, g0, g0', s0, t0, u0, v0, w0, c0, d0⟩
  · rw [h, h']; exact .inl ⟨rfl, rfl⟩
  rcases hsl 1 with ⟨h, h'⟩ | ⟨p1, e1, g1, g1', s1, t1, u1, v1, w1, c1, d1⟩
  · rw [g0, g0', h, h']; exact .inl ⟨rfl, rfl⟩
  rcases hsl 2 with ⟨h, h'⟩ | ⟨p2, e2, g2, g2', s2, t2, u2, v2, w2, c2, d2⟩
  · rw [g0, g0', g1, g1', h, h']; exact .inl ⟨rfl, rfl⟩
  rw [g0, g0', g1, g1', g2, g2']
  dsimp only
  have S := s0.stdMax (s1.stdMax s2)
  have T := t0.stdMin (t1.stdMin t2)
  have BS := c0.max (c1.max c2)
  have BT := d0.min (d1.min d2)
  have x12 := ext_max_fin u1 u2
  have x := ext_max_fin u0 x12.1
  have y12 := ext_min_fin v1 v2
  have y := ext_min_fin v0 y12.1
  have hfin : Ext.max e0.1 (Ext.max e1.1 e2.1) ≠ .negInf ∧ Ext.min e0.2 (Ext.min e1.2 e2.2) ≠ .posInf := by
    obtain ⟨i, hi⟩ := hne
    fin_cases i
    · exact ⟨x.2 (.inl (w0 hi).1), y.2 (.inl (w0 hi).2)⟩
    · exact ⟨x.2 (.inr (x12.2 (.inl (w1 hi).1))), y.2 (.inr (y12.2 (.inl (w1 hi).2)))⟩
    · exact ⟨x.2 (.inr (x12.2 (.inr (w2 hi).1))), y.2 (.inr (y12.2 (.inr (w2 hi).2)))⟩
  generalize Ext.max e0.1 (Ext.max e1.1 e2.1) = E at S BS x hfin
  generalize Ext.min e0.2 (Ext.min e1.2 e2.2) = X at T BT y hfin
  right
  cases E with
  | negInf => exact absurd rfl hfin.1
  | posInf => exact absurd rfl x.1
  | fin u =>
    cases X with
    | negInf => exact absurd rfl y.1
    | posInf => exact absurd rfl hfin.2
    | fin v => exact ⟨_, _, u, v, rfl, rfl, ⟨S, BS⟩, ⟨T, BT⟩⟩

/-- **C127** For finite numbers of moderate size and a direction with some component not taken for zero, the test of the code on IEEE numbers is
the test studied in C16–C18, C101 and C103 (with infinities kept apart and without largest exponent): the simplifications of that model do not
matter there. -/
theorem C127_refine (hs : SameTol F) {k j m : ℕ} (hk : k + 1 + j < F.emax) (r : Ray (Ieee F) 3) (b : AABB (Ieee F) 3)
    (ho : ∀ i, AtMost k (r.origin i)) (hd : ∀ i, AtMost m (r.direction i)) (hlo : ∀ i, AtMost k (b.min i)) (hhi : ∀ i, AtMost k (b.max i))
    (hdj : ∀ i, isZero (r.direction i) = true ∨ 1 ≤ |(flOf r.direction i).1| * 2 ^ j) (hne : ∃ i, isZero (r.direction i) = false) :
    isIntersectingRayBoxRaw r b = isIntersectingRayBox ⟨flOf r.origin, flOf r.direction⟩ ⟨flOf b.min, flOf b.max⟩ := by
  have hz : (0 : Ieee F).val? = some (0 : Fl F.toFloatFormat).1 := rfl
  unfold isIntersectingRayBoxRaw isIntersectingRayBox
  rcases interval_same hs hk r b ho hd hlo hhi hdj hne with ⟨h, h'⟩ | ⟨t, u, x, y, h, h', hx, hy⟩
  · rw [h, h']
    dsimp only
    rw [hs.lessEq hs.maxVal hs.lowest, hs.greaterEq hs.lowest hz]; rfl
  · rw [h, h']
    dsimp only
    rw [hs.lessEq hx.val hy.val, hs.greaterEq hy.val hz]; rfl

/-- The same point. -/
def SamePoint (v : Option (Vec (Ieee F) 3)) (x : Option (Vec (Fl F.toFloatFormat) 3)) : Prop :=
  v.map (fun v i => (v i).val?) = x.map (fun x i => some (x i).1)

/-- **C127** Likewise `intersect` on IEEE numbers reports the same points; no assertion fails. -/
theorem C127_refine_points (dbg : Bool) (hs : SameTol F) {k j m : ℕ} (hk : k + j + m + 2 < F.emax) (r : Ray (Ieee F) 3) (b : AABB (Ieee F) 3)
    (ho : ∀ i, AtMost k (r.origin i)) (hd : ∀ i, AtMost m (r.direction i)) (hlo : ∀ i, AtMost k (b.min i)) (hhi : ∀ i, AtMost k (b.max i))
    (hdj : ∀ i, isZero (r.direction i) = true ∨ 1 ≤ |(flOf r.direction i).1| * 2 ^ j) (hne : ∃ i, isZero (r.direction i) = false)
    (hlim : isGreaterEq (HasLimits.maxVal : Fl F.toFloatFormat) HasLimits.lowest = true) :
    ∃ p q, intersectRayBoxRaw dbg r b = .ok p ∧ intersectRayBox dbg ⟨flOf r.origin, flOf r.direction⟩ ⟨flOf b.min, flOf b.max⟩ = .ok q ∧
      SamePoint p.enter q.enter ∧ SamePoint p.exit q.exit := by
  have hz : (0 : Ieee F).val? = some (0 : Fl F.toFloatFormat).1 := rfl
  unfold intersectRayBoxRaw intersectRayBox
  rcases interval_same hs (by omega) r b ho hd hlo hhi hdj hne with ⟨h, h'⟩ | ⟨t, u, x, y, h, h', hx, hy⟩
  · rw [h, h']
    dsimp only [Ext.isGreaterEq]
    rw [hs.greaterEq hs.maxVal hs.lowest]
    simp only [hlim, if_true]
    exact ⟨_, _, rfl, rfl, rfl, rfl⟩
  · rw [h, h']
    dsimp only [Ext.isGreaterEq]
    rw [hs.greaterEq hx.val hy.val, hs.greaterEq hx.val hz, hs.greaterEq hy.val hz]
    have hpt : ∀ {t : Ieee F} {x : Fl F.toFloatFormat}, Near (k + 1 + j) t x → isGreaterEq x 0 = true →
        ∃ p q, ordinateToPointRaw dbg r t = .ok p ∧ ordinateToPoint dbg ⟨flOf r.origin, flOf r.direction⟩ (.fin x) = .ok q ∧ SamePoint (some p) (some q) := by
      intro t x ht hg
      unfold ordinateToPointRaw ordinateToPoint
      rw [hs.greaterEq ht.val hz]
      dsimp only [Ext.isGreaterEq]
      rw [hg, geoAssert_true]
      refine ⟨_, _, rfl, rfl, ?_⟩
      show some _ = some _
      congr 1
      funext i
      have ha : Near (m + (k + 1 + j)) (r.direction i * t) (flOf r.direction i * x) := (hd i).near.mul ht (by omega)
      exact (((ho i).near.mono (show k ≤ m + (k + 1 + j) by omega)).add ha (by omega)).val
    rcases Bool.eq_false_or_eq_true (isGreaterEq x y) with hxy | hxy
    · simp only [hxy, if_true]
      exact ⟨_, _, rfl, rfl, rfl, rfl⟩
    · rcases Bool.eq_false_or_eq_true (isGreaterEq x 0) with h1 | h1
      · obtain ⟨p, q, e1, e2, e3⟩ := hpt hx h1
        rcases Bool.eq_false_or_eq_true (isGreaterEq y 0) with h2 | h2
        · obtain ⟨p', q', e1', e2', e3'⟩ := hpt hy h2
          simp only [hxy, h1, h2, Bool.false_eq_true, if_false, if_true, e1, e2, e1', e2']
          exact ⟨_, _, rfl, rfl, e3, e3'⟩
        · simp only [hxy, h1, h2, if_true, Bool.false_eq_true, if_false, e1, e2]
          exact ⟨_, _, rfl, rfl, e3, rfl⟩
      · rcases Bool.eq_false_or_eq_true (isGreaterEq y 0) with h2 | h2
        · obtain ⟨p', q', e1', e2', e3'⟩ := hpt hy h2
          simp only [hxy, h1, h2, if_true, Bool.false_eq_true, if_false, e1', e2']
          exact ⟨_, _, rfl, rfl, rfl, e3'⟩
        · simp only [hxy, h1, h2, Bool.false_eq_true, if_false]
          exact ⟨_, _, rfl, rfl, rfl, rfl⟩
end

/-! ### Examples -/
section Examples
/-- Comparisons with an added tolerance, carried out in IEEE arithmetic. -/
@[reducible] noncomputable def tolAdd (F : IeeeFormat) (e : Ieee F) : Tol (Ieee F) where
  eps := e
  isLess a b e := decide (a + e < b)
  isGreater a b e := decide (b + e < a)
  isLessEq a b e := !decide (b + e < a)
  isGreaterEq a b e := !decide (a + e < b)
  isEq a b e := !decide (a + e < b) && !decide (b + e < a)
  isZero a e := !decide (e < a) && !decide (a < -e)

theorem add_mono_left {a b e : Ieee F} (he : Finite e) (ha : a ≠ nan) (hb : b ≠ nan) (h : ord a ≤ ord b) :
    a + e ≠ nan ∧ b + e ≠ nan ∧ ord (a + e) ≤ ord (b + e) := by
  obtain ⟨v, he⟩ := he
  have hi : ∀ s, (inf s : Ieee F) + e = inf s := fun s => by
    cases e <;> first | rfl | cases he
  have hn : ∀ {a : Ieee F}, a ≠ nan → a + e ≠ nan := by
    intro a ha
    rcases ext_cases ha with ⟨s, rfl⟩ | ⟨u, hu⟩
    · rw [hi]; exact fun h => (by cases h)
    · obtain ⟨s, hs⟩ := add_def hu he; rw [hs]; exact ofReal_ne_nan _ _
  refine ⟨hn ha, hn hb, ?_⟩
  rcases ext_cases ha with ⟨s, rfl⟩ | ⟨u, hu⟩
  · rw [hi]
    cases s
    · rcases ext_cases hb with ⟨t, rfl⟩ | ⟨w, hw⟩
      · rw [hi]; exact h
      · rw [ord_of_val hw] at h; exact absurd (top_le_iff.1 h) (EReal.coe_ne_top _)
    · exact bot_le
  · rcases ext_cases hb with ⟨t, rfl⟩ | ⟨w, hw⟩
    · rw [hi]
      cases t
      · exact le_top
      · rw [ord_of_val hu] at h
        exact absurd (le_bot_iff.1 h) (EReal.coe_ne_bot _)
    · obtain ⟨s, hs⟩ := add_def hu he
      obtain ⟨t, ht⟩ := add_def hw he
      rw [hs, ht]
      rw [ord_of_val hu, ord_of_val hw, EReal.coe_le_coe_iff] at h
      exact ord_ofReal_mono (by linarith)

theorem le_add_nonneg {a e : Ieee F} {v : ℝ} (he : e.val? = some v) (hv : 0 ≤ v) (ha : a ≠ nan) : ord a ≤ ord (a + e) := by
  rcases ext_cases ha with ⟨s, rfl⟩ | ⟨u, hu⟩
  · have : (inf s : Ieee F) + e = inf s := by cases e <;> first | rfl | cases he
    rw [this]
  · obtain ⟨s, hs⟩ := add_def hu he
    have h := ord_ofReal_mono (F := F) (s := false) (t := s) (show u ≤ u + v by linarith)
    rw [ord_of_val (ofReal_val (val_mem hu).1 (val_mem hu).2)] at h
    rw [ord_of_val hu, hs]
    exact h

/-- The assumptions about the comparisons hold for every tolerance. -/
theorem orderedTol_add (F : IeeeFormat) (e : Ieee F) (v : ℝ) (he : e.val? = some v) (hv : 0 ≤ v) : @OrderedTol F (tolAdd F e) := by
  let _ := tolAdd F e
  have hf : Finite e := ⟨v, he⟩
  have hl : ∀ {a b : Ieee F}, b ≠ nan → (decide (a + e < b) = true ↔ ord (a + e) < ord b) := fun hb => by
    rw [decide_eq_true_eq, lt_iff_ord hb]
  refine ⟨?_, ?_, ?_, ?_, ?_, ?_, ?_, ?_, ?_⟩
  · intro a b a' b' ha hb ha' hb' h1 h2 h
    exact (hl hb').2 ((add_mono_left hf ha' ha h1).2.2.trans_lt (((hl hb).1 h).trans_le h2))
  · intro a b a' b' ha hb ha' hb' h1 h2 h
    exact (hl ha').2 ((add_mono_left hf hb' hb h2).2.2.trans_lt (((hl ha).1 h).trans_le h1))
  · intro a b a' b' ha hb ha' hb' h1 h2 h
    show (!decide (b' + e < a')) = true
    have h : (!decide (b + e < a)) = true := h
    rw [Bool.not_eq_true', ← Bool.not_eq_true, hl ha, not_lt] at h
    rw [Bool.not_eq_true', ← Bool.not_eq_true, hl ha', not_lt]
    exact h1.trans (h.trans (add_mono_left hf hb hb' h2).2.2)
  · intro a b a' b' ha hb ha' hb' h1 h2 h
    show (!decide (a' + e < b')) = true
    have h : (!decide (a + e < b)) = true := h
    rw [Bool.not_eq_true', ← Bool.not_eq_true, hl hb, not_lt] at h
    rw [Bool.not_eq_true', ← Bool.not_eq_true, hl hb', not_lt]
    exact h2.trans (h.trans (add_mono_left hf ha ha' h1).2.2)
  · intro a b ha hb h
    exact (le_add_nonneg he hv ha).trans_lt ((hl hb).1 h)
  · intro a b ha hb h
    exact (le_add_nonneg he hv hb).trans_lt ((hl ha).1 h)
  · intro a b ha hb h _
    show (!decide (b + e < a)) = true
    rw [Bool.not_eq_true', ← Bool.not_eq_true, hl ha, not_lt]
    exact h.trans (le_add_nonneg he hv hb)
  · intro a b ha hb h _
    show (!decide (a + e < b)) = true
    rw [Bool.not_eq_true', ← Bool.not_eq_true, hl hb, not_lt]
    exact h.trans (le_add_nonneg he hv ha)
  · show (!decide ((HasLimits.lowest : Ieee F) + e < HasLimits.maxVal)) = false
    have nm : (HasLimits.maxVal : Ieee F) ≠ nan := fun h => (by cases h)
    have hm : (HasLimits.maxVal : Ieee F).val? = some (((2 : ℝ) ^ F.prec - 1) * (2 : ℝ) ^ ((F.emax : ℤ) - F.prec)) := rfl
    have hlow : (HasLimits.lowest : Ieee F).val? = some (-(((2 : ℝ) ^ F.prec - 1) * (2 : ℝ) ^ ((F.emax : ℤ) - F.prec))) := rfl
    rw [Bool.not_eq_false', hl nm]
    have hle := (limits he).2
    rw [ord_of_val he, ord_of_val hm, EReal.coe_le_coe_iff] at hle
    obtain ⟨s, hs⟩ := add_def hlow he
    have h := ord_ofReal_mono (F := F) (s := s) (t := false) (show -(((2 : ℝ) ^ F.prec - 1) * (2 : ℝ) ^ ((F.emax : ℤ) - F.prec)) + v ≤ 0 by linarith)
    rw [ord_of_val (ofReal_val (F := F) Representable.zero (by rw [abs_zero]; positivity))] at h
    rw [hs]
    refine h.trans_lt ?_
    rw [ord_of_val hm, EReal.coe_lt_coe_iff]
    have : (1 : ℝ) < 2 ^ F.prec := one_lt_pow₀ (by norm_num) (by have := F.one_lt_prec; omega)
    exact mul_pos (by linarith) (by positivity)

section
/-- The tolerance 0. -/
noncomputable local instance tol0 : Tol (Ieee double64) := tolAdd double64 (ie64 0)
theorem ordered0 : OrderedTol double64 := orderedTol_add double64 (ie64 0) 0 (by show some (((0 : ℤ) : ℝ)) = _; simp) le_rfl

theorem ie64_ord (n : ℤ) (h : |n| < 2 ^ 53) : ord (ie64 n h) = ((n : ℝ) : EReal) := rfl

theorem ie64_zero_iff (n : ℤ) (h : |n| < 2 ^ 53) : isZero (ie64 n h) = true ↔ n = 0 := by
  show (!decide (ie64 0 < ie64 n h) && !decide (ie64 n h < -ie64 0)) = true ↔ _
  have h0 : (-ie64 0).val? = some 0 := by rw [val_neg (show (ie64 0).val? = some ((0 : ℤ) : ℝ) from rfl)]; simp
  have n0 : -ie64 0 ≠ nan := Finite.ne_nan ⟨_, h0⟩
  rw [Bool.and_eq_true, Bool.not_eq_true', Bool.not_eq_true', decide_eq_false_iff_not, decide_eq_false_iff_not, lt_iff_ord (fun h => (by cases h)),
    lt_iff_ord n0, ord_of_val h0, ie64_ord, ie64_ord, EReal.coe_lt_coe_iff, EReal.coe_lt_coe_iff]
  constructor
  · rintro ⟨h1, h2⟩
    have h3 : ¬ (0 : ℤ) < n := fun h => h1 (by exact_mod_cast h)
    have h4 : ¬ n < (0 : ℤ) := fun h => h2 (by exact_mod_cast h)
    omega
  · rintro rfl; simp

theorem ie64_dirOk (n : ℤ) (h : n = 0 ∨ n = 1 ∨ n = -1) (hn : |n| < 2 ^ 53) : DirOk (ie64 n hn) := by
  rcases h with rfl | rfl | rfl
  · exact .inl ((ie64_zero_iff _ _).2 rfl)
  · exact dirOk_of (r := 1) (j := 0) (by show some (((1 : ℤ) : ℝ)) = _; simp) (by simp) (by simp) (by show 0 < 1024; norm_num)
  · exact dirOk_of (r := -1) (j := 0) (by show some (((-1 : ℤ) : ℝ)) = _; simp) (by simp) (by simp) (by show 0 < 1024; norm_num)

/-- The whole space as a box: every ray hits it. -/
example : isIntersectingRayBoxRaw ⟨q64 1 2 3, q64 0 1 (-1)⟩ ⟨![inf true, inf true, inf true], ![inf false, inf false, inf false]⟩ = true :=
  C127_inside ordered0 _ _ (q64_fin _ _ _ _ _ _)
    (fun i => by fin_cases i; exacts [ie64_dirOk 0 (by simp) _, ie64_dirOk 1 (by simp) _, ie64_dirOk (-1) (by simp) _])
    (fun i => by fin_cases i <;> exact ⟨fun h => (by cases h), fun h => (by cases h)⟩)
    (fun i => by fin_cases i <;> exact ⟨bot_le, le_top⟩)

/-- From a bounded box to one that is unbounded in `z`. -/
example : isIntersectingRayBoxRaw ⟨q64 1 2 3, q64 0 1 (-1)⟩ ⟨![ie64 0, ie64 0, inf true], ![ie64 5, ie64 5, inf false]⟩ = true :=
  C127_grow ordered0 _ ⟨q64 0 1 2, q64 4 5 6⟩ _ (q64_fin _ _ _ _ _ _)
    (fun i => by fin_cases i; exacts [ie64_dirOk 0 (by simp) _, ie64_dirOk 1 (by simp) _, ie64_dirOk (-1) (by simp) _])
    (fun i => by fin_cases i <;> exact ⟨fun h => (by cases h), fun h => (by cases h), fun h => (by cases h), fun h => (by cases h)⟩)
    (fun i => by fin_cases i <;> (show ord (ie64 _ _) ≤ ord (ie64 _ _); rw [ie64_ord, ie64_ord, EReal.coe_le_coe_iff]; norm_num))
    (fun i => by
      fin_cases i
      · exact ⟨le_rfl, by show ord (ie64 4) ≤ ord (ie64 5); rw [ie64_ord, ie64_ord, EReal.coe_le_coe_iff]; norm_num⟩
      · exact ⟨by show ord (ie64 0) ≤ ord (ie64 1); rw [ie64_ord, ie64_ord, EReal.coe_le_coe_iff]; norm_num, le_rfl⟩
      · exact ⟨bot_le, le_top⟩)
    (C127_inside ordered0 _ _ (q64_fin _ _ _ _ _ _)
      (fun i => by fin_cases i; exacts [ie64_dirOk 0 (by simp) _, ie64_dirOk 1 (by simp) _, ie64_dirOk (-1) (by simp) _])
      (fun i => by fin_cases i <;> exact ⟨fun h => (by cases h), fun h => (by cases h)⟩)
      (fun i => by
        fin_cases i
        · exact ⟨by show ord (ie64 0) ≤ ord (ie64 1); rw [ie64_ord, ie64_ord, EReal.coe_le_coe_iff]; norm_num, by show ord (ie64 1) ≤ ord (ie64 4); rw [ie64_ord, ie64_ord, EReal.coe_le_coe_iff]; norm_num⟩
        · exact ⟨by show ord (ie64 1) ≤ ord (ie64 2); rw [ie64_ord, ie64_ord, EReal.coe_le_coe_iff]; norm_num, by show ord (ie64 2) ≤ ord (ie64 5); rw [ie64_ord, ie64_ord, EReal.coe_le_coe_iff]; norm_num⟩
        · exact ⟨by show ord (ie64 2) ≤ ord (ie64 3); rw [ie64_ord, ie64_ord, EReal.coe_le_coe_iff]; norm_num, by show ord (ie64 3) ≤ ord (ie64 6); rw [ie64_ord, ie64_ord, EReal.coe_le_coe_iff]; norm_num⟩))

theorem ie64_not_zero (n : ℤ) (h : |n| < 2 ^ 53) (hn : n ≠ 0) : isZero (ie64 n h) = false := by
  rw [← Bool.not_eq_true, ie64_zero_iff]; exact hn

/-- A box that lies 100 behind the ray, with one NaN. -/
example : isIntersectingRayBoxRaw ⟨q64 0 0 0, q64 0 1 1⟩ ⟨![ie64 (-1), nan, ie64 (-101)], ![ie64 1, ie64 1, ie64 (-100)]⟩ = true :=
  C128_counterexample ordered0 _ _ ((ie64_zero_iff 0 _).2 rfl) ⟨_, rfl⟩
    ⟨fun h => (by cases h), fun h => (by cases h), by show ord (ie64 (-1)) ≤ ord (ie64 0); rw [ie64_ord, ie64_ord, EReal.coe_le_coe_iff]; norm_num,
      by show ord (ie64 0) ≤ ord (ie64 1); rw [ie64_ord, ie64_ord, EReal.coe_le_coe_iff]; norm_num⟩ rfl (ie64_not_zero 1 _ (by norm_num)) (ie64_not_zero 1 _ (by norm_num))

/-- The interval is that of the `x` slab alone. -/
example : aabbRayIntervalRaw ⟨q64 0 0 0, q64 1 1 1⟩ ⟨![ie64 2, nan, ie64 (-101)], ![ie64 5, ie64 1, ie64 (-100)]⟩ =
    (stdMin ((ie64 2 - ie64 0) * (1 / ie64 1)) ((ie64 5 - ie64 0) * (1 / ie64 1)), stdMax ((ie64 2 - ie64 0) * (1 / ie64 1)) ((ie64 5 - ie64 0) * (1 / ie64 1))) :=
  C128_nan_y ⟨q64 0 0 0, q64 1 1 1⟩ ⟨![ie64 2, nan, ie64 (-101)], ![ie64 5, ie64 1, ie64 (-100)]⟩ rfl (ie64_not_zero 1 _ (by norm_num)) (ie64_not_zero 1 _ (by norm_num)) _
    (slab_nonzero (ie64_not_zero 1 _ (by norm_num)))

example : raySlabRaw (ie64 0) (ie64 1) (ie64 3) nan = raySlabRaw (ie64 0) (ie64 1) (ie64 3) (ie64 3) :=
  C128_nan_max _ _ _ (ie64_not_zero 1 _ (by norm_num))
end

section
attribute [local instance] tolExact
noncomputable local instance : HasLimits (Fl double64.toFloatFormat) := ⟨⟨_, double64.max_mem⟩, -⟨_, double64.max_mem⟩⟩
noncomputable local instance : Tol (Fl double64.toFloatFormat) where
  eps := 0
  isLess a b _ := decide (a < b)
  isGreater a b _ := decide (b < a)
  isLessEq a b _ := @decide (a.1 ≤ b.1) (Classical.propDecidable _)
  isGreaterEq a b _ := @decide (b.1 ≤ a.1) (Classical.propDecidable _)
  isEq a b _ := @decide (a = b) (Classical.propDecidable _)
  isZero a _ := @decide (a.1 = 0) (Classical.propDecidable _)

theorem lt_iff_val {a b : Ieee F} {x y : ℝ} (ha : a.val? = some x) (hb : b.val? = some y) : a < b ↔ x < y := by
  rw [lt_iff_ord (Finite.ne_nan ⟨y, hb⟩), ord_of_val ha, ord_of_val hb, EReal.coe_lt_coe_iff]
theorem beq_iff_val {a b : Ieee F} {x y : ℝ} (ha : a.val? = some x) (hb : b.val? = some y) : (a == b) = true ↔ x = y := by
  rw [beq_iff, ord_of_val ha, ord_of_val hb, EReal.coe_eq_coe_iff]
  exact ⟨fun h => h.2.2, fun h => ⟨Finite.ne_nan ⟨x, ha⟩, Finite.ne_nan ⟨y, hb⟩, h⟩⟩

theorem same64 : SameTol double64 where
  zero {a x} ha := by
    rw [Bool.eq_iff_iff]
    show (a == 0) = true ↔ @decide (x.1 = 0) (Classical.propDecidable _) = true
    rw [beq_iff_val ha (show (0 : Ieee double64).val? = some 0 from rfl), @decide_eq_true_iff]
  less {a b x y} ha hb := by
    rw [Bool.eq_iff_iff]
    show decide (a < b) = true ↔ decide (x < y) = true
    rw [decide_eq_true_iff, decide_eq_true_iff, lt_iff_val ha hb]; exact Iff.rfl
  greater {a b x y} ha hb := by
    rw [Bool.eq_iff_iff]
    show decide (b < a) = true ↔ decide (y < x) = true
    rw [decide_eq_true_iff, decide_eq_true_iff, lt_iff_val hb ha]; exact Iff.rfl
  lessEq {a b x y} ha hb := by
    rw [Bool.eq_iff_iff]
    show (decide (a < b) || (a == b)) = true ↔ @decide (x.1 ≤ y.1) (Classical.propDecidable _) = true
    rw [Bool.or_eq_true, decide_eq_true_iff, lt_iff_val ha hb, beq_iff_val ha hb, @decide_eq_true_iff, le_iff_lt_or_eq]
  greaterEq {a b x y} ha hb := by
    rw [Bool.eq_iff_iff]
    show (decide (b < a) || (a == b)) = true ↔ @decide (y.1 ≤ x.1) (Classical.propDecidable _) = true
    rw [Bool.or_eq_true, decide_eq_true_iff, lt_iff_val hb ha, beq_iff_val ha hb, @decide_eq_true_iff, le_iff_lt_or_eq, eq_comm (a := x.1)]
  maxVal := rfl
  lowest := rfl

/-- Coordinates up to 2 ^ 900. -/
example : isIntersectingRayBoxRaw ⟨q64 1 2 3, q64 0 1 (-1)⟩ ⟨q64 0 5 (-7), q64 2 9 2⟩ =
    isIntersectingRayBox ⟨flOf (q64 1 2 3), flOf (q64 0 1 (-1))⟩ ⟨flOf (q64 0 5 (-7)), flOf (q64 2 9 2)⟩ :=
  C127_refine same64 (k := 900) (j := 100) (m := 53) (by show 900 + 1 + 100 < 1024; norm_num) _ _ (q64_most _ (by norm_num) _ _ _ _ _ _) (q64_most _ (by norm_num) _ _ _ _ _ _)
    (q64_most _ (by norm_num) _ _ _ _ _ _) (q64_most _ (by norm_num) _ _ _ _ _ _)
    (fun i => by
      have e : ∀ n h, (toFl (ie64 n h)).1 = (n : ℝ) := fun _ _ => rfl
      fin_cases i
      · left
        rw [same64.zero (x := toFl (ie64 0)) rfl]
        exact @decide_eq_true _ (Classical.propDecidable _) (by rw [e]; simp)
      · right; show 1 ≤ |(toFl (ie64 1)).1| * 2 ^ 100; rw [e]; norm_num
      · right; show 1 ≤ |(toFl (ie64 (-1))).1| * 2 ^ 100; rw [e]; norm_num)
    ⟨1, by
      show isZero (ie64 1) = false
      rw [same64.zero (x := toFl (ie64 1)) rfl]
      exact @decide_eq_false _ (Classical.propDecidable _) (by show ¬ (((1 : ℤ) : ℝ)) = 0; simp)⟩

example (dbg : Bool) : ∃ p q, intersectRayBoxRaw dbg ⟨q64 1 2 3, q64 0 1 (-1)⟩ ⟨q64 0 5 (-7), q64 2 9 2⟩ = .ok p ∧
    intersectRayBox dbg ⟨flOf (q64 1 2 3), flOf (q64 0 1 (-1))⟩ ⟨flOf (q64 0 5 (-7)), flOf (q64 2 9 2)⟩ = .ok q ∧ SamePoint p.enter q.enter ∧ SamePoint p.exit q.exit :=
  C127_refine_points dbg same64 (k := 900) (j := 60) (m := 53) (by show 900 + 60 + 53 + 2 < 1024; norm_num) ⟨q64 1 2 3, q64 0 1 (-1)⟩ ⟨q64 0 5 (-7), q64 2 9 2⟩ (q64_most _ (by norm_num) _ _ _ _ _ _) (q64_most _ (by norm_num) _ _ _ _ _ _)
    (q64_most _ (by norm_num) _ _ _ _ _ _) (q64_most _ (by norm_num) _ _ _ _ _ _)
    (fun i => by
      have e : ∀ n h, (toFl (ie64 n h)).1 = (n : ℝ) := fun _ _ => rfl
      fin_cases i
      · left
        show isZero (ie64 0) = true
        rw [same64.zero (x := toFl (ie64 0)) rfl]
        exact @decide_eq_true _ (Classical.propDecidable _) (by rw [e]; simp)
      · right; show 1 ≤ |(toFl (ie64 1)).1| * 2 ^ 60; rw [e]; norm_num
      · right; show 1 ≤ |(toFl (ie64 (-1))).1| * 2 ^ 60; rw [e]; norm_num)
    ⟨1, by
      show isZero (ie64 1) = false
      rw [same64.zero (x := toFl (ie64 1)) rfl]
      exact @decide_eq_false _ (Classical.propDecidable _) (by show ¬ (((1 : ℤ) : ℝ)) = 0; simp)⟩
    (@decide_eq_true _ (Classical.propDecidable _) ((neg_nonpos.2 (max_nonneg double64)).trans (max_nonneg double64)))
end
end Examples
end Ieee
end Verif
