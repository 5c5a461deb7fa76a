import Verif.Props.FloatAxisDist

set_option linter.unusedSectionVars false

/-
C167: distances of axis-parallel lines.
-/
namespace Verif
open Spec

theorem coord_le_dist {D : ℕ} (p q : Vec ℝ D) (c : Fin D) : |p c - q c| ≤ Spec.dist p q := by
  unfold Spec.dist
  rw [← Real.sqrt_sq_eq_abs]
  exact Real.sqrt_le_sqrt (Finset.single_le_sum (f := fun i => (p i - q i) ^ 2) (fun i _ => sq_nonneg _) (Finset.mem_univ c))

/-- The distance of two lines along different axes. -/
theorem skew_axis (o d o' d' : Vec ℝ 3) (a b c : Fin 3) (hab : a ≠ b) (hac : a ≠ c) (hbc : b ≠ c) (hd : d a ≠ 0) (h0 : ∀ i, i ≠ a → d i = 0)
    (hd' : d' b ≠ 0) (h0' : ∀ i, i ≠ b → d' i = 0) : IsDistance (line o d) (line o' d') |o c - o' c| := by
  constructor
  · refine ⟨_, ⟨(o' a - o a) / d a, rfl⟩, _, ⟨(o b - o' b) / d' b, rfl⟩, ?_⟩
    unfold Spec.dist
    rw [Finset.sum_eq_single c, Real.sqrt_sq_eq_abs]
    · unfold pointAt
      rw [h0 c hac.symm, h0' c hbc.symm, mul_zero, mul_zero, add_zero, add_zero]
    · intro i _ hi
      have : i = a ∨ i = b := by omega
      unfold pointAt
      rcases this with rfl | rfl
      · rw [h0' i hab, div_mul_cancel₀ _ hd]; ring
      · rw [h0 i hab.symm, div_mul_cancel₀ _ hd']; ring
    · exact fun h => absurd (Finset.mem_univ c) h
  · rintro x ⟨p, ⟨t, rfl⟩, q, ⟨t', rfl⟩, rfl⟩
    refine le_trans (le_of_eq ?_) (coord_le_dist _ _ c)
    unfold pointAt
    rw [h0 c hac.symm, h0' c hbc.symm, mul_zero, mul_zero, add_zero, add_zero]

/-- The distance of two lines along the same axis is that of the origin of one from the other. -/
theorem parallel_axis (o d o' d' : Vec ℝ 3) (a : Fin 3) (h0 : ∀ i, i ≠ a → d i = 0)
    (h0' : ∀ i, i ≠ a → d' i = 0) (hd' : d' a ≠ 0) {δ : ℝ} (h : IsDistance {o} (line o' d') δ) : IsDistance (line o d) (line o' d') δ := by
  obtain ⟨⟨o₁, ho, q, hq, he⟩, hmin⟩ := h
  rw [Set.mem_singleton_iff] at ho
  rw [ho] at he
  refine ⟨⟨o, ⟨0, by funext i; simp [pointAt]⟩, q, hq, he⟩, ?_⟩
  rintro x ⟨p, ⟨t, rfl⟩, q', ⟨t', rfl⟩, rfl⟩
  have hm : pointAt o' d' (t' - t * d a / d' a) ∈ line o' d' := ⟨_, rfl⟩
  refine le_trans (hmin ⟨o, rfl, _, hm, rfl⟩) (le_of_eq ?_)
  unfold Spec.dist
  congr 1
  refine Finset.sum_congr rfl fun i _ => ?_
  congr 1
  show o i - (o' i + (t' - t * d a / d' a) * d' i) = o i + t * d i - (o' i + t' * d' i)
  by_cases hi : i = a
  · subst hi
    rw [sub_mul, div_mul_cancel₀ _ hd']; ring
  · rw [h0 i hi, h0' i hi]; ring

section
variable {F : FloatFormat}

/-- The cross product of two unit vectors along different axes. -/
theorem cross_unit (e f : Vec (Fl F) 3) (a b c : Fin 3) (hab : a ≠ b) (hac : a ≠ c) (hbc : b ≠ c) (he : (e a).1 = 1 ∨ (e a).1 = -1)
    (h0 : ∀ i, i ≠ a → (e i).1 = 0) (hf : (f b).1 = 1 ∨ (f b).1 = -1) (h0' : ∀ i, i ≠ b → (f i).1 = 0) :
    ((cross e f c).1 = 1 ∨ (cross e f c).1 = -1) ∧ ∀ i, i ≠ c → (cross e f i).1 = 0 := by
  have h1 : F.rnd 1 = 1 := F.rounds.exact F.one_mem
  have key : ∀ x y z w : Fl F, (x.1 = 1 ∨ x.1 = -1) → (y.1 = 1 ∨ y.1 = -1) → z.1 = 0 →
      ((x * y - z * w).1 = 1 ∨ (x * y - z * w).1 = -1) ∧ ((z * w - x * y).1 = 1 ∨ (z * w - x * y).1 = -1) := by
    intro x y z w hx hy hz
    have e1 : (z * w).1 = 0 := by rw [Fl.val_mul, hz, zero_mul, F.rounds.zero]
    rw [Fl.val_sub, Fl.val_sub, e1, mul_sign _ _ hy]
    rcases hx with hx | hx <;> rcases hy with hy | hy <;> rw [hx, hy] <;> norm_num [F.rounds.odd, h1]
  refine ⟨?_, fun i hi => cross_axis (h0 c hac.symm) (h0' c hbc.symm) i hi⟩
  have hz := h0 b hab.symm
  have k := key (e a) (f b) (e b) (f a) he hf hz
  fin_cases a <;> fin_cases b <;> fin_cases c <;> first | exact absurd rfl hab | exact absurd rfl hac | exact absurd rfl hbc | exact k.1 | exact k.2

theorem length_unit (e : Vec (Fl F) 3) (a : Fin 3) (he : (e a).1 = 1 ∨ (e a).1 = -1) (h0 : ∀ i, i ≠ a → (e i).1 = 0)
    (hk : ∀ k, F.emin = some k → k + F.prec ≤ 1) : length e = 1 := by
  have ha : |(e a).1| = 1 := by rcases he with h | h <;> rw [h] <;> simp
  apply Fl.ext
  rw [C161_length e a h0, norm_axis (Fl.toReal e) a h0, Fl.val_one]
  · exact ha
  · intro k hk'
    have := hk k hk'
    refine ⟨this, ?_⟩
    rw [ha]
    exact zpow_le_one_of_nonpos₀ (by norm_num) (by omega)

variable [Tol (Fl F)]

/-- **C167** Lines made along different axes: the result is up to its sign (see C24) the correctly rounded distance. -/
theorem C167_skew (dbg : Bool) (o d o' d' : Vec (Fl F) 3) (a b c : Fin 3) (hab : a ≠ b) (hac : a ≠ c) (hbc : b ≠ c) (hd : (d a).1 ≠ 0)
    (h0 : ∀ i, i ≠ a → (d i).1 = 0) (hs : ∀ k, F.emin = some k → k + F.prec ≤ 1 ∧ (2 : ℝ) ^ ((k + F.prec) / 2) ≤ |(d a).1|) (hd' : (d' b).1 ≠ 0)
    (h0' : ∀ i, i ≠ b → (d' i).1 = 0) (hs' : ∀ k, F.emin = some k → k + F.prec ≤ 1 ∧ (2 : ℝ) ^ ((k + F.prec) / 2) ≤ |(d' b).1|)
    (he : isEq (1 : Fl F) 1 = true) (hz : isZero (1 : Fl F) = false) :
    ∃ x δ, distLineLine dbg (Line.make o d) (Line.make o' d') = .ok x ∧
      IsDistance (line (Fl.toReal o) (Fl.toReal d)) (line (Fl.toReal o') (Fl.toReal d')) δ ∧ |x.1| = F.rnd δ := by
  obtain ⟨-, hg, hn⟩ := normalize_axis hd h0 hs
  obtain ⟨-, hg', hn'⟩ := normalize_axis hd' h0' hs'
  have hk : ∀ k, F.emin = some k → k + F.prec ≤ 1 := fun k h => (hs k h).1
  obtain ⟨c1, c2⟩ := cross_unit (normalize d) (normalize d') a b c hab hac hbc hg hn hg' hn'
  have l1 := length_unit (normalize d) a hg hn hk
  have l2 := length_unit (normalize d') b hg' hn' hk
  have l3 := length_unit (cross (normalize d) (normalize d')) c c1 c2 hk
  refine ⟨dot (vsub o o') (cross (normalize d) (normalize d')) / 1, _, ?_, skew_axis (Fl.toReal o) (Fl.toReal d) (Fl.toReal o') (Fl.toReal d') a b c hab hac hbc hd h0 hd' h0', ?_⟩
  · unfold distLineLine Line.make
    simp only [l1, l2, l3, he, hz, geoAssert_true]
    rfl
  · rw [Fl.val_div, Fl.val_one, div_one, F.rounds.exact (dot (vsub o o') (cross (normalize d) (normalize d'))).2, dot_axis_right _ _ c c2, mul_sign _ _ c1, abs_mul]
    show |(o c - o' c).1| * _ = F.rnd |(o c).1 - (o' c).1|
    rw [Fl.val_sub, F.rounds.abs]
    rcases c1 with h | h <;> rw [h] <;> simp

/-- **C167** Lines made along the same axis: the result is the computed length of a segment from the first origin to the nearest point of the second
line, whose length is the distance of the lines. -/
theorem C167_parallel (dbg : Bool) (o d o' d' : Vec (Fl F) 3) (a : Fin 3) (hd : (d a).1 ≠ 0)
    (h0 : ∀ i, i ≠ a → (d i).1 = 0) (hs : ∀ k, F.emin = some k → k + F.prec ≤ 1 ∧ (2 : ℝ) ^ ((k + F.prec) / 2) ≤ |(d a).1|) (hd' : (d' a).1 ≠ 0)
    (h0' : ∀ i, i ≠ a → (d' i).1 = 0) (hs' : ∀ k, F.emin = some k → k + F.prec ≤ 1 ∧ (2 : ℝ) ^ ((k + F.prec) / 2) ≤ |(d' a).1|)
    (he : isEq (1 : Fl F) 1 = true) (hz : isZero (0 : Fl F) = true) :
    ∃ foot : Vec (Fl F) 3, distLineLine dbg (Line.make o d) (Line.make o' d') = .ok (⟨o, foot⟩ : Segment (Fl F) 3).length ∧
      Fl.toReal foot ∈ line (Fl.toReal o') (Fl.toReal d') ∧
      IsDistance (line (Fl.toReal o) (Fl.toReal d)) (line (Fl.toReal o') (Fl.toReal d')) (Spec.dist (Fl.toReal o) (Fl.toReal foot)) := by
  obtain ⟨-, hg, hn⟩ := normalize_axis hd h0 hs
  obtain ⟨-, hg', hn'⟩ := normalize_axis hd' h0' hs'
  have hk : ∀ k, F.emin = some k → k + F.prec ≤ 1 := fun k h => (hs k h).1
  have l1 := length_unit (normalize d) a hg hn hk
  have l2 := length_unit (normalize d') a hg' hn' hk
  obtain ⟨foot, f1, f2, f3⟩ := C162_line o o' d' a hd' h0' hs'
  have hc : ∀ i, (cross (normalize d) (normalize d') i).1 = 0 := by
    have e1 : a + 1 ≠ a := by clear * -; revert a; decide
    have e2 : a + 2 ≠ a := by clear * -; revert a; decide
    have e3 : a + 1 ≠ a + 2 := by clear * -; revert a; decide
    intro i
    by_cases hi : i = a + 1
    · exact cross_axis (hn _ e2) (hn' _ e2) i (by rw [hi]; exact e3)
    · exact cross_axis (hn _ e1) (hn' _ e1) i hi
  have l3 : length (cross (normalize d) (normalize d')) = 0 := by
    apply Fl.ext
    unfold length
    rw [Fl.val_sqrt, dot_zeros_right _ _ hc, Real.sqrt_zero, F.rounds.zero, Fl.val_zero]
  refine ⟨foot, ?_, f1, parallel_axis _ _ _ _ a h0 h0' hd' f2⟩
  rw [← f3]
  unfold distLineLine
  have e1 : length (Line.make o d).direction = 1 := l1
  have e2 : length (Line.make o' d').direction = 1 := l2
  have e3 : length (cross (Line.make o d).direction (Line.make o' d').direction) = 0 := l3
  simp only [e1, e2, e3, he, hz, geoAssert_true]
  rfl
end

section Examples
attribute [local instance] tol64

theorem eq64_one : isEq (1 : Fl binary64) 1 = true := decide_eq_true (by rw [sub_self, abs_zero]; norm_num)

/-- The line through (1, 2, 3) along (0, 7, 0) and the one through (5, 5, 5) along (0, 0, -3): the distance is 4. -/
example : ∃ x δ, distLineLine true (Line.make (p64 1 2 3) (p64 0 7 0)) (Line.make (p64 5 5 5) (p64 0 0 (-3))) = .ok x ∧
    IsDistance (line (Fl.toReal (p64 1 2 3)) (Fl.toReal (p64 0 7 0))) (line (Fl.toReal (p64 5 5 5)) (Fl.toReal (p64 0 0 (-3)))) δ ∧
      |x.1| = binary64.rnd δ := by
  obtain ⟨h1, h2, h3⟩ := third64_facts (-3) (by norm_num) (by norm_num)
  have e : ((p64 0 7 0) 1).1 = 7 := by simp [p64, fl64_val]
  refine C167_skew true _ _ _ _ 1 2 0 (by decide) (by decide) (by decide) (by rw [e]; norm_num) (fun i hi => ?_)
    (axis_small64 (by rw [e]; norm_num)) h1 h2 (axis_small64 h3) eq64_one (decide_eq_false (by rw [Fl.val_one]; norm_num))
  fin_cases i
  · simp [p64, fl64_val]
  · exact absurd rfl hi
  · simp [p64, fl64_val]

/-- Two lines along the third axis. -/
example : ∃ foot, distLineLine true (Line.make (p64 1 2 3) (p64 0 0 7)) (Line.make (p64 5 5 5) (p64 0 0 (-3))) =
    .ok (⟨p64 1 2 3, foot⟩ : Segment (Fl binary64) 3).length ∧
    IsDistance (line (Fl.toReal (p64 1 2 3)) (Fl.toReal (p64 0 0 7))) (line (Fl.toReal (p64 5 5 5)) (Fl.toReal (p64 0 0 (-3))))
      (Spec.dist (Fl.toReal (p64 1 2 3)) (Fl.toReal foot)) := by
  obtain ⟨h1, h2, h3⟩ := third64_facts (-3) (by norm_num) (by norm_num)
  obtain ⟨g1, g2, g3⟩ := third64_facts 7 (by norm_num) (by norm_num)
  obtain ⟨foot, k1, -, k2⟩ := C167_parallel true (p64 1 2 3) (p64 0 0 7) (p64 5 5 5) (p64 0 0 (-3)) 2 g1 g2 (axis_small64 g3) h1 h2 (axis_small64 h3) eq64_one
    (decide_eq_true (by rw [Fl.val_zero]; norm_num))
  exact ⟨foot, k1, k2⟩
end Examples
end Verif
