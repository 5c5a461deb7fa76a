import Verif.Props.FloatNormal

set_option linter.unusedSectionVars false

/-
Facets parallel to a coordinate plane have exact normals.
-/
namespace Verif
open Spec

section
variable {p : ℕ} {emin : Option ℤ} {rnd : ℝ → ℝ}

/-- In binary, the rounded root of the rounded square is the number itself (without underflow). -/
theorem _root_.Verif.Spec.Rounds.sqrt_sq_eq (hp : 1 < p) (h : Rounds p emin rnd) {d : ℝ} (hd : Representable p emin d) (h0 : 0 ≤ d)
    (hs : Safe p emin d) (hs2 : Safe p emin (d * d)) : rnd (Real.sqrt (rnd (d * d))) = d := by
  refine le_antisymm ?_ (h.sqrt_sq hp hd h0 hs hs2)
  rcases h0.eq_or_lt with rfl | h0
  · simp [h.zero]
  obtain ⟨m, e, hm1, hm2, hke, hval⟩ := hd.normal h0 hs
  have he := two_zpow_pos e
  set u : ℝ := (2 : ℝ)⁻¹ ^ p with hu
  have hu0 : 0 < u := by positivity
  -- the root exceeds `d` by less than half a step
  have h1 := (h.bounds hp hs2 (by positivity)).2
  have hx : Real.sqrt (rnd (d * d)) ≤ d * (1 + u / 2) := by
    refine Real.sqrt_le_iff.2 ⟨by positivity, h1.trans ?_⟩
    rw [← hu]
    have e1 : (d * (1 + u / 2)) ^ 2 = (1 + u) * (d * d) + (d * u / 2) ^ 2 := by ring
    rw [e1]
    have := sq_nonneg (d * u / 2)
    linarith
  set x := Real.sqrt (rnd (d * d)) with hxx
  have hm2' : (m : ℝ) < 2 ^ p := by exact_mod_cast hm2
  have hdu : d * u < 2 ^ e := by
    rw [hval, hu, inv_pow]
    rw [show (m : ℝ) * 2 ^ e * (2 ^ p)⁻¹ = (m / 2 ^ p) * 2 ^ e by field_simp]
    have : (m : ℝ) / 2 ^ p < 1 := by rw [div_lt_one (by positivity)]; exact hm2'
    nlinarith
  by_contra hc
  push Not at hc
  -- the next number is a whole step away
  have hstep : d + 2 ^ e ≤ rnd x := by
    obtain ⟨m', e', hm', _, hy⟩ := h.mem x
    rcases le_or_gt e e' with hee | hee
    · obtain ⟨j, hj⟩ := Int.eq_ofNat_of_zero_le (show 0 ≤ e' - e by omega)
      have e1 : rnd x = (m' * 2 ^ j : ℤ) * (2 : ℝ) ^ e := by
        rw [hy, show e' = j + e by omega, zpow_add₀ (by norm_num), zpow_natCast]; push_cast; ring
      rw [e1, hval] at hc ⊢
      have : m < m' * 2 ^ j := by
        have := lt_of_mul_lt_mul_right hc he.le
        exact_mod_cast this
      have : ((m + 1 : ℤ) : ℝ) ≤ ((m' * 2 ^ j : ℤ) : ℝ) := by exact_mod_cast this
      have := mul_le_mul_of_nonneg_right this he.le
      push_cast at this ⊢
      linarith
    · exfalso
      have h2 : (m' : ℝ) < 2 ^ p := by
        have : m' < 2 ^ p := lt_of_le_of_lt (le_abs_self m') hm'
        exact_mod_cast this
      have h3 : rnd x < 2 ^ p * 2 ^ e' := by rw [hy]; exact mul_lt_mul_of_pos_right h2 (two_zpow_pos _)
      have h4 : (2 : ℝ) ^ e' ≤ 2 ^ (e - 1) := zpow_le_zpow_right₀ (by norm_num) (by omega)
      have h5 : (2 : ℝ) ^ (e - 1) = 2 ^ e / 2 := by rw [zpow_sub₀ (by norm_num), zpow_one]
      have h6 : ((2 ^ (p - 1) : ℤ) : ℝ) ≤ m := by exact_mod_cast hm1
      push_cast at h6
      have h7 : (2 : ℝ) ^ p = 2 * 2 ^ (p - 1) := by rw [← pow_succ']; congr 1; omega
      have h8 := mul_le_mul_of_nonneg_left h4 (show (0 : ℝ) ≤ 2 ^ p by positivity)
      have h9 := mul_le_mul_of_nonneg_right h6 he.le
      rw [h5, h7] at h8
      rw [h7] at h3
      rw [hval] at hc
      linarith
  have hn := h.nearest x d hd
  have hdx : d ≤ x := by
    by_contra hlt
    push Not at hlt
    have := h.of_le hd hlt.le
    linarith
  rw [abs_sub_comm d x, abs_of_nonneg (by linarith : 0 ≤ x - d), abs_of_nonneg (by linarith : 0 ≤ rnd x - x)] at hn
  linarith
end

variable {F : FloatFormat}

/-- The vector along a coordinate axis. -/
def along {T : Type} [Zero T] (c : Fin 3) (a : T) : Vec T 3 := fun i => if i = c then a else 0

theorem dot_along (c : Fin 3) (a : Fl F) : dot (along c a) (along c a) = a * a := by
  rw [Fl.dot_three]
  have : ∀ b : Fl F, b * 0 = 0 := Fl.mul_zero'
  fin_cases c <;> simp [along, Fl.mul_zero', Fl.add_zero', Fl.zero_add']

theorem normalize_along (c : Fin 3) (a : Fl F) (h0 : a.1 ≠ 0) (hs : Safe F.prec F.emin a.1) (hs2 : Safe F.prec F.emin (a.1 * a.1)) :
    normalize (along c a) = along c (if 0 < a.1 then 1 else -1) := by
  have hl : (length (along c a)).1 = |a.1| := by
    show F.rnd (Real.sqrt (dot (along c a) (along c a)).1) = _
    rw [dot_along]
    show F.rnd (Real.sqrt (F.rnd (a.1 * a.1))) = _
    have h1 : Representable F.prec F.emin |a.1| := by
      rcases abs_choice a.1 with h | h <;> rw [h]
      · exact a.2
      · exact a.2.neg
    have h2 : Safe F.prec F.emin |a.1| := by
      rcases abs_choice a.1 with h | h <;> rw [h]
      · exact hs
      · exact hs.neg
    rw [← abs_mul_abs_self a.1] at hs2 ⊢
    exact F.rounds.sqrt_sq_eq F.one_lt_prec h1 (abs_nonneg _) h2 hs2
  funext i
  apply Fl.ext
  show F.rnd ((along c a i).1 / (length (along c a)).1) = _
  rw [hl]
  unfold along
  by_cases hi : i = c
  · rw [if_pos hi, if_pos hi]
    rcases lt_or_gt_of_ne h0 with h | h
    · rw [if_neg (by linarith), abs_of_neg h, div_neg, div_self h0, F.rounds.odd, F.rounds.exact F.one_mem]
      rfl
    · rw [if_pos h, abs_of_pos h, div_self h0, F.rounds.exact F.one_mem]
      rfl
  · rw [if_neg hi, if_neg hi]
    show F.rnd (0 / _) = 0
    rw [zero_div, F.rounds.zero]

/-- The computed cross product of a triangle in a coordinate plane. -/
theorem cross_along (c : Fin 3) (e f : Vec (Fl F) 3) (he : e c = 0) (hf : f c = 0) : cross e f = along c (cross e f c) := by
  have z : ((0 : Fl F) - 0) = 0 := Fl.ext (by show F.rnd (0 - 0) = 0; rw [sub_zero, F.rounds.zero])
  funext i
  fin_cases c <;> fin_cases i <;> simp_all [along, cross, Fl.mul_zero', Fl.zero_mul']

theorem sub_self' (a : Fl F) : a - a = 0 := Fl.ext (by show F.rnd (a.1 - a.1) = 0; rw [sub_self, F.rounds.zero])

/-- The unit normal of a triangle in a coordinate plane, computed exactly. -/
theorem normalOf_along (hp : 9 ≤ F.prec) (c : Fin 3) (t : Vec (Fl F) 3 × Vec (Fl F) 3 × Vec (Fl F) 3) (h1 : t.2.1 c = t.1 c) (h2 : t.2.2 c = t.1 c)
    (hA0 : 0 < twiceArea (trueTriangle t))
    (hsmall : ∀ k, F.emin = some k → k ≤ -2 * (F.prec : ℤ) ∧ (2 : ℝ) ^ ((k + 1) / 2) ≤ (2 : ℝ)⁻¹ ^ F.prec * (twiceArea (trueTriangle t) / 2))
    (hshape : 16 * ((2 : ℝ)⁻¹ ^ F.prec * sidesProduct (trueTriangle t)) ≤ twiceArea (trueTriangle t)) :
    ∃ a : Fl F, (a = 1 ∨ a = -1) ∧ normalOf t = along c a ∧ normalOf (trueTriangle t) = along c a.1 := by
  have hD : 64 * (3 + 2) ≤ 2 ^ F.prec := le_trans (by norm_num) (Nat.pow_le_pow_right (by norm_num) hp)
  obtain ⟨ht0, ht1, ht2⟩ := tiny_of_length (by positivity : 0 < twiceArea (trueTriangle t) / 2) hsmall
  obtain ⟨f1, f2, f3, f4⟩ := dim_facts (D := 3) hD ht0
  have hu0 := F.unit_pos
  have ht00 := F.tiny_nonneg
  have hu : F.unit ≤ 1 / 256 := by push_cast at f2; linarith
  have hPA := twiceArea_le (trueTriangle t)
  have hN := twiceArea_eq (trueTriangle t)
  have hc := cross_err (vsub t.2.1 t.1) (vsub t.2.2 t.2.1) (vsub (trueTriangle t).2.1 (trueTriangle t).1)
    (vsub (trueTriangle t).2.2 (trueTriangle t).2.1) hu (fun i => Fl.sub_rel _ _) (fun i => Fl.sub_rel _ _)
  change _ ≤ 51 / 8 * F.unit * sidesProduct (trueTriangle t) + _ at hc
  change 16 * (F.unit * _) ≤ _ at hshape
  have ec := cross_along c (vsub t.2.1 t.1) (vsub t.2.2 t.2.1) (by show t.2.1 c - t.1 c = 0; rw [h1, sub_self'])
    (by show t.2.2 c - t.2.1 c = 0; rw [h1, h2, sub_self'])
  have g1 : (trueTriangle t).2.1 c = (trueTriangle t).1 c := congrArg Subtype.val h1
  have g2 : (trueTriangle t).2.2 c = (trueTriangle t).1 c := congrArg Subtype.val h2
  set w := cross (vsub (trueTriangle t).2.1 (trueTriangle t).1) (vsub (trueTriangle t).2.2 (trueTriangle t).2.1) with hw
  have er : ∀ i, i ≠ c → w i = 0 := by
    intro i hi
    have k1 : vsub (trueTriangle t).2.1 (trueTriangle t).1 c = 0 := sub_eq_zero.2 g1
    have k2 : vsub (trueTriangle t).2.2 (trueTriangle t).2.1 c = 0 := by
      show (trueTriangle t).2.2 c - (trueTriangle t).2.1 c = 0
      rw [g1, g2, sub_self]
    rw [hw]
    generalize vsub (trueTriangle t).2.1 (trueTriangle t).1 = a at k1
    generalize vsub (trueTriangle t).2.2 (trueTriangle t).2.1 = b at k2
    clear * - k1 k2 hi
    fin_cases c <;> fin_cases i <;> simp_all [cross]
  set w' := cross (vsub t.2.1 t.1) (vsub t.2.2 t.2.1) with hw'
  set A := twiceArea (trueTriangle t) with hA
  set P := sidesProduct (trueTriangle t) with hP
  have hUA : F.unit * F.unit * (A / 2) ≤ 1 / 256 * (F.unit * A / 2) := by
    have := mul_le_mul_of_nonneg_right hu (show 0 ≤ F.unit * A / 2 by positivity)
    linarith
  have hUP : F.unit * A ≤ F.unit * P := mul_le_mul_of_nonneg_left hPA hu0.le
  have hd : |(w' c).1 - w c| ≤ 7 * (F.unit * P) := by
    have := coord_le_norm (fun i => Fl.vals w' i - w i) c
    change |(w' c).1 - w c| ≤ Spec.dist (Fl.vals w') w at this
    linarith
  have hnw : Spec.norm w = |w c| := by
    unfold Spec.norm
    rw [Finset.sum_eq_single c (fun i _ hi => by rw [er i hi]; norm_num) (by simp), Real.sqrt_sq_eq_abs]
  have hwA : |w c| = A := by rw [← hnw, ← hN]
  have hb : A / 2 ≤ |(w' c).1| := by
    have : |w c| ≤ |(w' c).1| + |(w' c).1 - w c| := by
      have h := abs_sub_abs_le_abs_sub (w c) (w' c).1
      rw [abs_sub_comm (w c)] at h
      linarith
    linarith
  have hsign : 0 < (w' c).1 ↔ 0 < w c := by
    have h7 : 7 * (F.unit * P) < A := by linarith
    obtain ⟨a1, a2⟩ := abs_le.1 hd
    constructor
    · intro h
      by_contra hn
      rw [abs_of_nonpos (not_lt.1 hn)] at hwA
      linarith
    · intro h
      rw [abs_of_pos h] at hwA
      linarith
  have h0 : (w' c).1 ≠ 0 := by
    intro h
    rw [h, abs_zero] at hb
    linarith
  have hbig : ∀ k, F.emin = some k → (2 : ℝ) ^ ((k + 1) / 2 + F.prec) ≤ |(w' c).1| := by
    intro k hk
    have := (hsmall k hk).2
    rw [zpow_add₀ (by norm_num), zpow_natCast]
    have h2 := mul_le_mul_of_nonneg_right this (show (0 : ℝ) ≤ 2 ^ F.prec by positivity)
    rw [inv_pow] at h2
    have e : ((2 : ℝ) ^ F.prec)⁻¹ * (A / 2) * 2 ^ F.prec = A / 2 := by field_simp
    rw [e] at h2
    exact h2.trans hb
  have hs : Safe F.prec F.emin (w' c).1 := .inr fun k hk => by
    refine le_trans ?_ (hbig k hk)
    have := (hsmall k hk).1
    exact zpow_le_zpow_right₀ (by norm_num) (by omega)
  have hs2 : Safe F.prec F.emin ((w' c).1 * (w' c).1) := .inr fun k hk => by
    rw [abs_mul]
    have h3 := hbig k hk
    refine le_trans ?_ (mul_le_mul h3 h3 (two_zpow_pos _).le (abs_nonneg _))
    rw [← zpow_add₀ (by norm_num)]
    exact zpow_le_zpow_right₀ (by norm_num) (by omega)
  have key := normalize_along c (w' c) h0 hs hs2
  refine ⟨if 0 < (w' c).1 then 1 else -1, by split <;> simp, ?_, ?_⟩
  · show normalize w' = _
    exact (congrArg normalize ec).trans key
  · have e : normalOf (trueTriangle t) = fun i => w i / Spec.norm w := (normalized_eq w).symm
    rw [e, hnw]
    funext i
    unfold along
    by_cases hi : i = c
    · rw [if_pos hi, hi]
      have hwc : w c ≠ 0 := by intro h; rw [h, abs_zero] at hwA; linarith
      by_cases hpos : 0 < (w' c).1
      · rw [if_pos hpos, abs_of_pos (hsign.1 hpos), div_self hwc]; rfl
      · have hn : w c < 0 := lt_of_le_of_ne (not_lt.1 fun h => hpos (hsign.2 h)) hwc
        rw [if_neg hpos, abs_of_neg hn, div_neg, div_self hwc]; rfl
    · rw [if_neg hi, er i hi, zero_div]

/-- Normalising it again changes nothing. -/
theorem renormalize_along (c : Fin 3) (a : Fl F) (ha : a = 1 ∨ a = -1) : normalize (along c a : Vec (Fl F) 3) = along c a := by
  have h1 : (HasSqrt.sqrt (1 : Fl F)) = 1 := Fl.ext (by show F.rnd (Real.sqrt 1) = 1; rw [Real.sqrt_one, F.rounds.exact F.one_mem])
  have haa : a * a = 1 := by
    apply Fl.ext
    show F.rnd (a.1 * a.1) = 1
    have : a.1 * a.1 = 1 := by
      rcases ha with rfl | rfl
      · show (1 : ℝ) * 1 = 1; norm_num
      · show (-1 : ℝ) * -1 = 1; norm_num
    rw [this, F.rounds.exact F.one_mem]
  unfold normalize length
  rw [dot_along, haa, h1]
  funext i
  exact Fl.div_one' _
end Verif
