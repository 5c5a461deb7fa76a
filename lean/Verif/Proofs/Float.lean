import Verif.Model.Float
import Mathlib.Data.Int.Log
import Mathlib.Algebra.Order.Round
import Mathlib.Algebra.Order.Archimedean.Real.Basic
import Mathlib.Tactic.Linarith
import Mathlib.Tactic.Positivity
import Mathlib.Tactic.FieldSimp

set_option linter.unusedSectionVars false

/-
Rounding to nearest: monotone, exact on representable numbers, relative error, square root of a square.
-/
namespace Verif
open Spec

theorem two_zpow_pos (e : ℤ) : (0 : ℝ) < 2 ^ e := zpow_pos (by norm_num) e

theorem _root_.Verif.Spec.Representable.of_le {p : ℕ} (hp : 1 < p) {emin : Option ℤ} {m e : ℤ} (hm : |m| ≤ 2 ^ p)
    (he : ∀ k, emin = some k → k ≤ e) : Representable p emin (m * (2 : ℝ) ^ e) := by
  rcases lt_or_eq_of_le hm with h | h
  · exact ⟨m, e, h, he, rfl⟩
  · obtain ⟨q, rfl⟩ : ∃ q, p = q + 1 := ⟨p - 1, by omega⟩
    have hq : (0 : ℤ) < 2 ^ q := by positivity
    rcases abs_cases m with ⟨h1, _⟩ | ⟨h1, _⟩
    · refine ⟨2 ^ q, e + 1, ?_, fun k hk => (he k hk).trans (by omega), ?_⟩
      · rw [abs_of_pos hq, pow_succ]; omega
      · rw [← h1, h, zpow_add_one₀ (by norm_num)]; push_cast; ring
    · refine ⟨-2 ^ q, e + 1, ?_, fun k hk => (he k hk).trans (by omega), ?_⟩
      · rw [abs_neg, abs_of_pos hq, pow_succ]; omega
      · have : m = -2 ^ (q + 1) := by omega
        rw [this, zpow_add_one₀ (by norm_num)]; push_cast; ring

theorem _root_.Verif.Spec.Representable.zero {p : ℕ} {emin : Option ℤ} : Representable p emin 0 :=
  ⟨0, emin.getD 0, by simp, by intro k hk; simp [hk], by simp⟩

theorem _root_.Verif.Spec.Representable.neg {p : ℕ} {emin : Option ℤ} {x : ℝ} (h : Representable p emin x) : Representable p emin (-x) := by
  obtain ⟨m, e, h1, h2, h3⟩ := h
  exact ⟨-m, e, by rwa [abs_neg], h2, by rw [h3]; push_cast; ring⟩

/-! ### An actual rounding function -/

/-- The exponent of the last digit of numbers of the size of `x`. -/
noncomputable def ulpExp (p : ℕ) (emin : Option ℤ) (x : ℝ) : ℤ :=
  match emin with
  | none => Int.log 2 x - p + 1
  | some k => max k (Int.log 2 x - p + 1)

/-- Rounding of a positive number. -/
noncomputable def roundPos (p : ℕ) (emin : Option ℤ) (x : ℝ) : ℝ :=
  round (x / 2 ^ ulpExp p emin x) * (2 : ℝ) ^ ulpExp p emin x

theorem le_ulpExp {p : ℕ} {emin : Option ℤ} {x : ℝ} : Int.log 2 x - p + 1 ≤ ulpExp p emin x := by
  unfold ulpExp; cases emin <;> simp

theorem emin_le_ulpExp {p : ℕ} {emin : Option ℤ} {x : ℝ} (k : ℤ) (hk : emin = some k) : k ≤ ulpExp p emin x := by
  subst hk; simp [ulpExp]

theorem roundPos_mem {p : ℕ} (hp : 1 < p) (emin : Option ℤ) {x : ℝ} (hx : 0 < x) : Representable p emin (roundPos p emin x) := by
  refine Representable.of_le hp ?_ (fun k hk => emin_le_ulpExp k hk)
  have hg := two_zpow_pos (ulpExp p emin x)
  have h1 : x < 2 ^ (Int.log 2 x + 1) := by simpa using Int.lt_zpow_succ_log_self (b := 2) (by norm_num) x
  have h2 : x / 2 ^ ulpExp p emin x ≤ ((2 ^ p : ℤ) : ℝ) := by
    rw [div_le_iff₀ hg]
    refine le_of_lt (lt_of_lt_of_le h1 ?_)
    push_cast
    rw [← zpow_natCast, ← zpow_add₀ (by norm_num)]
    apply zpow_le_zpow_right₀ (by norm_num)
    have := @le_ulpExp p emin x
    omega
  have h3 : 0 ≤ round (x / 2 ^ ulpExp p emin x) := by
    rw [round_eq]; apply Int.floor_nonneg.2; positivity
  rw [abs_of_nonneg h3]
  have := round_le_add_half (x / 2 ^ ulpExp p emin x)
  have h4 : (round (x / 2 ^ ulpExp p emin x) : ℝ) ≤ ((2 ^ p : ℤ) : ℝ) + 1 / 2 := by linarith
  by_contra hc
  have h5 : (2 ^ p : ℤ) + 1 ≤ round (x / 2 ^ ulpExp p emin x) := by omega
  have h6 : (((2 ^ p : ℤ) + 1 : ℤ) : ℝ) ≤ round (x / 2 ^ ulpExp p emin x) := by exact_mod_cast h5
  rw [Int.cast_add, Int.cast_one] at h6
  linarith

theorem roundPos_le_int {p : ℕ} {emin : Option ℤ} {x : ℝ} (n : ℤ) :
    |roundPos p emin x - x| ≤ |n * (2 : ℝ) ^ ulpExp p emin x - x| := by
  have hg := two_zpow_pos (ulpExp p emin x)
  have h := round_le (x / 2 ^ ulpExp p emin x) n
  have e1 : ∀ z : ℝ, z * (2 : ℝ) ^ ulpExp p emin x - x = -((x / 2 ^ ulpExp p emin x - z) * 2 ^ ulpExp p emin x) := by
    intro z; field_simp; ring
  unfold roundPos
  rw [e1, e1, abs_neg, abs_neg, abs_mul, abs_mul]
  exact mul_le_mul_of_nonneg_right h (abs_nonneg _)

theorem roundPos_nearest {p : ℕ} (hp : 1 < p) (emin : Option ℤ) {x : ℝ} (hx : 0 < x) {y : ℝ} (hy : Representable p emin y) :
    |roundPos p emin x - x| ≤ |y - x| := by
  obtain ⟨m, e, hm, he, rfl⟩ := hy
  by_cases hle : ulpExp p emin x ≤ e
  · obtain ⟨d, hd⟩ := Int.eq_ofNat_of_zero_le (show 0 ≤ e - ulpExp p emin x by omega)
    have : (m : ℝ) * 2 ^ e = ((m * 2 ^ d : ℤ) : ℝ) * 2 ^ ulpExp p emin x := by
      rw [show e = d + ulpExp p emin x by omega, zpow_add₀ (by norm_num)]; push_cast; rw [zpow_natCast]; ring
    rw [this]; exact roundPos_le_int _
  · have hu : ulpExp p emin x = Int.log 2 x - p + 1 := by
      unfold ulpExp at hle ⊢
      cases emin with
      | none => rfl
      | some k => have := he k rfl; simp only at hle ⊢; omega
    have hlog : (2 : ℝ) ^ Int.log 2 x ≤ x := by simpa using Int.zpow_log_le_self (b := 2) (by norm_num) hx
    have hmr : (m : ℝ) < 2 ^ (p : ℤ) := by
      have := lt_of_le_of_lt (le_abs_self m) hm
      have : (m : ℝ) < ((2 ^ p : ℤ) : ℝ) := by exact_mod_cast this
      rw [zpow_natCast]; push_cast at this; exact this
    have hy : (m : ℝ) * 2 ^ e ≤ 2 ^ Int.log 2 x := by
      calc (m : ℝ) * 2 ^ e ≤ 2 ^ (p : ℤ) * 2 ^ e := mul_le_mul_of_nonneg_right hmr.le (two_zpow_pos e).le
        _ = 2 ^ ((p : ℤ) + e) := (zpow_add₀ (by norm_num) _ _).symm
        _ ≤ _ := zpow_le_zpow_right₀ (by norm_num) (by omega)
    have h2 := roundPos_le_int (p := p) (emin := emin) (x := x) (2 ^ (p - 1))
    have : ((2 ^ (p - 1) : ℤ) : ℝ) * 2 ^ ulpExp p emin x = 2 ^ Int.log 2 x := by
      rw [hu]; push_cast
      rw [← zpow_natCast, ← zpow_add₀ (by norm_num)]; congr 1; omega
    rw [this] at h2
    refine h2.trans ?_
    rw [abs_of_nonpos (by linarith), abs_of_nonpos (by linarith)]; linarith

/-- Rounding to nearest, ties away from zero. -/
noncomputable def roundAway (p : ℕ) (emin : Option ℤ) (x : ℝ) : ℝ :=
  if 0 < x then roundPos p emin x else if x < 0 then -roundPos p emin (-x) else 0

theorem roundAway_rounds {p : ℕ} (hp : 1 < p) (emin : Option ℤ) : Rounds p emin (roundAway p emin) where
  mem x := by
    unfold roundAway
    split_ifs with h1 h2
    · exact roundPos_mem hp emin h1
    · exact (roundPos_mem hp emin (by linarith)).neg
    · exact Representable.zero
  nearest x y hy := by
    unfold roundAway
    split_ifs with h1 h2
    · exact roundPos_nearest hp emin h1 hy
    · have := roundPos_nearest hp emin (show 0 < -x by linarith) hy.neg
      rw [show -roundPos p emin (-x) - x = -(roundPos p emin (-x) - -x) by ring, abs_neg,
        show y - x = -(-y - -x) by ring, abs_neg]
      exact this
    · have : x = 0 := le_antisymm (not_lt.1 h1) (not_lt.1 h2)
      rw [this]; simp
  odd x := by
    unfold roundAway
    rcases lt_trichotomy x 0 with h | h | h
    · rw [if_pos (by linarith), if_neg (by linarith), if_pos h, neg_neg]
    · subst h; simp
    · rw [if_neg (by linarith), if_pos (by linarith), if_pos h, neg_neg]

/-! ### Consequences of rounding to nearest -/

section
variable {p : ℕ} {emin : Option ℤ} {rnd : ℝ → ℝ}

theorem _root_.Verif.Spec.Rounds.exact (h : Rounds p emin rnd) {x : ℝ} (hx : Representable p emin x) : rnd x = x := by
  have := h.nearest x x hx
  rw [sub_self, abs_zero] at this
  exact sub_eq_zero.1 (abs_eq_zero.1 (le_antisymm this (abs_nonneg _)))

theorem _root_.Verif.Spec.Rounds.zero (h : Rounds p emin rnd) : rnd 0 = 0 := h.exact Representable.zero

theorem _root_.Verif.Spec.Rounds.mono (h : Rounds p emin rnd) {x y : ℝ} (hxy : x ≤ y) : rnd x ≤ rnd y := by
  by_contra hc
  rw [not_le] at hc
  have h1 := h.nearest x (rnd y) (h.mem y)
  have h2 := h.nearest y (rnd x) (h.mem x)
  have hx : (rnd x + rnd y) / 2 ≤ x := by
    by_contra hlt
    rw [not_le] at hlt
    rw [abs_of_pos (by linarith)] at h1
    rcases le_total 0 (rnd y - x) with h0 | h0
    · rw [abs_of_nonneg h0] at h1; linarith
    · rw [abs_of_nonpos h0] at h1; linarith
  have hy : y ≤ (rnd x + rnd y) / 2 := by
    by_contra hlt
    rw [not_le] at hlt
    rw [abs_of_neg (by linarith)] at h2
    rcases le_total 0 (rnd x - y) with h0 | h0
    · rw [abs_of_nonneg h0] at h2; linarith
    · rw [abs_of_nonpos h0] at h2; linarith
  have : x = y := by linarith
  rw [this] at hc
  exact lt_irrefl _ hc

theorem _root_.Verif.Spec.Rounds.nonneg (h : Rounds p emin rnd) {x : ℝ} (hx : 0 ≤ x) : 0 ≤ rnd x := by
  rw [← h.zero]; exact h.mono hx

theorem _root_.Verif.Spec.Rounds.le_of (h : Rounds p emin rnd) {x y : ℝ} (hx : Representable p emin x) (hxy : x ≤ y) :
    x ≤ rnd y := by
  rw [← h.exact hx]; exact h.mono hxy

theorem _root_.Verif.Spec.Rounds.of_le (h : Rounds p emin rnd) {x y : ℝ} (hy : Representable p emin y) (hxy : x ≤ y) :
    rnd x ≤ y := by
  rw [← h.exact hy]; exact h.mono hxy

theorem _root_.Verif.Spec.Rounds.abs (h : Rounds p emin rnd) (x : ℝ) : |rnd x| = rnd |x| := by
  rcases le_total 0 x with hx | hx
  · rw [abs_of_nonneg hx, abs_of_nonneg (h.nonneg hx)]
  · rw [abs_of_nonpos hx, h.odd, abs_of_nonpos]
    have := h.mono hx
    rwa [h.zero] at this

/-- Zero, or not below the normal numbers of the format. -/
def Safe (p : ℕ) (emin : Option ℤ) (x : ℝ) : Prop := x = 0 ∨ ∀ k, emin = some k → (2 : ℝ) ^ (k + p - 1) ≤ |x|

theorem Safe.neg {x : ℝ} (h : Safe p emin x) : Safe p emin (-x) := by
  rcases h with rfl | h
  · exact .inl (by simp)
  · exact .inr (by simpa using h)

theorem safe_none (x : ℝ) : Safe p none x := .inr (by simp)

theorem representable_two_pow (hp : 1 < p) {e : ℤ} (he : ∀ k, emin = some k → k ≤ e) : Representable p emin ((2 : ℝ) ^ e) := by
  refine ⟨1, e, ?_, he, by simp⟩
  rw [abs_one]
  exact one_lt_pow₀ (by norm_num) (by omega)

theorem Safe.round_safe (hp : 1 < p) (h : Rounds p emin rnd) {x : ℝ} (hx : Safe p emin x) : Safe p emin (rnd x) := by
  rcases hx with rfl | hx
  · exact .inl h.zero
  · refine .inr fun k hk => ?_
    rw [h.abs]
    refine h.le_of (representable_two_pow hp ?_) (hx k hk)
    intro k' hk'
    rw [hk, Option.some.injEq] at hk'
    omega

theorem Safe.add {x y : ℝ} (hx : Safe p emin x) (hy : Safe p emin y) (h0x : 0 ≤ x) (h0y : 0 ≤ y) : Safe p emin (x + y) := by
  rcases hx with rfl | hx
  · rwa [zero_add]
  · refine .inr fun k hk => (hx k hk).trans ?_
    rw [abs_of_nonneg h0x, abs_of_nonneg (by linarith)]; linarith

/-- The relative error of a rounded operation without underflow. -/
theorem _root_.Verif.Spec.Rounds.error (hp : 1 < p) (h : Rounds p emin rnd) {x : ℝ} (hs : Safe p emin x) :
    |rnd x - x| ≤ (2 : ℝ)⁻¹ ^ p * |x| := by
  have hpos : ∀ x : ℝ, 0 < x → Safe p emin x → |rnd x - x| ≤ (2 : ℝ)⁻¹ ^ p * |x| := by
    intro x hx hs
    refine (h.nearest x _ (roundPos_mem hp emin hx)).trans ?_
    have hg := two_zpow_pos (ulpExp p emin x)
    have hr := abs_sub_round (x / 2 ^ ulpExp p emin x)
    have e1 : roundPos p emin x - x = -((x / 2 ^ ulpExp p emin x - round (x / 2 ^ ulpExp p emin x)) * 2 ^ ulpExp p emin x) := by
      unfold roundPos; field_simp; ring
    rw [e1, abs_neg, abs_mul, abs_of_pos hg]
    refine (mul_le_mul_of_nonneg_right hr hg.le).trans ?_
    have hlog : (2 : ℝ) ^ Int.log 2 x ≤ x := by simpa using Int.zpow_log_le_self (b := 2) (by norm_num) hx
    rw [abs_of_pos hx]
    have hu : ulpExp p emin x = Int.log 2 x - p + 1 := by
      unfold ulpExp
      cases hk : emin with
      | none => rfl
      | some k =>
        have h1 : (2 : ℝ) ^ (k + p - 1) ≤ x := by
          rcases hs with rfl | hs
          · exact absurd hx (lt_irrefl _)
          · have := hs k hk; rwa [abs_of_pos hx] at this
        have h2 : k + p - 1 ≤ Int.log 2 x := (Int.zpow_le_iff_le_log (by norm_num) hx).1 (by simpa using h1)
        simp only
        omega
    have : 1 / 2 * (2 : ℝ) ^ ulpExp p emin x = (2 : ℝ)⁻¹ ^ p * 2 ^ Int.log 2 x := by
      rw [hu, inv_pow, ← zpow_natCast, ← zpow_neg, ← zpow_add₀ (by norm_num), show (1 / 2 : ℝ) = 2 ^ (-1 : ℤ) by norm_num,
        ← zpow_add₀ (by norm_num)]
      congr 1; ring
    rw [this]
    exact mul_le_mul_of_nonneg_left hlog (by positivity)
  rcases lt_trichotomy x 0 with hx | hx | hx
  · have := hpos (-x) (by linarith) hs.neg
    rw [h.odd, abs_neg] at this
    rwa [show -rnd x - -x = -(rnd x - x) by ring, abs_neg] at this
  · subst hx; simp [h.zero]
  · exact hpos x hx hs

/-- Both bounds for a nonnegative number. -/
theorem _root_.Verif.Spec.Rounds.bounds (hp : 1 < p) (h : Rounds p emin rnd) {x : ℝ} (hs : Safe p emin x) (h0 : 0 ≤ x) :
    (1 - (2 : ℝ)⁻¹ ^ p) * x ≤ rnd x ∧ rnd x ≤ (1 + (2 : ℝ)⁻¹ ^ p) * x := by
  have := h.error hp hs
  rw [abs_of_nonneg h0] at this
  obtain ⟨h1, h2⟩ := abs_le.1 this
  constructor <;> linarith

/-- Every normal number has a normalised representation. -/
theorem _root_.Verif.Spec.Representable.normal {x : ℝ} (hx : Representable p emin x) (h0 : 0 < x) (hs : Safe p emin x) :
    ∃ m e : ℤ, 2 ^ (p - 1) ≤ m ∧ m < 2 ^ p ∧ (∀ k, emin = some k → k ≤ e) ∧ x = m * (2 : ℝ) ^ e := by
  obtain ⟨m, e, hm, _, rfl⟩ := hx
  have hlog := Int.zpow_log_le_self (b := 2) (by norm_num) h0
  have hlt := Int.lt_zpow_succ_log_self (b := 2) (by norm_num) ((m : ℝ) * 2 ^ e)
  set L := Int.log 2 ((m : ℝ) * 2 ^ e) with hL
  push_cast at hlog hlt
  have hmp : (0 : ℝ) < m := by
    by_contra hc
    have := mul_nonpos_of_nonpos_of_nonneg (not_lt.1 hc) (two_zpow_pos e).le
    linarith
  have hmr : (m : ℝ) < 2 ^ (p : ℤ) := by
    have := lt_of_le_of_lt (le_abs_self m) hm
    have : (m : ℝ) < ((2 ^ p : ℤ) : ℝ) := by exact_mod_cast this
    rw [zpow_natCast]; push_cast at this; exact this
  have hLe : L < p + e := by
    have : (2 : ℝ) ^ L < 2 ^ ((p : ℤ) + e) := by
      rw [zpow_add₀ (by norm_num)]
      exact lt_of_le_of_lt hlog (mul_lt_mul_of_pos_right hmr (two_zpow_pos e))
    exact (zpow_lt_zpow_iff_right₀ (by norm_num)).1 this
  obtain ⟨d, hd⟩ := Int.eq_ofNat_of_zero_le (show 0 ≤ e - (L - p + 1) by omega)
  have hval : (m : ℝ) * 2 ^ e = ((m * 2 ^ d : ℤ) : ℝ) * 2 ^ (L - p + 1) := by
    rw [show e = d + (L - p + 1) by omega, zpow_add₀ (by norm_num)]; push_cast; rw [zpow_natCast]; ring
  have hk : ∀ k, emin = some k → k ≤ L - p + 1 := by
    intro k hk
    have h1 : (2 : ℝ) ^ (k + p - 1) ≤ (m : ℝ) * 2 ^ e := by
      rcases hs with h | hs
      · rw [h] at h0; exact absurd h0 (lt_irrefl _)
      · have := hs k hk; rwa [abs_of_pos h0] at this
    have h2 : k + p - 1 ≤ L := (Int.zpow_le_iff_le_log (by norm_num) h0).1 (by simpa using h1)
    omega
  refine ⟨m * 2 ^ d, L - p + 1, ?_, ?_, hk, hval⟩
  · rw [hval] at hlog
    have : (2 : ℝ) ^ (L - (L - p + 1)) ≤ ((m * 2 ^ d : ℤ) : ℝ) := by
      rw [zpow_sub₀ (by norm_num), div_le_iff₀ (two_zpow_pos _)]; exact hlog
    rw [show L - (L - p + 1) = ((p - 1 : ℤ)) by ring] at this
    by_cases hp : p = 0
    · subst hp
      simp only [zero_tsub, pow_zero]
      have hm0 : (0 : ℤ) < m := by exact_mod_cast hmp
      have : (0 : ℤ) < m * 2 ^ d := by positivity
      omega
    · rw [show (p - 1 : ℤ) = ((p - 1 : ℕ) : ℤ) by omega, zpow_natCast] at this
      exact_mod_cast this
  · rw [hval] at hlt
    have : ((m * 2 ^ d : ℤ) : ℝ) < 2 ^ (L + 1 - (L - p + 1)) := by
      rw [zpow_sub₀ (by norm_num), lt_div_iff₀ (two_zpow_pos _)]; exact hlt
    rw [show L + 1 - (L - p + 1) = (p : ℤ) by ring, zpow_natCast] at this
    exact_mod_cast this

/-- In binary, the rounded root of the rounded square is not less than the number (without underflow). -/
theorem _root_.Verif.Spec.Rounds.sqrt_sq (hp : 1 < p) (h : Rounds p emin rnd) {d : ℝ} (hd : Representable p emin d) (h0 : 0 ≤ d)
    (hs : Safe p emin d) (hs2 : Safe p emin (d * d)) : d ≤ rnd (Real.sqrt (rnd (d * d))) := by
  rcases h0.eq_or_lt with rfl | h0
  · exact h.nonneg (Real.sqrt_nonneg _)
  obtain ⟨m, e, hm1, hm2, hke, hval⟩ := hd.normal h0 hs
  have he := two_zpow_pos e
  rcases hm1.eq_or_lt with hm1 | hm1
  · -- a power of two: everything is exact
    have hval2 : d * d = 2 ^ (e + e + (p - 1 : ℕ) + (p - 1 : ℕ)) := by
      rw [hval, ← hm1, zpow_add₀ (by norm_num), zpow_add₀ (by norm_num), zpow_add₀ (by norm_num), zpow_natCast]; push_cast; ring
    have hdd : Representable p emin (d * d) := by
      refine ⟨2 ^ (p - 1), e + e + (p - 1 : ℕ), ?_, ?_, ?_⟩
      · rw [abs_of_pos (by positivity)]
        exact pow_lt_pow_right₀ (by norm_num) (by omega)
      · intro k hk
        rcases hs2 with h2 | h2
        · have : 0 < d * d := by positivity
          rw [h2] at this; exact absurd this (lt_irrefl _)
        · have h3 := h2 k hk
          rw [abs_of_nonneg (by positivity), hval2] at h3
          have := (zpow_le_zpow_iff_right₀ (by norm_num : (1 : ℝ) < 2)).1 h3
          omega
      · rw [hval, ← hm1, zpow_add₀ (by norm_num), zpow_add₀ (by norm_num), zpow_natCast]; push_cast; ring
    rw [h.exact hdd, Real.sqrt_mul_self h0.le, h.exact hd]
  · -- the next smaller number is `2 ^ e` below
    have hpred : ∀ v, Representable p emin v → v < d → v ≤ d - 2 ^ e := by
      rintro _ ⟨m', e', hm', _, rfl⟩ hlt
      by_cases hle : e ≤ e'
      · obtain ⟨k, hk⟩ := Int.eq_ofNat_of_zero_le (show 0 ≤ e' - e by omega)
        have hv : (m' : ℝ) * 2 ^ e' = ((m' * 2 ^ k : ℤ) : ℝ) * 2 ^ e := by
          rw [show e' = k + e by omega, zpow_add₀ (by norm_num)]; push_cast; rw [zpow_natCast]; ring
        rw [hv, hval] at hlt ⊢
        have := lt_of_mul_lt_mul_right hlt he.le
        have : m' * 2 ^ k < m := by exact_mod_cast this
        have : m' * 2 ^ k ≤ m - 1 := by omega
        have : ((m' * 2 ^ k : ℤ) : ℝ) ≤ ((m - 1 : ℤ) : ℝ) := by exact_mod_cast this
        have := mul_le_mul_of_nonneg_right this he.le
        push_cast at this ⊢
        linarith
      · have h1 : (m' : ℝ) ≤ 2 ^ (p : ℤ) := by
          have := (le_abs_self m').trans hm'.le
          have : (m' : ℝ) ≤ ((2 ^ p : ℤ) : ℝ) := by exact_mod_cast this
          rw [zpow_natCast]; push_cast at this; exact this
        have h2 : (m' : ℝ) * 2 ^ e' ≤ 2 ^ ((p - 1 : ℕ) : ℤ) * 2 ^ e := by
          calc (m' : ℝ) * 2 ^ e' ≤ 2 ^ (p : ℤ) * 2 ^ e' := mul_le_mul_of_nonneg_right h1 (two_zpow_pos e').le
            _ = 2 ^ ((p : ℤ) + e') := (zpow_add₀ (by norm_num) _ _).symm
            _ ≤ 2 ^ (((p - 1 : ℕ) : ℤ) + e) := zpow_le_zpow_right₀ (by norm_num) (by omega)
            _ = _ := zpow_add₀ (by norm_num) _ _
        have h3 : (2 : ℝ) ^ ((p - 1 : ℕ) : ℤ) + 1 ≤ m := by
          rw [zpow_natCast]; exact_mod_cast hm1
        have := mul_le_mul_of_nonneg_right h3 he.le
        rw [hval]; linarith
    set y := rnd (d * d) with hy
    have hyd : (1 - (2 : ℝ)⁻¹ ^ p) * (d * d) ≤ y := by
      have := h.error hp hs2
      rw [abs_of_nonneg (show 0 ≤ d * d by positivity)] at this
      have := (abs_le.1 this).1
      linarith
    have hmid : d - 2 ^ e / 2 < Real.sqrt y := by
      apply Real.lt_sqrt_of_sq_lt
      refine lt_of_lt_of_le ?_ hyd
      rw [hval]
      have hmR1 : (2 : ℝ) ^ (p - 1) ≤ m := by exact_mod_cast hm1.le
      have hmR2 : (m : ℝ) ≤ 2 ^ p - 1 := by
        have : m ≤ 2 ^ p - 1 := by omega
        exact_mod_cast this
      have hpp : (2 : ℝ) ^ p = 2 * 2 ^ (p - 1) := by
        rw [← pow_succ']; congr 1; omega
      have hP : (0 : ℝ) < 2 ^ p := by positivity
      have key : (m : ℝ) ^ 2 * (2 : ℝ)⁻¹ ^ p ≤ m - 1 / 2 := by
        rw [inv_pow, ← div_eq_mul_inv, div_le_iff₀ hP]
        nlinarith
      have hee : (0 : ℝ) < 2 ^ e * 2 ^ e := by positivity
      nlinarith
    by_contra hc
    rw [not_le] at hc
    have h1 := hpred _ (h.mem _) hc
    have hsd : Real.sqrt y < d := by
      by_contra hge
      exact absurd (h.le_of hd (not_lt.1 hge)) (not_le.2 hc)
    have h2 := h.nearest (Real.sqrt y) d hd
    rw [abs_of_pos (show 0 < d - Real.sqrt y by linarith), abs_of_neg (by linarith)] at h2
    linarith
end
end Verif
