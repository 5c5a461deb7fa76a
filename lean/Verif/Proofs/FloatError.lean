import Verif.Proofs.FloatMesh
import Mathlib.Analysis.SpecialFunctions.Trigonometric.Bounds

set_option linter.unusedSectionVars false

/-
Absolute errors of floating point operations, and of the angles of the mesh builders.
-/
namespace Verif
open Spec Real

/-- The smallest positive number, zero if there is none. -/
noncomputable def FloatFormat.tiny (F : FloatFormat) : ℝ :=
  match F.emin with
  | none => 0
  | some k => 2 ^ k

/-- The unit roundoff. -/
noncomputable def FloatFormat.unit (F : FloatFormat) : ℝ := (2 : ℝ)⁻¹ ^ F.prec

theorem FloatFormat.tiny_nonneg (F : FloatFormat) : 0 ≤ F.tiny := by
  unfold FloatFormat.tiny
  split
  · exact le_rfl
  · positivity

theorem FloatFormat.unit_pos (F : FloatFormat) : 0 < F.unit := by unfold FloatFormat.unit; positivity

/-- The error of rounding any number. -/
theorem FloatFormat.err (F : FloatFormat) (x : ℝ) : |F.rnd x - x| ≤ F.unit * |x| + F.tiny := by
  have hpos : ∀ x : ℝ, 0 < x → |F.rnd x - x| ≤ F.unit * |x| + F.tiny := by
    intro x hx
    refine (F.rounds.nearest x _ (roundPos_mem F.one_lt_prec F.emin hx)).trans ?_
    have hg := two_zpow_pos (ulpExp F.prec F.emin x)
    have hr := abs_sub_round (x / 2 ^ ulpExp F.prec F.emin x)
    have e1 : roundPos F.prec F.emin x - x
        = -((x / 2 ^ ulpExp F.prec F.emin x - round (x / 2 ^ ulpExp F.prec F.emin x)) * 2 ^ ulpExp F.prec F.emin x) := by
      unfold roundPos; field_simp; ring
    rw [e1, abs_neg, abs_mul, abs_of_pos hg]
    refine (mul_le_mul_of_nonneg_right hr hg.le).trans ?_
    have hlog : (2 : ℝ) ^ Int.log 2 x ≤ x := by simpa using Int.zpow_log_le_self (b := 2) (by norm_num) hx
    rw [abs_of_pos hx]
    have hsum : (2 : ℝ) ^ ulpExp F.prec F.emin x ≤ 2 ^ (Int.log 2 x - F.prec + 1) + F.tiny := by
      unfold ulpExp FloatFormat.tiny
      cases F.emin with
      | none => simp
      | some k =>
        simp only
        rcases max_choice k (Int.log 2 x - F.prec + 1) with h | h <;> rw [h]
        · have := two_zpow_pos (Int.log 2 x - F.prec + 1); linarith
        · have := two_zpow_pos k; linarith
    have e2 : (2 : ℝ) ^ (Int.log 2 x - F.prec + 1) = 2 * (F.unit * 2 ^ Int.log 2 x) := by
      unfold FloatFormat.unit
      rw [inv_pow, ← zpow_natCast, ← zpow_neg, ← zpow_add₀ (by norm_num), ← zpow_one_add₀ (by norm_num)]
      congr 1; ring
    have h3 := mul_le_mul_of_nonneg_left hlog F.unit_pos.le
    have h4 := F.tiny_nonneg
    rw [e2] at hsum
    linarith
  rcases lt_trichotomy x 0 with hx | hx | hx
  · have := hpos (-x) (by linarith)
    rw [F.rounds.odd, abs_neg] at this
    rwa [show -F.rnd x - -x = -(F.rnd x - x) by ring, abs_neg] at this
  · subst hx
    rw [F.rounds.zero, sub_zero, abs_zero, mul_zero, zero_add]
    exact F.tiny_nonneg
  · exact hpos x hx

/-- Rounding a number that is off by `e` already. -/
theorem FloatFormat.err_of (F : FloatFormat) {x y e X : ℝ} (h : |y - x| ≤ e) (hX : |x| ≤ X) :
    |F.rnd y - x| ≤ e + F.unit * (X + e) + F.tiny := by
  have h1 := F.err y
  have h2 : |y| ≤ X + e := by
    have := abs_sub_abs_le_abs_sub y x
    linarith
  have h3 := mul_le_mul_of_nonneg_left h2 F.unit_pos.le
  calc |F.rnd y - x| = |(F.rnd y - y) + (y - x)| := by congr 1; ring
    _ ≤ |F.rnd y - y| + |y - x| := abs_add_le _ _
    _ ≤ _ := by linarith

/-- Counts up to `2 ^ prec` are exact. -/
theorem FloatFormat.natCast_exact (F : FloatFormat) {n : ℕ} (h : (n : ℝ) * F.unit ≤ 1) : ((n : ℕ) : Fl F).1 = n := by
  rw [Fl.val_natCast]
  apply F.rounds.exact
  have hn : n ≤ 2 ^ F.prec := by
    unfold FloatFormat.unit at h
    rw [inv_pow, ← div_eq_mul_inv, div_le_one (by positivity)] at h
    exact_mod_cast h
  have : Representable F.prec F.emin ((n : ℤ) * (2 : ℝ) ^ (0 : ℤ)) := by
    refine Representable.of_le F.one_lt_prec ?_ fun k hk => F.emin_le k hk
    rw [abs_of_nonneg (by positivity)]
    exact_mod_cast hn
  simpa using this

theorem FloatFormat.two_exact (F : FloatFormat) : (2 : Fl F).1 = 2 := by
  rw [Fl.val_two]
  apply F.rounds.exact
  simpa using representable_two_pow (p := F.prec) (emin := F.emin) F.one_lt_prec (e := 1) fun k hk => by
    have := F.emin_le k hk; omega

section
variable {F : FloatFormat} [HasTrig (Fl F)]

/-- The angles `i · (c / n)` of the builders, for `c` near `C`. -/
theorem angle_err {c : Fl F} {C b : ℝ} (hC : 0 ≤ C) (hC7 : C ≤ 13 / 2) (hb : b ≤ 20) (hc : |c.1 - C| ≤ b * F.unit)
    (hu : F.unit ≤ 1 / 576) (ht : F.tiny ≤ F.unit ^ 2) {n i : ℕ} (hn : (n : ℝ) * F.unit ≤ 1 / 72) (hin : i ≤ n) (hn0 : 0 < n) :
    |((i : Fl F) * (c / (n : Fl F))).1 - i * (C / n)| ≤ (b + 2 * C + 1) * F.unit := by
  have hu0 := F.unit_pos
  have ht0 := F.tiny_nonneg
  have hb0 : 0 ≤ b * F.unit := (abs_nonneg _).trans hc
  have hnn : (0 : ℝ) < n := by exact_mod_cast hn0
  have hi : (i : ℝ) ≤ n := by exact_mod_cast hin
  have hi0 : (0 : ℝ) ≤ i := by positivity
  have hni : ((n : ℕ) : Fl F).1 = n := F.natCast_exact (by linarith)
  have hii : ((i : ℕ) : Fl F).1 = i := F.natCast_exact (by
    have := mul_le_mul_of_nonneg_right hi hu0.le; linarith)
  -- the step
  have s1 : |(c / (n : Fl F)).1 - C / n| ≤ b * F.unit / n + F.unit * (C / n + b * F.unit / n) + F.tiny := by
    rw [Fl.val_div, hni]
    refine F.err_of ?_ ?_
    · rw [← sub_div, abs_div, abs_of_pos hnn]
      exact div_le_div_of_nonneg_right hc hnn.le
    · rw [abs_of_nonneg (by positivity)]
  set st := (c / (n : Fl F)).1 with hst
  have s2 : |(i : ℝ) * st - i * (C / n)| ≤ b * F.unit + F.unit * (C + b * F.unit) + n * F.tiny := by
    rw [← mul_sub, abs_mul, abs_of_nonneg hi0]
    calc (i : ℝ) * |st - C / n| ≤ n * (b * F.unit / n + F.unit * (C / n + b * F.unit / n) + F.tiny) :=
          mul_le_mul hi s1 (abs_nonneg _) hnn.le
      _ = _ := by field_simp
  rw [Fl.val_mul, hii, ← hst]
  have hX : |(i : ℝ) * (C / n)| ≤ C := by
    rw [abs_of_nonneg (by positivity)]
    calc (i : ℝ) * (C / n) ≤ n * (C / n) := mul_le_mul_of_nonneg_right hi (by positivity)
      _ = C := by field_simp
  have s3 := F.err_of s2 hX
  refine s3.trans ?_
  set u := F.unit with hu'
  have hnt : (n : ℝ) * F.tiny ≤ u / 72 := by
    calc (n : ℝ) * F.tiny ≤ n * u ^ 2 := mul_le_mul_of_nonneg_left ht hnn.le
      _ = (n * u) * u := by ring
      _ ≤ 1 / 72 * u := mul_le_mul_of_nonneg_right hn hu0.le
      _ = _ := by ring
  have hsm : ∀ {x y : ℝ}, x ≤ y → u * x ≤ u * y := fun h => mul_le_mul_of_nonneg_left h hu0.le
  have huu := hsm hu
  have h1 : C * u ≤ 13 / 2 * (1 / 576) := mul_le_mul hC7 hu hu0.le (by norm_num)
  have hCu := hsm h1
  have h2 : b * u ≤ 20 * (1 / 576) := (mul_le_mul_of_nonneg_right hb hu0.le).trans (mul_le_mul_of_nonneg_left hu (by norm_num))
  have hbu := hsm h2
  have hbuu := hsm hbu
  have hun := hsm hnt
  have ht' : F.tiny ≤ u * u := by rw [← pow_two]; exact ht
  clear s1 s2 s3 hX hst st hni hii hc hn hi ht hin
  have e1 : u * (u * (b * u)) ≤ u * (1 / 576) := by linarith
  have e2 : u * (↑n * F.tiny) ≤ u * (1 / 576) := by linarith
  have e3 : (n : ℝ) * F.tiny ≤ u / 72 := by assumption
  have e4 : b * u + u * (C + b * u) + n * F.tiny + u * (C + (b * u + u * (C + b * u) + n * F.tiny)) + F.tiny
      = b * u + 2 * C * u + (2 * (u * (b * u)) + n * F.tiny + u * (C * u) + u * (u * (b * u)) + u * (n * F.tiny) + F.tiny) := by ring
  have e5 : (b + 2 * C + 1) * u = b * u + 2 * C * u + u := by ring
  rw [e4, e5]
  linarith

/-- Cosine and sine of a computed angle. -/
theorem trig_err (hl : Fl.LibAccurate F) {x : Fl F} {a e : ℝ} (hx : |x.1 - a| ≤ e * F.unit) (ha : |a| + e * F.unit ≤ 8) :
    |(HasTrig.cos x).1 - cos a| ≤ (e + 2) * F.unit ∧ |(HasTrig.sin x).1 - sin a| ≤ (e + 2) * F.unit := by
  have h8 : |x.1| ≤ 8 := by
    have := abs_sub_abs_le_abs_sub x.1 a
    linarith
  have hc := hl.cos x h8
  have hs := hl.sin x h8
  have dc : |cos x.1 - cos a| ≤ |x.1 - a| := by
    have := Real.abs_cos_sub_cos_le x.1 a
    exact this
  have ds : |sin x.1 - sin a| ≤ |x.1 - a| := by
    have := Real.abs_sin_sub_sin_le x.1 a
    exact this
  unfold FloatFormat.unit at *
  constructor
  · calc |(HasTrig.cos x).1 - cos a| = |((HasTrig.cos x).1 - cos x.1) + (cos x.1 - cos a)| := by congr 1; ring
      _ ≤ _ := abs_add_le _ _
      _ ≤ _ := by linarith
  · calc |(HasTrig.sin x).1 - sin a| = |((HasTrig.sin x).1 - sin x.1) + (sin x.1 - sin a)| := by congr 1; ring
      _ ≤ _ := abs_add_le _ _
      _ ≤ _ := by linarith

omit [HasTrig (Fl F)] in
/-- A product of two computed numbers. -/
theorem mul_err {a b : Fl F} {x y X Y d e : ℝ} (ha : |a.1 - x| ≤ d) (hb : |b.1 - y| ≤ e) (hx : |x| ≤ X) (hy : |y| ≤ Y) :
    |(a * b).1 - x * y| ≤ (d * Y + X * e + d * e) + F.unit * (X * Y + (d * Y + X * e + d * e)) + F.tiny := by
  have hd := (abs_nonneg _).trans ha
  have he := (abs_nonneg _).trans hb
  have hX := (abs_nonneg _).trans hx
  have hY := (abs_nonneg _).trans hy
  rw [Fl.val_mul]
  refine F.err_of ?_ ?_
  · have e1 : a.1 * b.1 - x * y = (a.1 - x) * y + x * (b.1 - y) + (a.1 - x) * (b.1 - y) := by ring
    rw [e1]
    refine (abs_add_le _ _).trans (add_le_add ((abs_add_le _ _).trans (add_le_add ?_ ?_)) ?_) <;> rw [abs_mul]
    · exact mul_le_mul ha hy (abs_nonneg _) hd
    · exact mul_le_mul hx hb (abs_nonneg _) hX
    · exact mul_le_mul ha hb (abs_nonneg _) hd
  · rw [abs_mul]; exact mul_le_mul hx hy (abs_nonneg _) hX

omit [HasTrig (Fl F)] in
/-- A sum. -/
theorem add_err {a b : Fl F} {x X d : ℝ} (ha : |a.1 - x| ≤ d) (hx : |x + b.1| ≤ X) :
    |(a + b).1 - (x + b.1)| ≤ d + F.unit * (X + d) + F.tiny := by
  rw [Fl.val_add]
  refine F.err_of ?_ hx
  rwa [show a.1 + b.1 - (x + b.1) = a.1 - x by ring]
end
end Verif
