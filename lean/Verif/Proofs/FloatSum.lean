import Verif.Proofs.FloatError

set_option linter.unusedSectionVars false

/-
Sums and differences never underflow: their error is relative, without an absolute part.
-/
namespace Verif
open Spec

variable {F : FloatFormat}

theorem Fl.multiple (a : Fl F) {k : ℤ} (hk : F.emin = some k) : ∃ n : ℤ, a.1 = n * (2 : ℝ) ^ k := by
  obtain ⟨m, e, -, he, h⟩ := a.2
  have he := he k hk
  refine ⟨m * 2 ^ (e - k).toNat, ?_⟩
  rw [h]
  push_cast
  rw [mul_assoc, ← zpow_natCast (2 : ℝ) (e - k).toNat, ← zpow_add₀ (by norm_num)]
  congr 2
  omega

/-- Multiples of the smallest positive number are representable unless they are normal numbers. -/
theorem FloatFormat.rel_of_multiple (F : FloatFormat) {x : ℝ} (h : ∀ k, F.emin = some k → ∃ n : ℤ, x = n * (2 : ℝ) ^ k) :
    |F.rnd x - x| ≤ F.unit * |x| := by
  by_cases hs : Safe F.prec F.emin x
  · exact F.rounds.error F.one_lt_prec hs
  · unfold Safe at hs
    push Not at hs
    obtain ⟨-, k, hk, hx⟩ := hs
    obtain ⟨n, hn⟩ := h k hk
    have hrep : Representable F.prec F.emin x := by
      rw [hn]
      refine Representable.of_le F.one_lt_prec ?_ fun k' hk' => ?_
      · have h2 := two_zpow_pos k
        rw [hn, abs_mul, abs_of_pos h2, show k + (F.prec : ℤ) - 1 = ((F.prec : ℤ) - 1) + k by ring, zpow_add₀ (by norm_num)] at hx
        have h3 : |(n : ℝ)| < 2 ^ ((F.prec : ℤ) - 1) := lt_of_mul_lt_mul_right hx h2.le
        have h4 : (2 : ℝ) ^ ((F.prec : ℤ) - 1) ≤ 2 ^ (F.prec : ℤ) := zpow_le_zpow_right₀ (by norm_num) (by omega)
        rw [zpow_natCast] at h4
        have h5 : ((|n| : ℤ) : ℝ) ≤ ((2 ^ F.prec : ℤ) : ℝ) := by push_cast; linarith
        exact_mod_cast h5
      · rw [hk, Option.some.injEq] at hk'
        omega
    rw [F.rounds.exact hrep, sub_self, abs_zero]
    have := F.unit_pos
    positivity

theorem Fl.add_rel (a b : Fl F) : |(a + b).1 - (a.1 + b.1)| ≤ F.unit * |a.1 + b.1| := by
  refine F.rel_of_multiple fun k hk => ?_
  obtain ⟨n, hn⟩ := a.multiple hk
  obtain ⟨m, hm⟩ := b.multiple hk
  exact ⟨n + m, by rw [hn, hm]; push_cast; ring⟩

theorem Fl.sub_rel (a b : Fl F) : |(a - b).1 - (a.1 - b.1)| ≤ F.unit * |a.1 - b.1| := by
  refine F.rel_of_multiple fun k hk => ?_
  obtain ⟨n, hn⟩ := a.multiple hk
  obtain ⟨m, hm⟩ := b.multiple hk
  exact ⟨n - m, by rw [hn, hm]; push_cast; ring⟩

/-- Half of a rounded difference never exceeds the difference. -/
theorem Fl.half_sub_le {a b : Fl F} (h : a ≤ b) : F.rnd ((b - a).1 / 2) ≤ b.1 - a.1 := by
  have h : a.1 ≤ b.1 := h
  rcases h.eq_or_lt with h0 | h0
  · rw [Fl.val_sub, h0, sub_self, F.rounds.zero, zero_div, F.rounds.zero]
  have hx : 0 < b.1 - a.1 := by linarith
  have hlog : (2 : ℝ) ^ Int.log 2 (b.1 - a.1) ≤ b.1 - a.1 := by simpa using Int.zpow_log_le_self (b := 2) (by norm_num) hx
  have hlt : b.1 - a.1 < (2 : ℝ) ^ (Int.log 2 (b.1 - a.1) + 1) := by
    simpa using Int.lt_zpow_succ_log_self (b := 2) (by norm_num) (b.1 - a.1)
  have he : ∀ k, F.emin = some k → k ≤ Int.log 2 (b.1 - a.1) := by
    intro k hk
    refine (Int.zpow_le_iff_le_log (by norm_num) hx).1 ?_
    obtain ⟨n, hn⟩ := a.multiple hk
    obtain ⟨m, hm⟩ := b.multiple hk
    have h2 := two_zpow_pos k
    have e : b.1 - a.1 = ((m - n : ℤ) : ℝ) * 2 ^ k := by rw [hn, hm]; push_cast; ring
    rw [e] at hx ⊢
    have h3 : 0 < ((m - n : ℤ) : ℝ) := pos_of_mul_pos_left hx h2.le
    have h4 : 1 ≤ m - n := by exact_mod_cast h3
    have h5 : (1 : ℝ) ≤ ((m - n : ℤ) : ℝ) := by exact_mod_cast h4
    push_cast
    push_cast at h5
    nlinarith
  refine le_trans ?_ hlog
  refine F.rounds.of_le (representable_two_pow F.one_lt_prec he) ?_
  have h1 : (b - a).1 ≤ (2 : ℝ) ^ (Int.log 2 (b.1 - a.1) + 1) := by
    rw [Fl.val_sub]
    exact F.rounds.of_le (representable_two_pow F.one_lt_prec fun k hk => (he k hk).trans (by omega)) hlt.le
  rw [zpow_add₀ (by norm_num), zpow_one] at h1
  linarith
end Verif
