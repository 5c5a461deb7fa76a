import Verif.Proofs.FloatAxis

set_option linter.unusedSectionVars false

/-
A flat quadrilateral whose two triangles get different normals.
-/
namespace Verif
open Spec

variable {F : FloatFormat}

/-- The point with the given coordinates. -/
def pt {x y z : ℝ} (hx : Representable F.prec F.emin x) (hy : Representable F.prec F.emin y) (hz : Representable F.prec F.emin z) : Vec (Fl F) 3 :=
  ![⟨x, hx⟩, ⟨y, hy⟩, ⟨z, hz⟩]

theorem pt_vals {x y z : ℝ} (hx : Representable F.prec F.emin x) (hy : Representable F.prec F.emin y) (hz : Representable F.prec F.emin z) :
    (fun i => (pt hx hy hz i).1) = ![x, y, z] := by
  funext i; fin_cases i <;> rfl

/-- A distance of many units of the format. -/
noncomputable def flatE (F : FloatFormat) : ℝ := 64 * F.unit

section
variable (hp : 16 ≤ F.prec) (hmin : ∀ k, F.emin = some k → k ≤ -4 * (F.prec : ℤ))
include hp

theorem flat_unit : F.unit ≤ 1 / 65536 := by
  unfold FloatFormat.unit
  rw [inv_pow, show (1 / 65536 : ℝ) = (2 ^ 16)⁻¹ by norm_num]
  exact inv_anti₀ (by norm_num) (pow_le_pow_right₀ (by norm_num) hp)

theorem flatE_eq : flatE F = (2 : ℝ) ^ (6 - (F.prec : ℤ)) := by
  unfold flatE FloatFormat.unit
  rw [zpow_sub₀ (by norm_num), zpow_natCast, inv_pow]
  norm_num
  rfl

theorem flatE_mul : (2 : ℝ) ^ (F.prec - 1) * flatE F = 32 := by
  rw [flatE_eq hp, ← zpow_natCast, ← zpow_add₀ (by norm_num)]
  have : (((F.prec - 1 : ℕ) : ℤ)) + (6 - (F.prec : ℤ)) = 5 := by omega
  rw [this]; norm_num

include hmin

theorem flat_rep (m e : ℤ) (hm : |m| < 2 ^ F.prec) (he : -(F.prec : ℤ) ≤ e) : Representable F.prec F.emin ((m : ℝ) * 2 ^ e) :=
  ⟨m, e, hm, fun k hk => by have := hmin k hk; omega, rfl⟩

theorem flat_int (m : ℤ) (hm : |m| < 2 ^ 16) : Representable F.prec F.emin (m : ℝ) := by
  have := flat_rep hp hmin m 0 (lt_of_lt_of_le hm (pow_le_pow_right₀ (by norm_num) hp)) (by omega)
  rwa [zpow_zero, mul_one] at this

theorem flat_mulE (m : ℤ) (hm : |m| < 2 ^ 16) : Representable F.prec F.emin ((m : ℝ) * flatE F) := by
  rw [flatE_eq hp]
  exact flat_rep hp hmin m _ (lt_of_lt_of_le hm (pow_le_pow_right₀ (by norm_num) hp)) (by omega)

theorem flat_near (m : ℤ) (hm : |m| ≤ 32) : Representable F.prec F.emin (32 + (m : ℝ) * flatE F) := by
  have e : 32 + (m : ℝ) * flatE F = ((2 ^ (F.prec - 1) + m : ℤ) : ℝ) * flatE F := by
    push_cast; rw [add_mul, flatE_mul hp]
  rw [e, flatE_eq hp]
  refine flat_rep hp hmin _ _ ?_ (by omega)
  have h1 : (2 : ℤ) ^ F.prec = 2 * 2 ^ (F.prec - 1) := by rw [← pow_succ']; congr 1; omega
  have h2 : (2 : ℤ) ^ 15 ≤ 2 ^ (F.prec - 1) := pow_le_pow_right₀ (by norm_num) (by omega)
  rw [h1]
  obtain ⟨a, b⟩ := abs_le.1 hm
  norm_num at h2
  exact abs_lt.2 ⟨by omega, by omega⟩

theorem flat_coarse : Representable F.prec F.emin (704 + 16 * flatE F) := by
  have e0 : (2 : ℝ) ^ (F.prec - 10) * (16 * flatE F) = 1 := by
    have : (2 : ℝ) ^ (F.prec - 1) = 2 ^ (F.prec - 10) * 512 := by
      rw [show (512 : ℝ) = 2 ^ 9 by norm_num, ← pow_add]; congr 1; omega
    have h := flatE_mul hp
    rw [this] at h
    linarith
  have e : 704 + 16 * flatE F = ((704 * 2 ^ (F.prec - 10) + 1 : ℤ) : ℝ) * (16 * flatE F) := by
    push_cast; linear_combination (-704) * e0
  have e2 : 16 * flatE F = (2 : ℝ) ^ (10 - (F.prec : ℤ)) := by
    rw [flatE_eq hp, show (10 - (F.prec : ℤ)) = 4 + (6 - F.prec) by ring, zpow_add₀ (by norm_num)]; norm_num
  rw [e, e2]
  refine flat_rep hp hmin _ _ ?_ (by omega)
  have h1 : (2 : ℤ) ^ F.prec = 1024 * 2 ^ (F.prec - 10) := by
    rw [show (1024 : ℤ) = 2 ^ 10 by norm_num, ← pow_add]; congr 1; omega
  have h2 : (0 : ℤ) < 2 ^ (F.prec - 10) := by positivity
  rw [h1]
  exact abs_lt.2 ⟨by omega, by omega⟩

/-- Between 512 and 1024 only every sixteenth multiple is representable. -/
theorem flat_round : F.rnd (704 + 22 * flatE F) = 704 + 16 * flatE F := by
  have hE : 0 < flatE F := mul_pos (by norm_num) F.unit_pos
  have hlow : 704 + 16 * flatE F ≤ F.rnd (704 + 22 * flatE F) := by
    have := F.rounds.mono (show 704 + 16 * flatE F ≤ 704 + 22 * flatE F by linarith)
    rwa [F.rounds.exact (flat_coarse hp hmin)] at this
  have hup : F.rnd (704 + 22 * flatE F) ≤ 704 + 28 * flatE F := by
    have := F.rounds.nearest (704 + 22 * flatE F) _ (flat_coarse hp hmin)
    rw [show 704 + 16 * flatE F - (704 + 22 * flatE F) = -(6 * flatE F) by ring, abs_neg, abs_of_pos (by positivity : 0 < 6 * flatE F)] at this
    have := (abs_le.1 this).2
    linarith
  obtain ⟨m, e, hm, _, hy⟩ := F.rounds.mem (704 + 22 * flatE F)
  have e2 : 16 * flatE F = (2 : ℝ) ^ (10 - (F.prec : ℤ)) := by
    rw [flatE_eq hp, show (10 - (F.prec : ℤ)) = 4 + (6 - F.prec) by ring, zpow_add₀ (by norm_num)]; norm_num
  have e0 : (2 : ℝ) ^ (F.prec - 10) * (16 * flatE F) = 1 := by
    rw [e2, ← zpow_natCast, ← zpow_add₀ (by norm_num), show ((F.prec - 10 : ℕ) : ℤ) + (10 - (F.prec : ℤ)) = 0 by omega, zpow_zero]
  -- the exponent is large enough
  have he : 10 - (F.prec : ℤ) ≤ e := by
    by_contra hlt
    push Not at hlt
    have h1 : (m : ℝ) < 2 ^ F.prec := by exact_mod_cast lt_of_le_of_lt (le_abs_self m) hm
    have h2 : (m : ℝ) * 2 ^ e < 2 ^ F.prec * 2 ^ e := mul_lt_mul_of_pos_right h1 (two_zpow_pos e)
    have h3 : (2 : ℝ) ^ F.prec * 2 ^ e ≤ 2 ^ (9 : ℤ) := by
      rw [← zpow_natCast, ← zpow_add₀ (by norm_num)]
      exact zpow_le_zpow_right₀ (by norm_num) (by omega)
    rw [← hy] at h2
    norm_num at h3
    linarith
  obtain ⟨j, hj⟩ := Int.eq_ofNat_of_zero_le (show 0 ≤ e - (10 - (F.prec : ℤ)) by omega)
  have e3 : F.rnd (704 + 22 * flatE F) = ((m * 2 ^ j : ℤ) : ℝ) * (16 * flatE F) := by
    rw [hy, e2, show e = j + (10 - (F.prec : ℤ)) by omega, zpow_add₀ (by norm_num), zpow_natCast]; push_cast; ring
  have e4 : ∀ a : ℝ, 704 + a * flatE F = (704 * 2 ^ (F.prec - 10) + a / 16) * (16 * flatE F) := fun a => by
    linear_combination (-704) * e0
  have h16 : 0 < 16 * flatE F := by positivity
  rw [e3] at hlow hup ⊢
  rw [e4] at hlow hup ⊢
  have h5 := le_of_mul_le_mul_right hlow h16
  have h6 := le_of_mul_le_mul_right hup h16
  congr 1
  have h7 : 704 * 2 ^ (F.prec - 10) + 1 ≤ m * 2 ^ j := by
    have : ((704 * 2 ^ (F.prec - 10) + 1 : ℤ) : ℝ) ≤ ((m * 2 ^ j : ℤ) : ℝ) := by push_cast at h5 ⊢; linarith
    exact_mod_cast this
  have h8 : m * 2 ^ j < 704 * 2 ^ (F.prec - 10) + 2 := by
    have : ((m * 2 ^ j : ℤ) : ℝ) < ((704 * 2 ^ (F.prec - 10) + 2 : ℤ) : ℝ) := by push_cast at h6 ⊢; linarith
    exact_mod_cast this
  have h9 : m * 2 ^ j = 704 * 2 ^ (F.prec - 10) + 1 := by omega
  rw [h9]; push_cast; norm_num

/-- Dividing keeps the order of numbers that differ by some units. -/
theorem quot_gap {a b L c : ℝ} (ha : 0 < a) (hL : 0 < L) (hc0 : 0 ≤ c) (hc : c ≤ 5) (hab : (1 + (c + 3) * F.unit) * a ≤ b) (hbig : 1 / 4 ≤ F.rnd (a / L)) :
    (1 + c * F.unit) * F.rnd (a / L) ≤ F.rnd (b / L) := by
  obtain ⟨ht, -⟩ := tiny_small hmin (by omega : 9 ≤ F.prec)
  have hu0 := F.unit_pos
  have hu := flat_unit hp
  have ht0 := F.tiny_nonneg
  have h1 := F.err (a / L)
  have h2 := F.err (b / L)
  have hα : 0 < a / L := by positivity
  have hβ : (1 + (c + 3) * F.unit) * (a / L) ≤ b / L := by
    rw [← mul_div_assoc]; exact div_le_div_of_nonneg_right hab hL.le
  have hβ0 : 0 < b / L := lt_of_lt_of_le (by positivity) hβ
  rw [abs_of_pos hα] at h1
  rw [abs_of_pos hβ0] at h2
  generalize a / L = α at *
  generalize b / L = β at *
  generalize F.rnd α = A at *
  generalize F.rnd β = B at *
  generalize F.unit = u at *
  generalize F.tiny = t at *
  clear hmin hp hab
  have k1 := (abs_le.1 h1).2
  have k2 := (abs_le.1 h2).1
  have hu2 : u ^ 4 ≤ 1 / 65536 * u ^ 2 := by
    have : u * u ≤ 1 / 65536 * 1 := mul_le_mul hu (by linarith) hu0.le (by norm_num)
    nlinarith [mul_le_mul_of_nonneg_left this (show 0 ≤ u * u by positivity)]
  have hα1 : 1 / 8 ≤ α := by nlinarith
  have ht1 : t ≤ u ^ 2 * α := by nlinarith [sq_nonneg u]
  have hB : (1 - u) * ((1 + (c + 3) * u) * α) - u ^ 2 * α ≤ B := by
    have := mul_le_mul_of_nonneg_left hβ (show 0 ≤ 1 - u by linarith)
    linarith
  have hA : A ≤ (1 + u + u ^ 2) * α := by linarith
  have hA' := mul_le_mul_of_nonneg_left hA (show 0 ≤ 1 + c * u by positivity)
  refine hA'.trans (le_trans ?_ hB)
  have e : (1 - u) * ((1 + (c + 3) * u) * α) - u ^ 2 * α - (1 + c * u) * ((1 + u + u ^ 2) * α) = α * u * (1 - u * (2 * c + 5) - c * u ^ 2) := by ring
  have h3 : 0 ≤ 1 - u * (2 * c + 5) - c * u ^ 2 := by
    have : u * (2 * c + 5) ≤ 1 / 65536 * 15 := mul_le_mul hu (by linarith) (by positivity) (by norm_num)
    have : c * u ^ 2 ≤ 5 * (1 / 65536) ^ 2 := mul_le_mul hc (pow_le_pow_left₀ hu0.le hu 2) (by positivity) (by norm_num)
    norm_num at *
    linarith
  have : 0 ≤ α * u * (1 - u * (2 * c + 5) - c * u ^ 2) := by positivity
  linarith
end
end Verif
