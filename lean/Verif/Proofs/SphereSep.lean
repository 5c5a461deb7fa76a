import Verif.Props.SphereMesh
import Mathlib.Analysis.SpecialFunctions.Trigonometric.Bounds

set_option linter.unusedSectionVars false

/-
How far the points of the meshes of spheres, cones and cylinders are apart.
-/
namespace Verif
open Spec Matrix Real

/-- Jordan's inequality on both sides of the right angle. -/
theorem sin_ge {x d : ℝ} (hd : 0 ≤ d) (h1 : d ≤ x) (h2 : x ≤ π - d) : 2 / π * d ≤ sin x := by
  have hpi := Real.pi_pos
  have hc : 0 ≤ 2 / π := by positivity
  rcases le_total x (π / 2) with h | h
  · exact (mul_le_mul_of_nonneg_left h1 hc).trans (Real.mul_le_sin (hd.trans h1) h)
  · rw [← Real.sin_pi_sub]
    exact (mul_le_mul_of_nonneg_left (by linarith) hc).trans (Real.mul_le_sin (by linarith) (by linarith))

theorem sin_ge_div {x : ℝ} {m : ℕ} {c : ℝ} (hm : 0 < m) (hc : 0 ≤ c) (h1 : c * (π / m) ≤ x) (h2 : x ≤ π - c * (π / m)) :
    2 * c / m ≤ sin x := by
  have hpi := Real.pi_pos
  have hm' : (0 : ℝ) < m := by exact_mod_cast hm
  have := sin_ge (by positivity) h1 h2
  calc 2 * c / m = 2 / π * (c * (π / m)) := by field_simp
    _ ≤ _ := this

/-- Different rings, and rings and poles. -/
theorem polar_range {p i : Nat} (h : i < p - 1) : π / p ≤ polar p i ∧ polar p i ≤ π - π / p := by
  have hp : (0 : ℝ) < p := by exact_mod_cast (by omega : 0 < p)
  have hpi := Real.pi_pos
  have hs : (0 : ℝ) < π / p := by positivity
  unfold polar
  have h1 : (1 : ℝ) ≤ ((i + 1 : ℕ) : ℝ) := by exact_mod_cast (by omega : 1 ≤ i + 1)
  have h2 : ((i + 1 : ℕ) : ℝ) ≤ p - 1 := by
    have : ((i + 1 : ℕ) : ℝ) + 1 ≤ p := by exact_mod_cast (by omega : i + 1 + 1 ≤ p)
    linarith
  constructor
  · nlinarith
  · have e : π = p * (π / p) := by field_simp
    calc ((i + 1 : ℕ) : ℝ) * (π / p) ≤ (p - 1) * (π / p) := mul_le_mul_of_nonneg_right h2 hs.le
      _ = p * (π / p) - π / p := by ring
      _ = _ := by rw [← e]

theorem sin_polar_ge {p i : Nat} (h : i < p - 1) : 2 / p ≤ sin (polar p i) := by
  obtain ⟨h1, h2⟩ := polar_range h
  have := sin_ge_div (x := polar p i) (m := p) (c := 1) (by omega) zero_le_one (by linarith) (by linarith)
  simpa using this

theorem cos_gap {p : ℕ} (hp : 0 < p) {a b : ℝ} (h0 : 0 ≤ a) (hab : a + π / p ≤ b) (hb : b ≤ π) :
    2 / (p : ℝ) ^ 2 ≤ cos a - cos b := by
  have hp' : (0 : ℝ) < p := by exact_mod_cast hp
  have hpi := Real.pi_pos
  have hs : (0 : ℝ) < π / p := by positivity
  have e : cos a - cos b = 2 * sin ((a + b) / 2) * sin ((b - a) / 2) := by
    rw [Real.cos_sub_cos, show (a - b) / 2 = -((b - a) / 2) by ring, Real.sin_neg]; ring
  have h1 : 2 * (1 / 2) / (p : ℝ) ≤ sin ((a + b) / 2) :=
    sin_ge_div hp (by norm_num) (by linarith) (by linarith)
  have h2 : 2 * (1 / 2) / (p : ℝ) ≤ sin ((b - a) / 2) :=
    sin_ge_div hp (by norm_num) (by linarith) (by linarith)
  have h3 : (0 : ℝ) < 2 * (1 / 2) / (p : ℝ) := by positivity
  have h4 := mul_le_mul h1 h2 h3.le (h3.le.trans h1)
  rw [e]
  calc 2 / (p : ℝ) ^ 2 = 2 * (2 * (1 / 2) / (p : ℝ) * (2 * (1 / 2) / p)) := by field_simp
    _ ≤ 2 * (sin ((a + b) / 2) * sin ((b - a) / 2)) := by linarith
    _ = _ := by ring

theorem cos_polar_gap {p i k : Nat} (hi : i < p - 1) (hk : k < p - 1) (h : i < k) :
    2 / (p : ℝ) ^ 2 ≤ cos (polar p i) - cos (polar p k) := by
  have hp : (0 : ℝ) < p := by exact_mod_cast (by omega : 0 < p)
  have hpi := Real.pi_pos
  refine cos_gap (by omega) (polar_mem hi).1.le ?_ (polar_mem hk).2.le
  unfold polar
  have : ((i + 1 : ℕ) : ℝ) + 1 ≤ ((k + 1 : ℕ) : ℝ) := by exact_mod_cast (by omega : i + 1 + 1 ≤ k + 1)
  calc ((i + 1 : ℕ) : ℝ) * (π / p) + π / p = (((i + 1 : ℕ) : ℝ) + 1) * (π / p) := by ring
    _ ≤ _ := mul_le_mul_of_nonneg_right this (by positivity)

/-- The chord between two points of a unit circle. -/
theorem chord_ge {n j l : Nat} {s : ℝ} (hs : s = 1 ∨ s = -1) (hj : j < n) (hl : l < n) (h : j ≠ l) :
    16 / (n : ℝ) ^ 2 ≤ (cos (azimuth n s j) - cos (azimuth n s l)) ^ 2 + (sin (azimuth n s j) - sin (azimuth n s l)) ^ 2 := by
  have hn : (0 : ℝ) < n := by exact_mod_cast (by omega : 0 < n)
  have hpi := Real.pi_pos
  have e : ∀ a b : ℝ, (cos a - cos b) ^ 2 + (sin a - sin b) ^ 2 = 4 * sin ((a - b) / 2) ^ 2 := by
    intro a b
    have h1 := Real.sin_sq_add_cos_sq a
    have h2 := Real.sin_sq_add_cos_sq b
    have h3 : cos (a - b) = 1 - 2 * sin ((a - b) / 2) ^ 2 := by
      have := Real.cos_sq' ((a - b) / 2)
      have h4 := Real.cos_two_mul ((a - b) / 2)
      rw [show 2 * ((a - b) / 2) = a - b by ring] at h4
      rw [h4, this]; ring
    have h5 := Real.cos_sub a b
    nlinarith
  have key : ∀ j l : ℕ, j < n → l < j → 16 / (n : ℝ) ^ 2 ≤ 4 * sin ((azimuth n s j - azimuth n s l) / 2) ^ 2 := by
    intro j l hj hlj
    have hx : (azimuth n s j - azimuth n s l) / 2 = s * (((j : ℝ) - l) * (π / n)) := by unfold azimuth; ring
    have h1 : (1 : ℝ) ≤ (j : ℝ) - l := by
      have : (l : ℝ) + 1 ≤ j := by exact_mod_cast hlj
      linarith
    have h2 : (j : ℝ) - l ≤ n - 1 := by
      have : (j : ℝ) + 1 ≤ n := by exact_mod_cast hj
      have : (0 : ℝ) ≤ l := by positivity
      linarith
    have hst : (0 : ℝ) < π / n := by positivity
    have h3 : 2 * 1 / (n : ℝ) ≤ sin (((j : ℝ) - l) * (π / n)) := by
      refine sin_ge_div (by omega) zero_le_one (mul_le_mul_of_nonneg_right h1 hst.le) ?_
      have e : π = n * (π / n) := by field_simp
      calc ((j : ℝ) - l) * (π / n) ≤ (n - 1) * (π / n) := mul_le_mul_of_nonneg_right h2 hst.le
        _ = n * (π / n) - 1 * (π / n) := by ring
        _ = _ := by rw [← e]
    have h4 : sin ((azimuth n s j - azimuth n s l) / 2) ^ 2 = sin (((j : ℝ) - l) * (π / n)) ^ 2 := by
      rw [hx]
      rcases hs with rfl | rfl
      · rw [one_mul]
      · rw [neg_one_mul, Real.sin_neg, neg_sq]
    rw [h4]
    have h5 : (0 : ℝ) < 2 * 1 / (n : ℝ) := by positivity
    have h6 := mul_le_mul h3 h3 h5.le (h5.le.trans h3)
    calc 16 / (n : ℝ) ^ 2 = 4 * (2 * 1 / (n : ℝ) * (2 * 1 / n)) := by field_simp; norm_num
      _ ≤ 4 * (sin (((j : ℝ) - l) * (π / n)) * sin (((j : ℝ) - l) * (π / n))) := by linarith
      _ = _ := by ring
  rcases lt_or_gt_of_ne h with h | h
  · rw [e, show (azimuth n s j - azimuth n s l) / 2 = -((azimuth n s l - azimuth n s j) / 2) by ring, Real.sin_neg, neg_sq]
    exact key l j hl h
  · rw [e]; exact key j l hj h

/-- One of two coordinates of a long chord is long. -/
theorem coord_of_chord {x y s : ℝ} (h : 2 * s ^ 2 ≤ x ^ 2 + y ^ 2) : s ≤ |x| ∨ s ≤ |y| := by
  by_contra hc
  push Not at hc
  have h1 := sq_lt_sq' (by linarith [abs_nonneg x]) hc.1
  have h2 := sq_lt_sq' (by linarith [abs_nonneg y]) hc.2
  rw [sq_abs] at h1 h2
  linarith

/-- Different points of a sphere differ in some coordinate by at least `2 r / N²`, where `N` is the larger count. -/
theorem sphPt_sep {r N : ℝ} (hr : 0 < r) {p n : Nat} (hpN : (p : ℝ) ≤ N) (hnN : (n : ℝ) ≤ N) {u v : SphV} (hp : 2 ≤ p)
    (hu : SphOk p n u) (hv : SphOk p n v) (h : u ≠ v) : ∃ c, 2 * r / N ^ 2 ≤ |sphPt r p n u c - sphPt r p n v c| := by
  have hp0 : (2 : ℝ) ≤ p := by exact_mod_cast hp
  have hN : (2 : ℝ) ≤ N := hp0.trans hpN
  have hpi := Real.pi_pos
  have hpN2 : 2 * r / N ^ 2 ≤ r * (2 / (p : ℝ) ^ 2) := by
    rw [show r * (2 / (p : ℝ) ^ 2) = 2 * r / (p : ℝ) ^ 2 by ring]
    exact div_le_div_of_nonneg_left (by linarith) (by positivity) (pow_le_pow_left₀ (by linarith) hpN 2)
  -- cosines of rings and poles
  have htop : ∀ i, i < p - 1 → 2 / (p : ℝ) ^ 2 ≤ 1 - cos (polar p i) := by
    intro i hi
    have := cos_gap (p := p) (by omega) le_rfl (by rw [zero_add]; exact (polar_range hi).1) (polar_mem hi).2.le
    rwa [Real.cos_zero] at this
  have hbot : ∀ i, i < p - 1 → 2 / (p : ℝ) ^ 2 ≤ cos (polar p i) + 1 := by
    intro i hi
    have := cos_gap (p := p) (by omega) (polar_mem hi).1.le (by linarith [(polar_range hi).2]) (le_refl π)
    rw [Real.cos_pi] at this
    linarith
  have hpole : 2 / (p : ℝ) ^ 2 ≤ 2 := by
    rw [div_le_iff₀ (by positivity)]
    nlinarith
  have hz : ∀ {a b d : ℝ}, 2 / (p : ℝ) ^ 2 ≤ d → (r * d = a - b ∨ r * d = b - a) → 2 * r / N ^ 2 ≤ |a - b| := by
    intro a b d hd hab
    have h1 := mul_le_mul_of_nonneg_left hd hr.le
    rcases hab with h2 | h2
    · exact (hpN2.trans (h1.trans h2.le)).trans (le_abs_self _)
    · rw [abs_sub_comm]; exact (hpN2.trans (h1.trans h2.le)).trans (le_abs_self _)
  cases u with
  | top => cases v with
    | top => exact absurd rfl h
    | bot => exact ⟨2, hz hpole (.inl (by simp only [sphPt, vec3_2]; ring))⟩
    | g i j => exact ⟨2, hz (htop i hv.1) (.inl (by simp only [sphPt, vec3_2]; ring))⟩
  | bot => cases v with
    | top => exact ⟨2, hz hpole (.inr (by simp only [sphPt, vec3_2]; ring))⟩
    | bot => exact absurd rfl h
    | g i j => exact ⟨2, hz (hbot i hv.1) (.inr (by simp only [sphPt, vec3_2]; ring))⟩
  | g i j => cases v with
    | top => exact ⟨2, hz (htop i hu.1) (.inr (by simp only [sphPt, vec3_2]; ring))⟩
    | bot => exact ⟨2, hz (hbot i hu.1) (.inl (by simp only [sphPt, vec3_2]; ring))⟩
    | g k l =>
      rcases lt_trichotomy i k with hik | hik | hik
      · exact ⟨2, hz (cos_polar_gap hu.1 hv.1 hik) (.inl (by simp only [sphPt, vec3_2]; ring))⟩
      · subst hik
        have hjl : j ≠ l := fun e => h (by rw [e])
        have hn0 : (0 : ℝ) < n := by exact_mod_cast (by have := hu.2; omega : 0 < n)
        have hc := chord_ge (.inl rfl) hu.2 hv.2 hjl
        have hsin := sin_polar_ge hu.1
        have hs0 : (0 : ℝ) < 2 / p := by positivity
        have hrho : (r * (2 / p)) ^ 2 ≤ (r * sin (polar p i)) ^ 2 :=
          pow_le_pow_left₀ (by positivity) (mul_le_mul_of_nonneg_left hsin hr.le) 2
        have key : 2 * (2 * r / N ^ 2) ^ 2 ≤ (r * sin (polar p i) * cos (azimuth n 1 j) - r * sin (polar p i) * cos (azimuth n 1 l)) ^ 2
            + (r * sin (polar p i) * sin (azimuth n 1 j) - r * sin (polar p i) * sin (azimuth n 1 l)) ^ 2 := by
          have h1 : 2 * (2 * r / N ^ 2) ^ 2 ≤ (r * (2 / p)) ^ 2 * (16 / (n : ℝ) ^ 2) := by
            have e1 : 2 * (2 * r / N ^ 2) ^ 2 = 8 * r ^ 2 / (N ^ 2 * N ^ 2) := by field_simp; ring
            have e2 : (r * (2 / p)) ^ 2 * (16 / (n : ℝ) ^ 2) = 64 * r ^ 2 / ((p : ℝ) ^ 2 * (n : ℝ) ^ 2) := by field_simp; ring
            rw [e1, e2]
            refine div_le_div₀ (by positivity) (by nlinarith) (by positivity) ?_
            exact mul_le_mul (pow_le_pow_left₀ (by linarith) hpN 2) (pow_le_pow_left₀ hn0.le hnN 2) (by positivity) (by positivity)
          refine h1.trans ((mul_le_mul hrho hc (by positivity) (sq_nonneg _)).trans (le_of_eq ?_))
          ring
        rcases coord_of_chord key with h1 | h1
        · exact ⟨0, h1⟩
        · exact ⟨1, h1⟩
      · exact ⟨2, hz (cos_polar_gap hv.1 hu.1 hik) (.inr (by simp only [sphPt, vec3_2]; ring))⟩
end Verif
