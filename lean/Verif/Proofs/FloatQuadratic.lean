import Mathlib.Analysis.SpecialFunctions.Pow.Real
import Mathlib.Tactic.Linarith
import Mathlib.Tactic.Positivity

/-
The quadratic formula with rounded operations (real numbers only): what the sphere intersections compute. `A`, `B`, `C` are the exact
coefficients of `A t² + 2 B t + C`; `Q` bounds `B`, `R2` bounds `C` and `Q² = A R2`.
-/
namespace Verif

theorem mul_close {x y x0 y0 ex ey X0 Y : ℝ} (hx : |x - x0| ≤ ex) (hy : |y - y0| ≤ ey) (hx0 : |x0| ≤ X0) (hY : |y| ≤ Y) :
    |x * y - x0 * y0| ≤ ex * Y + X0 * ey := by
  have e : x * y - x0 * y0 = (x - x0) * y + x0 * (y - y0) := by ring
  rw [e]
  refine (abs_add_le _ _).trans (add_le_add ?_ ?_)
  · rw [abs_mul]; exact mul_le_mul hx hY (abs_nonneg _) ((abs_nonneg _).trans hx)
  · rw [abs_mul]; exact mul_le_mul hx0 hy (abs_nonneg _) ((abs_nonneg _).trans hx0)

theorem abs_le_of_close {x x0 e X : ℝ} (h : |x - x0| ≤ e) (h0 : |x0| ≤ X) : |x| ≤ X + e := by
  have := abs_add_le (x - x0) x0
  rw [sub_add_cancel] at this
  linarith

/-- The discriminant. -/
theorem quad_disc {u A R2 Q B C a q c x1 x2 D T : ℝ} (hu0 : 0 < u) (hu : u ≤ 1 / 2048) (hA0 : 0 ≤ A) (hR0 : 0 ≤ R2) (hQ0 : 0 ≤ Q)
    (hQ : Q ^ 2 = A * R2) (ha : |a - A| ≤ 902 / 100 * (u * A)) (hq : |q - B| ≤ 902 / 100 * (u * Q)) (hB : |B| ≤ Q)
    (hc : |c - C| ≤ 101 / 10 * (u * R2)) (hC : |C| ≤ R2) (hT : T ≤ u ^ 2 * Q ^ 2)
    (h1 : |x1 - 2 * q * (2 * q)| ≤ u * |2 * q * (2 * q)| + T) (h2 : |x2 - 4 * a * c| ≤ u * |4 * a * c| + T)
    (hD : |D - (x1 - x2)| ≤ u * |x1 - x2|) : |D - 4 * (B ^ 2 - A * C)| ≤ 166 * (u * Q ^ 2) := by
  have huA : u * A ≤ 1 / 2048 * A := mul_le_mul_of_nonneg_right hu hA0
  have huR : u * R2 ≤ 1 / 2048 * R2 := mul_le_mul_of_nonneg_right hu hR0
  have huQ : u * Q ≤ 1 / 2048 * Q := mul_le_mul_of_nonneg_right hu hQ0
  have hQ2 : 0 ≤ Q ^ 2 := sq_nonneg Q
  have huQ2 : u * Q ^ 2 ≤ 1 / 2048 * Q ^ 2 := mul_le_mul_of_nonneg_right hu hQ2
  have hX0 : 0 ≤ u * Q ^ 2 := by positivity
  have huQ3 : u * (u * Q ^ 2) ≤ 1 / 2048 * (u * Q ^ 2) := mul_le_mul_of_nonneg_right hu hX0
  have hq1 : |q| ≤ 1005 / 1000 * Q := by have := abs_le_of_close hq hB; linarith
  have hc1 : |c| ≤ 1005 / 1000 * R2 := by have := abs_le_of_close hc hC; linarith
  -- b b
  have e1 : |q * q - B * B| ≤ 902 / 100 * (u * Q) * (1005 / 1000 * Q) + Q * (902 / 100 * (u * Q)) := mul_close hq hq hB hq1
  have e1' : |q * q - B * B| ≤ 1809 / 100 * (u * Q ^ 2) := by
    refine e1.trans (le_of_eq_of_le (b := 902 / 100 * (2005 / 1000) * (u * Q ^ 2)) (by ring) ?_)
    exact mul_le_mul_of_nonneg_right (by norm_num) hX0
  have hBB : |B * B| ≤ Q ^ 2 := by rw [abs_mul, sq]; exact mul_le_mul hB hB (abs_nonneg _) hQ0
  have hqq : |q * q| ≤ 101 / 100 * Q ^ 2 := by have := abs_le_of_close e1' hBB; linarith
  have f1 : |x1 - 4 * (B * B)| ≤ 765 / 10 * (u * Q ^ 2) := by
    have g1 : |2 * q * (2 * q)| = 4 * |q * q| := by
      rw [show 2 * q * (2 * q) = 4 * (q * q) by ring, abs_mul]; norm_num
    rw [g1] at h1
    have g2 : |2 * q * (2 * q) - 4 * (B * B)| = 4 * |q * q - B * B| := by
      rw [show 2 * q * (2 * q) - 4 * (B * B) = 4 * (q * q - B * B) by ring, abs_mul]; norm_num
    have g3 := abs_sub_le x1 (2 * q * (2 * q)) (4 * (B * B))
    have g4 := mul_le_mul_of_nonneg_left hqq hu0.le
    rw [g2] at g3
    have g5 : T ≤ 1 / 2048 * (u * Q ^ 2) := by
      refine hT.trans (le_of_eq_of_le ?_ huQ3); ring
    linarith
  -- 4 a c
  have hAA : |A| ≤ A := (abs_of_nonneg hA0).le
  have e2 : |a * c - A * C| ≤ 902 / 100 * (u * A) * (1005 / 1000 * R2) + A * (101 / 10 * (u * R2)) := mul_close ha hc hAA hc1
  have e2' : |a * c - A * C| ≤ 1917 / 100 * (u * Q ^ 2) := by
    refine e2.trans (le_of_eq_of_le (b := (902 / 100 * (1005 / 1000) + 101 / 10) * (u * Q ^ 2)) (by rw [hQ]; ring) ?_)
    exact mul_le_mul_of_nonneg_right (by norm_num) hX0
  have hAC : |A * C| ≤ Q ^ 2 := by rw [abs_mul, hQ, abs_of_nonneg hA0]; exact mul_le_mul_of_nonneg_left hC hA0
  have hac : |a * c| ≤ 101 / 100 * Q ^ 2 := by have := abs_le_of_close e2' hAC; linarith
  have f2 : |x2 - 4 * (A * C)| ≤ 809 / 10 * (u * Q ^ 2) := by
    have g1 : |4 * a * c| = 4 * |a * c| := by rw [mul_assoc, abs_mul]; norm_num
    rw [g1] at h2
    have g2 : |4 * a * c - 4 * (A * C)| = 4 * |a * c - A * C| := by
      rw [show 4 * a * c - 4 * (A * C) = 4 * (a * c - A * C) by ring, abs_mul]; norm_num
    have g3 := abs_sub_le x2 (4 * a * c) (4 * (A * C))
    have g4 := mul_le_mul_of_nonneg_left hac hu0.le
    rw [g2] at g3
    have g5 : T ≤ 1 / 2048 * (u * Q ^ 2) := by
      refine hT.trans (le_of_eq_of_le ?_ huQ3); ring
    linarith
  -- difference
  have f3 : |(x1 - x2) - 4 * (B ^ 2 - A * C)| ≤ 1574 / 10 * (u * Q ^ 2) := by
    have := abs_sub (x1 - 4 * (B * B)) (x2 - 4 * (A * C))
    rw [show (x1 - x2) - 4 * (B ^ 2 - A * C) = (x1 - 4 * (B * B)) - (x2 - 4 * (A * C)) by ring]
    linarith
  have f4 : |4 * (B ^ 2 - A * C)| ≤ 8 * Q ^ 2 := by
    rw [show 4 * (B ^ 2 - A * C) = 4 * (B * B) - 4 * (A * C) by ring]
    refine (abs_sub _ _).trans ?_
    have e4 : |(4 : ℝ)| = 4 := abs_of_pos (by norm_num)
    rw [abs_mul 4 (B * B), abs_mul 4 (A * C), e4]
    linarith
  have f5 := abs_le_of_close f3 f4
  have f6 := mul_le_mul_of_nonneg_left f5 hu0.le
  have f7 := abs_sub_le D (x1 - x2) (4 * (B ^ 2 - A * C))
  have f8 : u * (8 * Q ^ 2 + 1574 / 10 * (u * Q ^ 2)) ≤ 81 / 10 * (u * Q ^ 2) := by
    have : u * (8 * Q ^ 2 + 1574 / 10 * (u * Q ^ 2)) = 8 * (u * Q ^ 2) + 1574 / 10 * (u * (u * Q ^ 2)) := by ring
    rw [this]; linarith
  linarith

/-- The roots. `g` is how far `2 A t + 2 B` is from the computed square root. -/
theorem quad_root {u A Q B a q D0 D s n t σ T1 T2 : ℝ} (hu0 : 0 < u) (hu : u ≤ 1 / 2048) (hA0 : 0 < A) (hQ0 : 0 ≤ Q)
    (ha : |a - A| ≤ 902 / 100 * (u * A)) (hq : |q - B| ≤ 902 / 100 * (u * Q)) (hB : |B| ≤ Q) (hD0 : D0 ≤ 4 * Q ^ 2)
    (hD : |D - D0| ≤ 166 * (u * Q ^ 2)) (hDp : 0 ≤ D) (hs : |s - Real.sqrt D| ≤ u * |Real.sqrt D| + T1) (hT1 : T1 ≤ u ^ 2 * Q)
    (hσ : σ = 1 ∨ σ = -1) (hn : |n - (-(2 * q) + σ * s)| ≤ u * |-(2 * q) + σ * s|) (ht : |t - n / (2 * a)| ≤ u * |n / (2 * a)| + T2)
    (hT2 : A * T2 ≤ u ^ 2 * Q) :
    |2 * A * t + 2 * B - σ * s| ≤ 64 * (u * Q) ∧ |s - Real.sqrt D| ≤ 21 / 10 * (u * Q) ∧ A * |t| ≤ 205 / 100 * Q ∧
      |(2 * A * t + 2 * B) ^ 2 - D0| ≤ 440 * (u * Q ^ 2) := by
  have huA : u * A ≤ 1 / 2048 * A := mul_le_mul_of_nonneg_right hu hA0.le
  have huQ : u * Q ≤ 1 / 2048 * Q := mul_le_mul_of_nonneg_right hu hQ0
  have hX0 : 0 ≤ u * Q := by positivity
  have huX : u * (u * Q) ≤ 1 / 2048 * (u * Q) := mul_le_mul_of_nonneg_right hu hX0
  have hQ2 : 0 ≤ Q ^ 2 := sq_nonneg Q
  have hY0 : 0 ≤ u * Q ^ 2 := by positivity
  have huQ2 : u * Q ^ 2 ≤ 1 / 2048 * Q ^ 2 := mul_le_mul_of_nonneg_right hu hQ2
  have huY : u * (u * Q ^ 2) ≤ 1 / 2048 * (u * Q ^ 2) := mul_le_mul_of_nonneg_right hu hY0
  have hσ1 : |σ| = 1 := by rcases hσ with h | h <;> simp [h]
  -- square root
  have hw0 := Real.sqrt_nonneg D
  have hD1 : D ≤ (2021 / 1000 * Q) ^ 2 := by
    have := (abs_le.1 hD).2
    have e : (2021 / 1000 * Q) ^ 2 = 4084441 / 1000000 * Q ^ 2 := by ring
    rw [e]; linarith
  have hw1 : Real.sqrt D ≤ 2021 / 1000 * Q := by
    rw [← Real.sqrt_sq (by positivity : 0 ≤ 2021 / 1000 * Q)]; exact Real.sqrt_le_sqrt hD1
  have hwsq : Real.sqrt D ^ 2 = D := Real.sq_sqrt hDp
  set w := Real.sqrt D with hw
  rw [abs_of_nonneg hw0] at hs
  have hT1' : T1 ≤ 1 / 2048 * (u * Q) := hT1.trans (le_of_eq_of_le (by ring) huX)
  have hs1 : |s - w| ≤ 2022 / 1000 * (u * Q) := by
    have := mul_le_mul_of_nonneg_left hw1 hu0.le
    linarith
  have hsw : |s| ≤ 203 / 100 * Q := by
    have := abs_le_of_close hs1 (by rw [abs_of_nonneg hw0]; exact hw1 : |w| ≤ 2021 / 1000 * Q)
    linarith
  -- numerator
  have hq1 : |q| ≤ 1005 / 1000 * Q := by have := abs_le_of_close hq hB; linarith
  have hn0 : |-(2 * q) + σ * s| ≤ 405 / 100 * Q := by
    refine (abs_add_le _ _).trans ?_
    rw [abs_neg, abs_mul, abs_mul σ, hσ1, one_mul]
    norm_num
    linarith
  have hn1 : |n - (-(2 * q) + σ * s)| ≤ 405 / 100 * (u * Q) := by
    have := mul_le_mul_of_nonneg_left hn0 hu0.le
    linarith
  have hn2 : |n| ≤ 4053 / 1000 * Q := by have := abs_le_of_close hn1 hn0; linarith
  -- quotient
  have ha1 : 199 / 200 * A ≤ a := by have := (abs_le.1 ha).1; linarith
  have ha2 : a ≤ 201 / 200 * A := by have := (abs_le.1 ha).2; linarith
  have ha0 : 0 < a := by linarith
  have hna : 2 * a * |n / (2 * a)| = |n| := by
    rw [abs_div, abs_of_pos (by linarith : 0 < 2 * a)]; field_simp
  have hT2' : A * T2 ≤ 1 / 2048 * (u * Q) := hT2.trans (le_of_eq_of_le (by ring) huX)
  have hta : |2 * a * t - n| ≤ 406 / 100 * (u * Q) := by
    have e : 2 * a * t - n = 2 * a * (t - n / (2 * a)) := by field_simp
    rw [e, abs_mul, abs_of_pos (by linarith : 0 < 2 * a)]
    have h1 := mul_le_mul_of_nonneg_left ht (by linarith : 0 ≤ 2 * a)
    have h2 : 2 * a * (u * |n / (2 * a)| + T2) = u * |n| + 2 * (a * T2) := by rw [← hna]; ring
    rw [h2] at h1
    have h3 := mul_le_mul_of_nonneg_left hn2 hu0.le
    have h4 : a * T2 ≤ 2 / 2048 * (u * Q) := by
      rcases le_or_gt 0 T2 with h | h
      · have := mul_le_mul_of_nonneg_right ha2 h
        linarith
      · have := mul_neg_of_pos_of_neg ha0 h
        linarith
    linarith
  have htA : A * |t| ≤ 205 / 100 * Q := by
    have h1 : |2 * a * t| ≤ 4053 / 1000 * Q + 406 / 100 * (u * Q) := abs_le_of_close hta hn2
    rw [abs_mul, abs_of_pos (by linarith : 0 < 2 * a)] at h1
    have h2 := mul_le_mul_of_nonneg_right ha1 (abs_nonneg t)
    linarith
  -- the residual of the linear equation
  have hg : |2 * A * t + 2 * B - σ * s| ≤ 64 * (u * Q) := by
    have e : 2 * A * t + 2 * B - σ * s = -(2 * ((a - A) * t)) + (2 * a * t - n) + (n - (-(2 * q) + σ * s)) - 2 * (q - B) := by ring
    rw [e]
    have h1 : |(a - A) * t| ≤ 902 / 100 * (u * (205 / 100 * Q)) := by
      rw [abs_mul]
      have h1 := mul_le_mul_of_nonneg_right ha (abs_nonneg t)
      have h2 := mul_le_mul_of_nonneg_left htA hu0.le
      linarith
    have h2 : |-(2 * ((a - A) * t))| = 2 * |(a - A) * t| := by rw [abs_neg, abs_mul]; norm_num
    have h3 : |2 * (q - B)| = 2 * |q - B| := by rw [abs_mul]; norm_num
    have t1 := abs_sub (-(2 * ((a - A) * t)) + (2 * a * t - n) + (n - (-(2 * q) + σ * s))) (2 * (q - B))
    have t2 := abs_add_three (-(2 * ((a - A) * t))) (2 * a * t - n) (n - (-(2 * q) + σ * s))
    linarith
  refine ⟨hg, by linarith, htA, ?_⟩
  -- squares
  set g := 2 * A * t + 2 * B - σ * s with hgd
  have e : (2 * A * t + 2 * B) ^ 2 - D0 = (s - w) * (s + w) + (D - D0) + 2 * (σ * s * g) + g ^ 2 := by
    have h1 : 2 * A * t + 2 * B = σ * s + g := by rw [hgd]; ring
    have h2 : σ ^ 2 = 1 := by rcases hσ with h | h <;> rw [h] <;> norm_num
    rw [h1, ← hwsq]
    linear_combination s ^ 2 * h2
  rw [e]
  have k1 : |(s - w) * (s + w)| ≤ 83 / 10 * (u * Q ^ 2) := by
    rw [abs_mul]
    have h1 : |s + w| ≤ 4051 / 1000 * Q := by
      refine (abs_add_le _ _).trans ?_
      rw [abs_of_nonneg hw0]; linarith
    refine (mul_le_mul hs1 h1 (abs_nonneg _) (by positivity)).trans ?_
    refine le_of_eq_of_le (b := 2022 / 1000 * (4051 / 1000) * (u * Q ^ 2)) (by ring) ?_
    exact mul_le_mul_of_nonneg_right (by norm_num) hY0
  have k2 : |2 * (σ * s * g)| ≤ 2600 / 10 * (u * Q ^ 2) := by
    rw [abs_mul, abs_mul, abs_mul, hσ1, one_mul, abs_two]
    have h1 := mul_le_mul hsw hg (abs_nonneg _) (by positivity)
    have h2 : 203 / 100 * Q * (64 * (u * Q)) = 203 / 100 * 64 * (u * Q ^ 2) := by ring
    rw [h2] at h1
    linarith
  have k3 : |g ^ 2| ≤ 20 / 10 * (u * Q ^ 2) := by
    rw [abs_pow, sq]
    have h1 := mul_le_mul hg hg (abs_nonneg _) (by positivity)
    have h2 : 64 * (u * Q) * (64 * (u * Q)) = 4096 * (u * (u * Q ^ 2)) := by ring
    rw [h2] at h1
    linarith
  have t1 := abs_add_le ((s - w) * (s + w) + (D - D0) + 2 * (σ * s * g)) (g ^ 2)
  have t2 := abs_add_three ((s - w) * (s + w)) (D - D0) (2 * (σ * s * g))
  linarith

/-- The difference of square roots. -/
theorem sqrt_close {x y e h : ℝ} (hx : 0 ≤ x) (hh : 0 < h) (hy : y = h ^ 2) (hxy : |x - y| ≤ e) : |Real.sqrt x - h| ≤ e / h := by
  have h0 := Real.sqrt_nonneg x
  have h1 : |Real.sqrt x - h| * (Real.sqrt x + h) = |x - y| := by
    rw [← abs_of_pos (by linarith : 0 < Real.sqrt x + h), ← abs_mul, hy]
    congr 1
    have := Real.sq_sqrt hx
    linear_combination this
  rw [le_div_iff₀ hh]
  have h2 : |Real.sqrt x - h| * h ≤ |Real.sqrt x - h| * (Real.sqrt x + h) := mul_le_mul_of_nonneg_left (by linarith) (abs_nonneg _)
  linarith
end Verif
