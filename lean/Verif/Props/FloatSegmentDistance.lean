import Verif.Props.FloatDistance
import Verif.Props.Stable

set_option linter.unusedSectionVars false

/-
C142: distances of points and segments in floating point.
-/
namespace Verif
open Spec

section
variable {F : FloatFormat} {D : ℕ}

theorem Fl.val_stdMax (a b : Fl F) : (stdMax a b).1 = max a.1 b.1 := by
  unfold stdMax
  split
  · next h => exact (max_eq_right (le_of_lt (show a.1 < b.1 from h))).symm
  · next h => exact (max_eq_left (not_lt.1 (show ¬ a.1 < b.1 from h))).symm

theorem Fl.val_stdMin (a b : Fl F) : (stdMin a b).1 = min a.1 b.1 := by
  unfold stdMin
  split
  · next h => exact (min_eq_right (le_of_lt (show b.1 < a.1 from h))).symm
  · next h => exact (min_eq_left (not_lt.1 (show ¬ b.1 < a.1 from h))).symm

/-- The point at a parameter between 0 and 1, as it is computed. -/
theorem segment_point_err (a b : Vec (Fl F) D) (s : Fl F) (hD : 64 * (D + 2) ≤ 2 ^ F.prec) (h0 : 0 ≤ s.1) (h1 : s.1 ≤ 1) :
    Spec.dist (Fl.vals (vadd a (vscale (vsub b a) s))) (Fl.vals a + s.1 • (Fl.vals b - Fl.vals a))
      ≤ F.unit * (Spec.norm (Fl.vals a) + 31 / 10 * Spec.dist (Fl.vals a) (Fl.vals b)) + 11 / 10 * ((D + 2) * F.tiny) := by
  obtain ⟨hDu, hu⟩ := dim_unit (F := F) hD
  have hu0 := F.unit_pos
  have ht0 := F.tiny_nonneg
  have hcoord : ∀ i, |(vadd a (vscale (vsub b a) s) i).1 - (Fl.vals a + s.1 • (Fl.vals b - Fl.vals a)) i|
      ≤ F.unit * (|(a i).1| + 31 / 10 * |(b i).1 - (a i).1|) + 11 / 10 * F.tiny := by
    intro i
    set x := (a i).1 with hx
    set d := (b i).1 - x with hd
    have e1 : |(vsub b a i).1 - d| ≤ F.unit * |d| := Fl.sub_rel (b i) (a i)
    set d' := (vsub b a i).1 with hd'
    have e2 : |(vscale (vsub b a) s i).1 - d' * s.1| ≤ F.unit * |d' * s.1| + F.tiny := F.err (d' * s.1)
    set m := (vscale (vsub b a) s i).1 with hm
    have e3 : |(vadd a (vscale (vsub b a) s) i).1 - (x + m)| ≤ F.unit * |x + m| := Fl.add_rel (a i) (vscale (vsub b a) s i)
    set q := (vadd a (vscale (vsub b a) s) i).1
    show |q - (x + s.1 * d)| ≤ _
    have hdn := abs_nonneg d
    have hd1 : |d'| ≤ (1 + F.unit) * |d| := by
      have : |d'| ≤ |d' - d| + |d| := by rw [show d' = (d' - d) + d by ring]; simpa using abs_add_le (d' - d) d
      linarith
    have hds : |d' * s.1| ≤ (1 + F.unit) * |d| := by
      rw [abs_mul, abs_of_nonneg h0]
      have := mul_le_mul_of_nonneg_left h1 (abs_nonneg d')
      linarith
    have hds2 : |d' * s.1 - s.1 * d| ≤ F.unit * |d| := by
      rw [show d' * s.1 - s.1 * d = (d' - d) * s.1 by ring, abs_mul, abs_of_nonneg h0]
      have := mul_le_mul_of_nonneg_left h1 (abs_nonneg (d' - d))
      linarith
    have hud : F.unit * (F.unit * |d|) ≤ 1 / 128 * (F.unit * |d|) := mul_le_mul_of_nonneg_right hu (by positivity)
    have hm1 : |m - s.1 * d| ≤ 257 / 128 * (F.unit * |d|) + F.tiny := by
      have h3 : |m - s.1 * d| ≤ |m - d' * s.1| + |d' * s.1 - s.1 * d| := by
        rw [show m - s.1 * d = (m - d' * s.1) + (d' * s.1 - s.1 * d) by ring]; exact abs_add_le _ _
      have h4 := mul_le_mul_of_nonneg_left hds hu0.le
      linarith
    have hsd : |s.1 * d| ≤ |d| := by
      rw [abs_mul, abs_of_nonneg h0]
      have := mul_le_mul_of_nonneg_right h1 hdn
      linarith
    have hxm : |x + m| ≤ |x| + |d| + (257 / 128 * (F.unit * |d|) + F.tiny) := by
      have : |x + m| ≤ |x| + |s.1 * d| + |m - s.1 * d| := by
        rw [show x + m = x + s.1 * d + (m - s.1 * d) by ring]
        exact (abs_add_le _ _).trans (add_le_add (abs_add_le _ _) le_rfl)
      linarith
    have h5 : |q - (x + s.1 * d)| ≤ |q - (x + m)| + |m - s.1 * d| := by
      rw [show q - (x + s.1 * d) = (q - (x + m)) + (m - s.1 * d) by ring]; exact abs_add_le _ _
    have h6 := mul_le_mul_of_nonneg_left hxm hu0.le
    have h7 : F.unit * F.tiny ≤ 1 / 128 * F.tiny := mul_le_mul_of_nonneg_right hu ht0
    have h8 : 0 ≤ F.unit * |d| := by positivity
    linarith
  set c : Vec ℝ D := fun i => |(a i).1| + 31 / 10 * |(b i).1 - (a i).1| with hc
  have h := dist_of_rel (a := fun i => c i + ((vadd a (vscale (vsub b a) s) i).1 - (Fl.vals a + s.1 • (Fl.vals b - Fl.vals a)) i)) (b := c)
    (e := F.unit) (t := 11 / 10 * F.tiny) hu0.le (by positivity) (fun i => by
      rw [add_sub_cancel_left, abs_of_nonneg (show 0 ≤ c i by positivity)]
      exact hcoord i)
  have e1 : Spec.dist (fun i => c i + ((vadd a (vscale (vsub b a) s) i).1 - (Fl.vals a + s.1 • (Fl.vals b - Fl.vals a)) i)) c
      = Spec.dist (Fl.vals (vadd a (vscale (vsub b a) s))) (Fl.vals a + s.1 • (Fl.vals b - Fl.vals a)) := by
    unfold Spec.dist
    congr 1
    apply Finset.sum_congr rfl
    intro i _
    rw [add_sub_cancel_left]
    rfl
  have e2 : Spec.norm c ≤ Spec.norm (Fl.vals a) + 31 / 10 * Spec.dist (Fl.vals a) (Fl.vals b) := by
    have h1 := norm_sub_norm c (fun i => |(a i).1|)
    have h2 : Spec.dist c (fun i => |(a i).1|) = 31 / 10 * Spec.dist (Fl.vals a) (Fl.vals b) := by
      have : Spec.dist c (fun i => |(a i).1|) = Spec.norm (fun i => (31 / 10 : ℝ) * |(b i).1 - (a i).1|) := by
        unfold Spec.dist Spec.norm
        congr 1
        apply Finset.sum_congr rfl
        intro i _
        simp only [hc]; ring
      rw [this, norm_smul' (by norm_num), norm_abs' (fun i => (b i).1 - (a i).1), dist_comm']
      rfl
    rw [h2, norm_abs' (fun i => (a i).1)] at h1
    have := (abs_le.1 h1).2
    change Spec.norm c ≤ Spec.norm (fun i => (a i).1) + _
    linarith
  rw [e1] at h
  refine h.trans ?_
  have := mul_le_mul_of_nonneg_left e2 hu0.le
  linarith

/-- The distance to a computed point of the segment. -/
theorem segment_distance_err (a b v : Vec (Fl F) D) (s : Fl F) (hD : 64 * (D + 2) ≤ 2 ^ F.prec) (ht : F.tiny ≤ F.unit * F.unit)
    (h0 : 0 ≤ s.1) (h1 : s.1 ≤ 1) {ω : ℝ} (hω : F.root D ≤ ω) :
    |(length (vsub (vadd a (vscale (vsub b a) s)) v)).1 - Spec.dist (Fl.vals v) (Fl.vals a + s.1 • (Fl.vals b - Fl.vals a))|
      ≤ 5 * ((D + 2) * F.unit) * (Spec.norm (Fl.vals a) + Spec.dist (Fl.vals a) (Fl.vals b) + Spec.dist (Fl.vals v) (Fl.vals a)) + 3 * ω := by
  obtain ⟨hDu, hu⟩ := dim_unit (F := F) hD
  have hu0 := F.unit_pos
  have ht0 := F.tiny_nonneg
  have hr := tiny_le_root hD ht
  have hr0 := F.root_nonneg D
  have hp := segment_point_err a b s hD h0 h1
  have hd := distance_abs (vadd a (vscale (vsub b a) s)) v hD ht
  set q : Vec ℝ D := Fl.vals a + s.1 • (Fl.vals b - Fl.vals a) with hq
  set q' := Fl.vals (vadd a (vscale (vsub b a) s))
  set A := Spec.norm (Fl.vals a)
  set H := Spec.dist (Fl.vals a) (Fl.vals b) with hH
  set W := Spec.dist (Fl.vals v) (Fl.vals a) with hW
  have hA0 : 0 ≤ A := norm_nonneg' _
  have hH0 : 0 ≤ H := dist_nonneg' _ _
  have hW0 : 0 ≤ W := dist_nonneg' _ _
  set U := ((D : ℝ) + 2) * F.unit with hU
  have hU0 : 0 < U := by positivity
  have huU : 2 * F.unit ≤ U := by
    rw [hU]; have : (0 : ℝ) ≤ D := by positivity
    nlinarith
  have hqa : Spec.dist (Fl.vals a) q ≤ H := by
    have e := dist_smul (Fl.vals a) (Fl.vals b - Fl.vals a) 0 s.1
    rw [zero_smul, add_zero, zero_sub, abs_neg, abs_of_nonneg h0] at e
    have hl : length (Fl.vals b - Fl.vals a) = H := by rw [← vsub_eq, length_vsub, dist_comm']
    rw [hq, e, hl]
    have := mul_le_mul_of_nonneg_right h1 hH0
    linarith
  have hqv : Spec.dist (Fl.vals v) q ≤ W + H := (dist_triangle' _ (Fl.vals a) _).trans (by linarith)
  have t1 := dist_triangle' q' q (Fl.vals v)
  have t2 := dist_triangle' q q' (Fl.vals v)
  rw [dist_comm' q q'] at t2
  rw [dist_comm' q (Fl.vals v)] at t1 t2
  set e := Spec.dist q' q
  set X := Spec.dist (Fl.vals v) q
  set Y := Spec.dist q' (Fl.vals v)
  have hUY : U * Y ≤ U * (W + H) + 1 / 64 * e := by
    have : U * Y ≤ U * (W + H) + U * e := by
      rw [← mul_add]; exact mul_le_mul_of_nonneg_left (by linarith) hU0.le
    have h3 : U * e ≤ 1 / 64 * e := mul_le_mul_of_nonneg_right hDu (dist_nonneg' _ _)
    linarith
  have huA : F.unit * A ≤ 1 / 2 * (U * A) := by
    have := mul_le_mul_of_nonneg_right huU hA0; linarith
  have huH : F.unit * H ≤ 1 / 2 * (U * H) := by
    have := mul_le_mul_of_nonneg_right huU hH0; linarith
  have hUA : 0 ≤ U * A := by positivity
  have hUH : 0 ≤ U * H := by positivity
  have hUW : 0 ≤ U * W := by positivity
  obtain ⟨g1, g2⟩ := abs_le.1 hd
  rw [abs_le]
  constructor <;> linarith

/-- The parameter as it is computed. -/
theorem segment_param_err (a b v : Vec (Fl F) D) (hD : 64 * (D + 2) ≤ 2 ^ F.prec)
    (hH0 : 0 < Spec.dist (Fl.vals a) (Fl.vals b))
    (hsmall : ∀ k, F.emin = some k → k ≤ -2 * (F.prec : ℤ) ∧ (2 : ℝ) ^ ((k + 1) / 2) ≤ (2 : ℝ)⁻¹ ^ F.prec * Spec.dist (Fl.vals a) (Fl.vals b)) :
    |(dot (vsub v a) (vsub b a) / length (vsub b a)).1 - (Fl.vals v - Fl.vals a) ⬝ᵥ (Fl.vals b - Fl.vals a) / Spec.dist (Fl.vals a) (Fl.vals b)|
        * Spec.dist (Fl.vals a) (Fl.vals b)
      ≤ 5 * ((D + 2) * F.unit) * (Spec.dist (Fl.vals v) (Fl.vals a) * Spec.dist (Fl.vals a) (Fl.vals b))
        + 3 * ((D + 2) * F.tiny) + F.tiny * Spec.dist (Fl.vals a) (Fl.vals b) := by
  have hsym : Spec.dist (Fl.vals a) (Fl.vals b) = Spec.dist (Fl.vals b) (Fl.vals a) := dist_comm' _ _
  obtain ⟨hL, hN, hS⟩ := segment_errs (⟨a, b⟩ : Segment (Fl F) D) hD hsym hH0 hsmall
  obtain ⟨ht0', ht1, _⟩ := tiny_of_length hH0 hsmall
  obtain ⟨hDu, hu⟩ := dim_unit (F := F) hD
  have hu0 := F.unit_pos
  have ht0 := F.tiny_nonneg
  have hdot := dot_abs (vsub v a) (vsub b a) (fun i => (v i).1 - (a i).1) (fun i => Fl.sub_rel _ _) hD ht0'
  change |(length (vsub b a)).1 - Spec.norm (Fl.vals (vsub b a))| ≤ _ at hL
  change |Spec.norm (Fl.vals (vsub b a)) - _| ≤ _ at hN
  change |(length (vsub b a)).1 - _| ≤ _ at hS
  have hWdef : Spec.norm (fun i => (v i).1 - (a i).1) = Spec.dist (Fl.vals v) (Fl.vals a) := rfl
  rw [hWdef] at hdot
  have hdiv := F.err ((dot (vsub v a) (vsub b a)).1 / (length (vsub b a)).1)
  change |(dot (vsub v a) (vsub b a) / length (vsub b a)).1 - _| ≤ _ at hdiv
  -- the dot product with the exact difference
  have hdd : |∑ i, ((v i).1 - (a i).1) * (vsub b a i).1 - (Fl.vals v - Fl.vals a) ⬝ᵥ (Fl.vals b - Fl.vals a)|
      ≤ Spec.dist (Fl.vals v) (Fl.vals a) * (F.unit * Spec.dist (Fl.vals a) (Fl.vals b)) := by
    have e : ∑ i, ((v i).1 - (a i).1) * (vsub b a i).1 - (Fl.vals v - Fl.vals a) ⬝ᵥ (Fl.vals b - Fl.vals a)
        = (Fl.vals v - Fl.vals a) ⬝ᵥ (Fl.vals (vsub b a) - (Fl.vals b - Fl.vals a)) := by
      exact (dotProduct_sub (Fl.vals v - Fl.vals a) (Fl.vals (vsub b a)) (Fl.vals b - Fl.vals a)).symm
    rw [e]
    have h1 := Real.abs_le_sqrt (dp_mul_dp_le (Fl.vals v - Fl.vals a) (Fl.vals (vsub b a) - (Fl.vals b - Fl.vals a)))
    rw [Real.sqrt_mul (dp_self_nonneg _), ← spec_dist_eq, ← spec_dist_eq] at h1
    refine h1.trans (mul_le_mul_of_nonneg_left ?_ (dist_nonneg' _ _))
    have h2 := dist_of_rel (a := Fl.vals (vsub b a)) (b := Fl.vals b - Fl.vals a) hu0.le le_rfl fun i => by
      rw [add_zero]; exact Fl.sub_rel (b i) (a i)
    have e3 : Spec.norm (Fl.vals b - Fl.vals a) = Spec.dist (Fl.vals a) (Fl.vals b) := hsym.symm
    rw [e3] at h2
    linarith
  set H := Spec.dist (Fl.vals a) (Fl.vals b) with hH
  set W := Spec.dist (Fl.vals v) (Fl.vals a) with hW
  set N := Spec.norm (Fl.vals (vsub b a))
  set S := (Fl.vals v - Fl.vals a) ⬝ᵥ (Fl.vals b - Fl.vals a) with hSdef
  set l := (length (vsub b a)).1
  set p := (dot (vsub v a) (vsub b a)).1
  set r := (dot (vsub v a) (vsub b a) / length (vsub b a)).1
  set U := ((D : ℝ) + 2) * F.unit with hU
  set T := ((D : ℝ) + 2) * F.tiny with hT
  have hW0 : 0 ≤ W := dist_nonneg' _ _
  have hU0 : 0 < U := by positivity
  have hT0 : 0 ≤ T := by positivity
  have huU : 2 * F.unit ≤ U := by
    rw [hU]; have : (0 : ℝ) ≤ D := by positivity
    nlinarith
  have hNle : N ≤ 65 / 64 * H := by
    have h1 := (abs_le.1 hN).2
    have h2 : F.unit * H ≤ 1 / 128 * H := mul_le_mul_of_nonneg_right hu hH0.le
    linarith
  have hSle : |S| ≤ W * H := by
    have h1 := Real.abs_le_sqrt (dp_mul_dp_le (Fl.vals v - Fl.vals a) (Fl.vals b - Fl.vals a))
    rw [Real.sqrt_mul (dp_self_nonneg _), ← spec_dist_eq, ← spec_dist_eq, ← hsym] at h1
    exact h1
  have hUWH : 0 ≤ U * (W * H) := by positivity
  have hpS : |p - S| ≤ 17 / 8 * (U * (W * H)) + 2 * T + 1 / 128 * (U * (W * H)) := by
    have h1 : |p - S| ≤ |p - ∑ i, ((v i).1 - (a i).1) * (vsub b a i).1| + |∑ i, ((v i).1 - (a i).1) * (vsub b a i).1 - S| := by
      rw [show p - S = (p - ∑ i, ((v i).1 - (a i).1) * (vsub b a i).1) + (∑ i, ((v i).1 - (a i).1) * (vsub b a i).1 - S) by ring]
      exact abs_add_le _ _
    have h2 : U * (W * N) ≤ 65 / 64 * (U * (W * H)) := by
      have := mul_le_mul_of_nonneg_left (mul_le_mul_of_nonneg_left hNle hW0) hU0.le
      linarith
    have h3 : W * (F.unit * H) ≤ 1 / 2 * (U * (W * H)) := by
      have := mul_le_mul_of_nonneg_right huU (show 0 ≤ W * H by positivity)
      linarith
    linarith
  have hlH : |l - H| ≤ 2 * (U * H) := by
    refine hS.trans ?_
    have : ((D : ℝ) + 4) * F.unit * H = U * H + 2 * F.unit * H := by rw [hU]; ring
    rw [this]
    have := mul_le_mul_of_nonneg_right huU hH0.le
    linarith
  have hUH : U * H ≤ 1 / 64 * H := mul_le_mul_of_nonneg_right hDu hH0.le
  have hl : 31 / 32 * H ≤ l := by have := (abs_le.1 hlH).1; linarith
  have hl0 : 0 < l := by linarith
  -- the quotient before rounding
  have hquot : |p / l - S / H| * H ≤ 32 / 31 * ((33 / 8 + 1 / 64) * (U * (W * H)) + 2 * T) := by
    have e : (p / l - S / H) * H = ((p - S) * H - S * (l - H)) / l := by field_simp; ring
    rw [← abs_of_pos hH0, ← abs_mul, abs_of_pos hH0, e, abs_div, abs_of_pos hl0, div_le_iff₀ hl0]
    have h1 : |(p - S) * H - S * (l - H)| ≤ |p - S| * H + |S| * |l - H| := by
      refine (abs_sub _ _).trans ?_
      rw [abs_mul, abs_mul, abs_of_pos hH0]
    have h2 := mul_le_mul_of_nonneg_right hpS hH0.le
    have h3 : |S| * |l - H| ≤ W * H * (2 * (U * H)) := mul_le_mul hSle hlH (abs_nonneg _) (by positivity)
    have h4 : (33 / 8 + 1 / 64) * (U * (W * H)) + 2 * T ≥ 0 := by positivity
    have h5 : ((33 / 8 + 1 / 64) * (U * (W * H)) + 2 * T) * H ≤ 32 / 31 * ((33 / 8 + 1 / 64) * (U * (W * H)) + 2 * T) * l := by
      have := mul_le_mul_of_nonneg_left hl h4
      linarith
    have h6 : 0 ≤ U * (W * H) * H := by positivity
    refine h1.trans (le_trans ?_ h5)
    have e2 : ((33 / 8 + 1 / 64) * (U * (W * H)) + 2 * T) * H
        = (17 / 8 * (U * (W * H)) + 2 * T + 1 / 128 * (U * (W * H))) * H + W * H * (2 * (U * H)) + 1 / 128 * (U * (W * H) * H) := by ring
    rw [e2]
    linarith
  have hrq : |r - S / H| * H ≤ |r - p / l| * H + |p / l - S / H| * H := by
    rw [← add_mul]
    refine mul_le_mul_of_nonneg_right ?_ hH0.le
    rw [show r - S / H = (r - p / l) + (p / l - S / H) by ring]; exact abs_add_le _ _
  have hrl : |r - p / l| * H ≤ F.unit * (W * H) + F.unit * (|p / l - S / H| * H) + F.tiny * H := by
    have h1 : |p / l| * H ≤ W * H + |p / l - S / H| * H := by
      have h2 : |p / l| ≤ |S / H| + |p / l - S / H| := by
        rw [show p / l = S / H + (p / l - S / H) by ring]; simpa using abs_add_le (S / H) (p / l - S / H)
      have h3 : |S / H| * H ≤ W * H := by
        rw [abs_div, abs_of_pos hH0, div_mul_cancel₀ _ hH0.ne']; exact hSle
      have := mul_le_mul_of_nonneg_right h2 hH0.le
      linarith
    have h2 := mul_le_mul_of_nonneg_right hdiv hH0.le
    have h3 := mul_le_mul_of_nonneg_left h1 hu0.le
    linarith
  have hq0 : 0 ≤ |p / l - S / H| * H := by positivity
  have h9 : F.unit * (|p / l - S / H| * H) ≤ 1 / 128 * (|p / l - S / H| * H) := mul_le_mul_of_nonneg_right hu hq0
  have h10 : F.unit * (W * H) ≤ 1 / 2 * (U * (W * H)) := by
    have := mul_le_mul_of_nonneg_right huU (show 0 ≤ W * H by positivity)
    linarith
  linarith

/-- **C142** Over the reals: the distance of a point and a segment is never too small, and too large by at most `w |l - 1|`, where `l` is the
length of the segment and `w` the distance of the point to its source (the parameter is divided by the length only once). -/
theorem C142_excess (a b v : Vec ℝ D) (hab : a ≠ b) :
    ∃ δ, Spec.IsDistance {v} (Spec.segment a b) δ ∧ δ ≤ distSegmentVec ⟨a, b⟩ v ∧
      distSegmentVec ⟨a, b⟩ v ≤ δ + Spec.dist v a * |Spec.dist a b - 1| := by
  have hne : b - a ≠ 0 := sub_ne_zero.2 (Ne.symm hab)
  have hsd := segment_dist a b v hab
  refine ⟨_, hsd, ?_, ?_⟩
  · rw [distSegmentVec_eq]
    exact hsd.2 ⟨v, rfl, _, mem_segment a b (by simp) (by simp), rfl⟩
  rw [distSegmentVec_eq]
  have hL : length (b - a) = Spec.dist a b := by rw [← vsub_eq, length_vsub, dist_comm']
  have hp := length_pos hne
  rw [← length_sq]
  set L := length (b - a) with hLdef
  set S := (v - a) ⬝ᵥ (b - a) with hS
  have ht := dist_triangle' v (a + min (max (S / L ^ 2) 0) 1 • (b - a)) (a + min (max (S / L) 0) 1 • (b - a))
  rw [dist_smul, ← hLdef] at ht
  have hc := clip_lip (S / L ^ 2) (S / L)
  have hSle : |S| ≤ Spec.dist v a * L := by
    have h1 := Real.abs_le_sqrt (dp_mul_dp_le (v - a) (b - a))
    rwa [Real.sqrt_mul (dp_self_nonneg _), ← spec_dist_eq, ← length_eq] at h1
  have e : S / L ^ 2 - S / L = S * (1 - L) / L ^ 2 := by field_simp
  have h2 : |S / L ^ 2 - S / L| * L ≤ Spec.dist v a * |Spec.dist a b - 1| := by
    rw [e, abs_div, abs_mul, abs_of_pos (show 0 < L ^ 2 by positivity), ← hL, abs_sub_comm 1 L]
    have : |S| * |L - 1| / L ^ 2 * L = |S| / L * |L - 1| := by field_simp
    rw [this]
    exact mul_le_mul_of_nonneg_right ((div_le_iff₀ hp).2 hSle) (abs_nonneg _)
  have h3 := mul_le_mul_of_nonneg_right hc hp.le
  linarith

/-- **C142** The computed distance of a point and a segment is, up to rounding, the distance to a point of the segment: it is not smaller than the
smallest distance by more than `5 (D + 2) 2^-prec` times the sum of the length of the segment, the distance of its source to the point and to the
coordinate origin, plus three times `ω`, the square root of the smallest positive number (up to the factor `2 (D + 2)`). -/
theorem C142_lower (s : Segment (Fl F) D) (v : Vec (Fl F) D) (hD : 64 * (D + 2) ≤ 2 ^ F.prec)
    (hmin : ∀ k, F.emin = some k → k ≤ -2 * (F.prec : ℤ)) (hne : (fun i => (s.source i).1) ≠ fun i => (s.target i).1) (hl : s.length.1 ≠ 0)
    {ω : ℝ} (hω : 0 ≤ ω) (hω2 : ∀ k, F.emin = some k → 2 * (D + 2) * (2 : ℝ) ^ k ≤ ω ^ 2) :
    ∃ δ, Spec.IsDistance {fun i => (v i).1} (Spec.segment (fun i => (s.source i).1) (fun i => (s.target i).1)) δ ∧
      δ - (5 * ((D + 2) * (2 : ℝ)⁻¹ ^ F.prec) * (Spec.norm (fun i => (s.source i).1) + Spec.dist (fun i => (s.source i).1) (fun i => (s.target i).1)
        + Spec.dist (fun i => (v i).1) (fun i => (s.source i).1)) + 3 * ω) ≤ (distSegmentVec s v).1 := by
  obtain ⟨a, b⟩ := s
  have hsd := segment_dist (Fl.vals a) (Fl.vals b) (Fl.vals v) hne
  refine ⟨_, hsd, ?_⟩
  set t : Fl F := stdMin (stdMax (dot (vsub v a) (vsub b a) / length (vsub b a)) 0) 1 with ht
  have hv : t.1 = min (max (dot (vsub v a) (vsub b a) / length (vsub b a)).1 0) 1 := by
    rw [ht, Fl.val_stdMin, Fl.val_stdMax, Fl.val_one, Fl.val_zero]
  have h0 : 0 ≤ t.1 := by rw [hv]; exact le_min (le_max_right _ _) zero_le_one
  have h1 : t.1 ≤ 1 := by rw [hv]; exact min_le_right _ _
  have h := segment_distance_err a b v t hD (tiny_of_emin hmin) h0 h1 (root_le hω hω2)
  have hm := hsd.2 ⟨Fl.vals v, rfl, _, mem_segment (Fl.vals a) (Fl.vals b) h0 h1, rfl⟩
  have := (abs_le.1 h).1
  change _ ≤ (length (vsub (vadd a (vscale (vsub b a) t)) v)).1
  change _ - (5 * ((D + 2) * F.unit) * (Spec.norm (Fl.vals a) + Spec.dist (Fl.vals a) (Fl.vals b) + Spec.dist (Fl.vals v) (Fl.vals a)) + 3 * ω) ≤ _
  linarith

/-- **C142** The computed distance of a point and a segment is close to what the same formula gives over the reals. -/
theorem C142_value (s : Segment (Fl F) D) (v : Vec (Fl F) D) (hD : 64 * (D + 2) ≤ 2 ^ F.prec)
    (hH0 : 0 < Spec.dist (fun i => (s.source i).1) (fun i => (s.target i).1))
    (hsmall : ∀ k, F.emin = some k → k ≤ -2 * (F.prec : ℤ) ∧
      (2 : ℝ) ^ ((k + 1) / 2) ≤ (2 : ℝ)⁻¹ ^ F.prec * Spec.dist (fun i => (s.source i).1) (fun i => (s.target i).1))
    {ω : ℝ} (hω : 0 ≤ ω) (hω2 : ∀ k, F.emin = some k → 2 * (D + 2) * (2 : ℝ) ^ k ≤ ω ^ 2) :
    |(distSegmentVec s v).1 - distSegmentVec (⟨fun i => (s.source i).1, fun i => (s.target i).1⟩ : Segment ℝ D) (fun i => (v i).1)|
      ≤ 6 * ((D + 2) * (2 : ℝ)⁻¹ ^ F.prec) * (Spec.norm (fun i => (s.source i).1) + Spec.dist (fun i => (s.source i).1) (fun i => (s.target i).1)
        + Spec.dist (fun i => (v i).1) (fun i => (s.source i).1))
        + 5 * ((D + 2) * (2 : ℝ)⁻¹ ^ F.prec) * (Spec.dist (fun i => (v i).1) (fun i => (s.source i).1)
          * Spec.dist (fun i => (s.source i).1) (fun i => (s.target i).1)) + 4 * ω := by
  obtain ⟨a, b⟩ := s
  change |_ - distSegmentVec (⟨Fl.vals a, Fl.vals b⟩ : Segment ℝ D) (Fl.vals v)| ≤ 6 * ((D + 2) * F.unit) * (Spec.norm (Fl.vals a) +
    Spec.dist (Fl.vals a) (Fl.vals b) + Spec.dist (Fl.vals v) (Fl.vals a)) + 5 * ((D + 2) * F.unit) * (Spec.dist (Fl.vals v) (Fl.vals a)
      * Spec.dist (Fl.vals a) (Fl.vals b)) + 4 * ω
  change 0 < Spec.dist (Fl.vals a) (Fl.vals b) at hH0
  set t : Fl F := stdMin (stdMax (dot (vsub v a) (vsub b a) / length (vsub b a)) 0) 1 with ht
  have hv : t.1 = min (max (dot (vsub v a) (vsub b a) / length (vsub b a)).1 0) 1 := by
    rw [ht, Fl.val_stdMin, Fl.val_stdMax, Fl.val_one, Fl.val_zero]
  have h0 : 0 ≤ t.1 := by rw [hv]; exact le_min (le_max_right _ _) zero_le_one
  have h1 : t.1 ≤ 1 := by rw [hv]; exact min_le_right _ _
  have htiny := tiny_of_emin (F := F) (fun k hk => (hsmall k hk).1)
  have hroot := root_le hω hω2
  have h := segment_distance_err a b v t hD htiny h0 h1 hroot
  have hpar := segment_param_err a b v hD hH0 hsmall
  have htr := tiny_le_root hD htiny
  obtain ⟨_, ht1, _⟩ := tiny_of_length hH0 hsmall
  obtain ⟨hDu, hu⟩ := dim_unit (F := F) hD
  have hu0 := F.unit_pos
  change |(length (vsub (vadd a (vscale (vsub b a) t)) v)).1 - _| ≤ _
  have hL : length (Fl.vals b - Fl.vals a) = Spec.dist (Fl.vals a) (Fl.vals b) := by rw [← vsub_eq, length_vsub, dist_comm']
  rw [distSegmentVec_eq, hL]
  set H := Spec.dist (Fl.vals a) (Fl.vals b) with hH
  set W := Spec.dist (Fl.vals v) (Fl.vals a) with hW
  set A := Spec.norm (Fl.vals a)
  set S := (Fl.vals v - Fl.vals a) ⬝ᵥ (Fl.vals b - Fl.vals a) with hS
  set x := (dot (vsub v a) (vsub b a) / length (vsub b a)).1
  have hc := mul_le_mul_of_nonneg_right (clip_lip x (S / H)) hH0.le
  have t1 := dist_triangle' (Fl.vals v) (Fl.vals a + min (max (S / H) 0) 1 • (Fl.vals b - Fl.vals a)) (Fl.vals a + t.1 • (Fl.vals b - Fl.vals a))
  have t2 := dist_triangle' (Fl.vals v) (Fl.vals a + t.1 • (Fl.vals b - Fl.vals a)) (Fl.vals a + min (max (S / H) 0) 1 • (Fl.vals b - Fl.vals a))
  rw [dist_smul, hL, abs_sub_comm, hv] at t1
  rw [dist_smul, hL, hv] at t2
  rw [hv] at h
  have htH : F.tiny * H ≤ F.unit * (F.unit * H) := by
    have := mul_le_mul_of_nonneg_right htiny hH0.le
    linarith
  have huH : F.unit * (F.unit * H) ≤ 1 / 128 * (F.unit * H) := mul_le_mul_of_nonneg_right hu (by positivity)
  set U := ((D : ℝ) + 2) * F.unit with hU
  have huU : 2 * F.unit ≤ U := by
    rw [hU]; have : (0 : ℝ) ≤ D := by positivity
    nlinarith
  have huH2 : F.unit * H ≤ 1 / 2 * (U * H) := by
    have := mul_le_mul_of_nonneg_right huU hH0.le; linarith
  have hA0 : 0 ≤ A := norm_nonneg' _
  have hW0 : 0 ≤ W := dist_nonneg' _ _
  have hU0 : 0 < U := by positivity
  have q1 : 0 ≤ U * A := by positivity
  have q2 : 0 ≤ U * H := by positivity
  have q3 : 0 ≤ U * W := by positivity
  obtain ⟨g1, g2⟩ := abs_le.1 h
  rw [abs_le]
  constructor <;> linarith

/-- **C142** So the computed distance of a point and a segment is too large by at most `w |l - 1|` plus rounding; for segments of length one it is accurate. -/
theorem C142_upper (s : Segment (Fl F) D) (v : Vec (Fl F) D) (hD : 64 * (D + 2) ≤ 2 ^ F.prec)
    (hH0 : 0 < Spec.dist (fun i => (s.source i).1) (fun i => (s.target i).1))
    (hsmall : ∀ k, F.emin = some k → k ≤ -2 * (F.prec : ℤ) ∧
      (2 : ℝ) ^ ((k + 1) / 2) ≤ (2 : ℝ)⁻¹ ^ F.prec * Spec.dist (fun i => (s.source i).1) (fun i => (s.target i).1))
    {ω : ℝ} (hω : 0 ≤ ω) (hω2 : ∀ k, F.emin = some k → 2 * (D + 2) * (2 : ℝ) ^ k ≤ ω ^ 2) :
    ∃ δ, Spec.IsDistance {fun i => (v i).1} (Spec.segment (fun i => (s.source i).1) (fun i => (s.target i).1)) δ ∧
      (distSegmentVec s v).1 ≤ δ + Spec.dist (fun i => (v i).1) (fun i => (s.source i).1)
          * |Spec.dist (fun i => (s.source i).1) (fun i => (s.target i).1) - 1|
        + (6 * ((D + 2) * (2 : ℝ)⁻¹ ^ F.prec) * (Spec.norm (fun i => (s.source i).1) + Spec.dist (fun i => (s.source i).1) (fun i => (s.target i).1)
          + Spec.dist (fun i => (v i).1) (fun i => (s.source i).1))
        + 5 * ((D + 2) * (2 : ℝ)⁻¹ ^ F.prec) * (Spec.dist (fun i => (v i).1) (fun i => (s.source i).1)
          * Spec.dist (fun i => (s.source i).1) (fun i => (s.target i).1)) + 4 * ω) := by
  obtain ⟨δ, h1, _, h3⟩ := C142_excess (fun i => (s.source i).1) (fun i => (s.target i).1) (fun i => (v i).1) (dist_pos_ne hH0)
  refine ⟨δ, h1, ?_⟩
  have h4 := (abs_le.1 (C142_value s v hD hH0 hsmall hω hω2)).2
  linarith
end

/-- **C142** The excess is reached: a point on a segment of length `l ≥ 1`, at distance `y ≤ 1` from its source, is reported at distance `(l - 1) y`. -/
theorem C142_sharp (l y : ℝ) (hl : 1 ≤ l) (h0 : 0 ≤ y) (h1 : y ≤ 1) :
    ∃ a b v : Vec ℝ 2, Spec.dist a b = l ∧ Spec.dist v a = y ∧ Spec.IsDistance {v} (Spec.segment a b) 0 ∧
      distSegmentVec ⟨a, b⟩ v = Spec.dist v a * |Spec.dist a b - 1| := by
  have hl0 : 0 < l := by linarith
  have hlen : length (![l, 0] - 0 : Vec ℝ 2) = l := by
    rw [length_eq, Real.sqrt_eq_iff_mul_self_eq (dp_self_nonneg _) hl0.le]
    simp [dotProduct, Fin.sum_univ_two]
  have d1 : Spec.dist (0 : Vec ℝ 2) ![l, 0] = l := by
    rw [dist_comm', spec_dist_eq, ← length_eq, hlen]
  have d2 : Spec.dist (![y, 0] : Vec ℝ 2) 0 = y := by
    rw [spec_dist_eq, Real.sqrt_eq_iff_mul_self_eq (dp_self_nonneg _) h0]
    simp [dotProduct, Fin.sum_univ_two]
  refine ⟨0, ![l, 0], ![y, 0], d1, d2, ⟨?_, ?_⟩, ?_⟩
  · refine ⟨_, rfl, ![y, 0], ⟨y / l, by positivity, (div_le_one hl0).2 (by linarith), ?_⟩, (dist_self' _).symm⟩
    funext i
    fin_cases i
    · simp; field_simp
    · simp
  · rintro _ ⟨p, _, q, _, rfl⟩
    exact dist_nonneg' _ _
  · have e1 : (![y, 0] - 0 : Vec ℝ 2) ⬝ᵥ (![l, 0] - 0) / l = y := by
      simp [dotProduct, Fin.sum_univ_two]
      field_simp
    rw [distSegmentVec_eq, hlen, e1, max_eq_left h0, min_eq_left h1, d1, d2, abs_of_nonneg (by linarith), spec_dist_eq,
      Real.sqrt_eq_iff_mul_self_eq (dp_self_nonneg _) (mul_nonneg h0 (by linarith))]
    simp [dotProduct, Fin.sum_univ_two]; ring

section Examples

/-- A segment of length 3 and a point at distance 6 from its source: the result is at most 12 too large. -/
example : ∃ δ, Spec.IsDistance {(![2, 4, 4] : Vec ℝ 3)} (Spec.segment 0 ![1, 2, 2]) δ ∧
    δ ≤ distSegmentVec ⟨0, ![1, 2, 2]⟩ (![2, 4, 4] : Vec ℝ 3) ∧ distSegmentVec ⟨0, ![1, 2, 2]⟩ (![2, 4, 4] : Vec ℝ 3) ≤ δ + 12 := by
  have h := C142_excess (0 : Vec ℝ 3) ![1, 2, 2] ![2, 4, 4] (by intro h; simpa using congrFun h 0)
  have z : (0 : Vec ℝ 3) = ![0, 0, 0] := by funext i; fin_cases i <;> rfl
  have e1 : Spec.dist (![2, 4, 4] : Vec ℝ 3) 0 = 6 := by rw [z]; exact dist3 _ _ _ _ _ _ 6 (by norm_num) (by norm_num)
  have e2 : Spec.dist (0 : Vec ℝ 3) ![1, 2, 2] = 3 := by rw [z]; exact dist3 _ _ _ _ _ _ 3 (by norm_num) (by norm_num)
  rw [e1, e2] at h
  norm_num at h
  exact h

example : ∃ a b v : Vec ℝ 2, Spec.dist a b = 5 ∧ Spec.dist v a = 1 / 2 ∧ Spec.IsDistance {v} (Spec.segment a b) 0 ∧
    distSegmentVec ⟨a, b⟩ v = 2 := by
  obtain ⟨a, b, v, h1, h2, h3, h4⟩ := C142_sharp 5 (1 / 2) (by norm_num) (by norm_num) (by norm_num)
  exact ⟨a, b, v, h1, h2, h3, by rw [h4, h1, h2]; norm_num⟩

/-- The unit segment on the x axis and the point (0, 0, 7), in double precision: the distance is 7 up to 1e-10. -/
theorem unit_segment64 : Spec.dist (fun i => ((p64 0 0 0) i).1) (fun i => ((p64 1 0 0) i).1) = 1 ∧
    Spec.dist (fun i => ((p64 0 0 7) i).1) (fun i => ((p64 0 0 0) i).1) = 7 ∧ Spec.norm (fun i => ((p64 0 0 0) i).1) = 0 := by
  refine ⟨?_, ?_, ?_⟩
  · rw [p64_vals, p64_vals]; exact dist3 _ _ _ _ _ _ 1 (by norm_num) (by norm_num)
  · rw [p64_vals, p64_vals]; exact dist3 _ _ _ _ _ _ 7 (by norm_num) (by norm_num)
  · rw [p64_vals]; exact norm3 _ _ _ 0 (by norm_num) (by norm_num)

example : (distSegmentVec ⟨p64 0 0 0, p64 1 0 0⟩ (p64 0 0 7)).1 ≤ 7 + 1 / 10 ^ 10 := by
  obtain ⟨e1, e2, e3⟩ := unit_segment64
  obtain ⟨δ, h1, h2⟩ := C142_upper ⟨p64 0 0 0, p64 1 0 0⟩ (p64 0 0 7) (by show 64 * 5 ≤ 2 ^ 53; norm_num) (by rw [e1]; norm_num)
    (by rw [e1]; exact small64' le_rfl) (ω := (2 : ℝ)⁻¹ ^ 500) (by positivity) root64
  have hδ : δ ≤ 7 := h1.2 ⟨_, rfl, _, ⟨0, le_rfl, zero_le_one, rfl⟩, by simpa using e2.symm⟩
  simp only [e1, e2, e3] at h2
  have h4 := unit64'
  have h5 := root64'
  push_cast at h2
  generalize (2 : ℝ)⁻¹ ^ binary64.prec = μ at h2 h4 ⊢
  generalize (2 : ℝ)⁻¹ ^ 500 = ν at h2 h5 ⊢
  norm_num at h2 h4 h5 ⊢
  linarith

example : |(distSegmentVec ⟨p64 0 0 0, p64 1 0 0⟩ (p64 0 0 7)).1 -
    distSegmentVec (⟨fun i => ((p64 0 0 0) i).1, fun i => ((p64 1 0 0) i).1⟩ : Segment ℝ 3) (fun i => ((p64 0 0 7) i).1)| ≤ 1 / 10 ^ 10 := by
  obtain ⟨e1, e2, e3⟩ := unit_segment64
  have h2 := C142_value ⟨p64 0 0 0, p64 1 0 0⟩ (p64 0 0 7) (by show 64 * 5 ≤ 2 ^ 53; norm_num) (by rw [e1]; norm_num)
    (by rw [e1]; exact small64' le_rfl) (ω := (2 : ℝ)⁻¹ ^ 500) (by positivity) root64
  refine h2.trans ?_
  simp only [e1, e2, e3]
  have h4 := unit64'
  have h5 := root64'
  push_cast
  generalize (2 : ℝ)⁻¹ ^ binary64.prec = μ at h4 ⊢
  generalize (2 : ℝ)⁻¹ ^ 500 = ν at h5 ⊢
  norm_num at h4 h5 ⊢
  linarith

example : 7 - 1 / 10 ^ 10 ≤ (distSegmentVec ⟨p64 0 0 0, p64 1 0 0⟩ (p64 0 0 7)).1 := by
  obtain ⟨e1, e2, e3⟩ := unit_segment64
  have hlen := C95_length ⟨p64 0 0 0, p64 1 0 0⟩ (by show 64 * 5 ≤ 2 ^ 53; norm_num) (by rw [dist_comm', e1]; norm_num)
    (by rw [dist_comm', e1]; exact small64' le_rfl)
  have h4 := unit64'
  have h5 := root64'
  obtain ⟨δ, h1, h2⟩ := C142_lower ⟨p64 0 0 0, p64 1 0 0⟩ (p64 0 0 7) (by show 64 * 5 ≤ 2 ^ 53; norm_num) emin64
    (dist_pos_ne (by rw [e1]; norm_num)) (by
      rw [dist_comm', e1] at hlen
      have := (abs_le.1 hlen).1
      generalize (2 : ℝ)⁻¹ ^ binary64.prec = μ at this h4
      norm_num at this h4
      intro h0
      rw [h0] at this
      linarith) (ω := (2 : ℝ)⁻¹ ^ 500) (by positivity) root64
  have hδ : 7 ≤ δ := by
    obtain ⟨p, hp, q, ⟨t, _, _, hq⟩, rfl⟩ := h1.1
    rw [Set.mem_singleton_iff] at hp
    rw [hp, hq]
    have := coord_le_norm (fun i => ((p64 0 0 7) i).1 - (((p64 0 0 0) i).1 + t * (((p64 1 0 0) i).1 - ((p64 0 0 0) i).1))) 2
    refine le_trans ?_ this
    have v : ∀ (n : ℤ) (h : |n| < 2 ^ 53), (fl64 n h).1 = (n : ℝ) := fun _ _ => rfl
    simp [p64, v]
  simp only [e1, e2, e3] at h2
  push_cast at h2
  generalize (2 : ℝ)⁻¹ ^ binary64.prec = μ at h2 h4 ⊢
  generalize (2 : ℝ)⁻¹ ^ 500 = ν at h2 h5 ⊢
  norm_num at h2 h4 h5 ⊢
  linarith
end Examples
end Verif
