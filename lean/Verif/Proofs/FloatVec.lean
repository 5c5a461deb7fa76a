import Verif.Proofs.FloatLength
import Verif.Proofs.FloatSum

set_option linter.unusedSectionVars false

/-
Errors of computed scalar products, lengths and rejections, for vectors of every size: no lower bound on the operands.
-/
namespace Verif
open Spec

variable {F : FloatFormat} {D : ℕ}

/-- The computed scalar product. -/
theorem dot_err {D : ℕ} (u v : Vec (Fl F) D) (hD : ((D : ℝ) + 2) * F.unit ≤ 1 / 64) :
    |(dot u v).1 - ∑ i, (u i).1 * (v i).1| ≤ 17 / 16 * ((D + 1) * F.unit) * (∑ i, |(u i).1 * (v i).1|) + 9 / 8 * (D * F.tiny) := by
  have hu0 := F.unit_pos
  have ht0 := F.tiny_nonneg
  induction D with
  | zero => simp [dot, Fl.val_zero]
  | succ D ih =>
    have hD0 : (0 : ℝ) ≤ D := by positivity
    push_cast at hD
    have hDu : ((D : ℝ) + 3) * F.unit = D * F.unit + 3 * F.unit := by ring
    have hD1 : (D : ℝ) * F.unit + 3 * F.unit ≤ 1 / 64 := by rw [← hDu]; linarith
    have hDu0 : 0 ≤ (D : ℝ) * F.unit := by positivity
    have ih := ih (fun i => u i.castSucc) (fun i => v i.castSucc) (by linarith)
    rw [dot_succ_last, Fin.sum_univ_castSucc, Fin.sum_univ_castSucc]
    set S := ∑ i : Fin D, (u i.castSucc).1 * (v i.castSucc).1 with hS
    set A := ∑ i : Fin D, |(u i.castSucc).1 * (v i.castSucc).1| with hA
    have hA0 : 0 ≤ A := Finset.sum_nonneg fun i _ => abs_nonneg _
    have hSA : |S| ≤ A := Finset.abs_sum_le_sum_abs _ _
    set x := (u (Fin.last D)).1 * (v (Fin.last D)).1 with hx
    have hx0 : 0 ≤ |x| := abs_nonneg x
    have hp : |(u (Fin.last D) * v (Fin.last D)).1 - x| ≤ F.unit * |x| + F.tiny := F.err x
    set s := dot (fun i => u i.castSucc) (fun i => v i.castSucc) with hs
    set p := u (Fin.last D) * v (Fin.last D) with hpp
    have hr := Fl.add_rel s p
    set e := 17 / 16 * (((D : ℝ) + 1) * F.unit) * A + 9 / 8 * (D * F.tiny) with he
    have h1 : |s.1 + p.1 - (S + x)| ≤ e + (F.unit * |x| + F.tiny) := by
      rw [show s.1 + p.1 - (S + x) = (s.1 - S) + (p.1 - x) by ring]
      exact (abs_add_le _ _).trans (add_le_add ih hp)
    have h2 : |s.1 + p.1| ≤ A + |x| + (e + (F.unit * |x| + F.tiny)) := by
      have := abs_add_le (s.1 + p.1 - (S + x)) (S + x)
      rw [sub_add_cancel] at this
      have h3 := abs_add_le S x
      linarith
    have h3 : |(s + p).1 - (S + x)| ≤ F.unit * |s.1 + p.1| + (e + (F.unit * |x| + F.tiny)) := by
      rw [show (s + p).1 - (S + x) = ((s + p).1 - (s.1 + p.1)) + (s.1 + p.1 - (S + x)) by ring]
      exact (abs_add_le _ _).trans (add_le_add hr h1)
    have h4 := mul_le_mul_of_nonneg_left h2 hu0.le
    refine h3.trans ?_
    push_cast
    have k1 : F.unit * (F.unit * |x|) ≤ 1 / 128 * (F.unit * |x|) :=
      mul_le_mul_of_nonneg_right (by linarith) (by positivity)
    have k2 : (D * F.unit) * (F.unit * A) ≤ 1 / 64 * (F.unit * A) := mul_le_mul_of_nonneg_right (by linarith) (by positivity)
    have k3 : F.unit * (F.unit * A) ≤ 1 / 128 * (F.unit * A) := mul_le_mul_of_nonneg_right (by linarith) (by positivity)
    have k4 : (D * F.unit) * F.tiny ≤ 1 / 64 * F.tiny := mul_le_mul_of_nonneg_right (by linarith) ht0
    have k5 : F.unit * F.tiny ≤ 1 / 128 * F.tiny := mul_le_mul_of_nonneg_right (by linarith) ht0
    have k6 : 0 ≤ (D : ℝ) * (F.unit * |x|) := by positivity
    have k7 : 0 ≤ F.unit * |x| := by positivity
    have k8 : 0 ≤ F.unit * A := by positivity
    have e1 : F.unit * (A + |x| + (e + (F.unit * |x| + F.tiny))) + (e + (F.unit * |x| + F.tiny))
        = e + F.unit * A + 2 * (F.unit * |x|) + F.unit * (F.unit * |x|) + F.unit * F.tiny + F.tiny
          + (17 / 16 * ((D * F.unit) * (F.unit * A)) + 17 / 16 * (F.unit * (F.unit * A)) + 9 / 8 * ((D * F.unit) * F.tiny)) := by
      rw [he]; ring
    have e2 : 17 / 16 * (((D : ℝ) + 1 + 1) * F.unit) * (A + |x|) + 9 / 8 * ((D + 1) * F.tiny)
        = e + 17 / 16 * (F.unit * A) + 17 / 16 * (D * (F.unit * |x|)) + 17 / 8 * (F.unit * |x|) + 9 / 8 * F.tiny := by
      rw [he]; ring
    rw [e2]
    linarith

theorem sum_abs_le (a b : Vec ℝ D) : ∑ i, |a i * b i| ≤ Spec.norm a * Spec.norm b := by
  have h := Real.sum_mul_le_sqrt_mul_sqrt Finset.univ (fun i => |a i|) (fun i => |b i|)
  simp only [sq_abs] at h
  simp only [abs_mul]
  exact h

theorem abs_dp_le (a b : Vec ℝ D) : |∑ i, a i * b i| ≤ Spec.norm a * Spec.norm b :=
  (Finset.abs_sum_le_sum_abs _ _).trans (sum_abs_le a b)

/-- The triangle inequality. -/
theorem norm_add_le' (a b : Vec ℝ D) : Spec.norm (fun i => a i + b i) ≤ Spec.norm a + Spec.norm b := by
  have h := norm_sub_norm (fun i => a i + b i) a
  have e : Spec.dist (fun i => a i + b i) a = Spec.norm b := by unfold Spec.dist Spec.norm; simp
  rw [e] at h
  have := (abs_le.1 h).2
  linarith

/-- The dimension times the unit roundoff and times the underflow threshold. -/
theorem dim_facts (hD : 64 * (D + 2) ≤ 2 ^ F.prec) (ht : F.tiny ≤ F.unit * F.unit) :
    F.unit ≤ ((D + 2) * F.unit) / 2 ∧ ((D : ℝ) + 2) * F.unit ≤ 1 / 64 ∧ F.tiny ≤ ((D + 2) * F.tiny) / 2 ∧
      ((D : ℝ) + 2) * F.tiny ≤ 1 / 128 * ((D + 2) * F.unit) := by
  have hu0 := F.unit_pos
  have ht0 := F.tiny_nonneg
  have hD0 : (0 : ℝ) ≤ D := by positivity
  have h1 : (64 : ℝ) * (D + 2) * F.unit ≤ 1 := by
    unfold FloatFormat.unit
    rw [inv_pow, ← div_eq_mul_inv, div_le_one (by positivity)]
    exact_mod_cast hD
  have h2 : 2 * F.unit ≤ ((D : ℝ) + 2) * F.unit := mul_le_mul_of_nonneg_right (by linarith) hu0.le
  have h3 : 2 * F.tiny ≤ ((D : ℝ) + 2) * F.tiny := mul_le_mul_of_nonneg_right (by linarith) ht0
  have h4 : ((D : ℝ) + 2) * F.tiny ≤ (D + 2) * (F.unit * F.unit) := mul_le_mul_of_nonneg_left ht (by linarith)
  have h5 : ((D : ℝ) + 2) * (F.unit * F.unit) = F.unit * ((D + 2) * F.unit) := by ring
  have h6 : F.unit * ((D + 2) * F.unit) ≤ 1 / 128 * ((D + 2) * F.unit) := mul_le_mul_of_nonneg_right (by linarith) (by positivity)
  refine ⟨by linarith, by linarith, by linarith, by linarith⟩

/-- The computed scalar product of a vector with small relative errors and another vector. -/
theorem dot_abs (w' d : Vec (Fl F) D) (w : Vec ℝ D) (hw : ∀ i, |(w' i).1 - w i| ≤ F.unit * |w i|)
    (hD : 64 * (D + 2) ≤ 2 ^ F.prec) (ht : F.tiny ≤ F.unit * F.unit) :
    |(dot w' d).1 - ∑ i, w i * (d i).1|
      ≤ 8 / 5 * (((D + 2) * F.unit) * (Spec.norm w * Spec.norm (Fl.vals d))) + 2 * ((D + 2) * F.tiny) := by
  obtain ⟨f1, f2, f3, f4⟩ := dim_facts hD ht
  have hu0 := F.unit_pos
  have ht0 := F.tiny_nonneg
  have hD0 : (0 : ℝ) ≤ D := by positivity
  have h := dot_err w' d f2
  set B := Spec.norm w * Spec.norm (Fl.vals d) with hB
  have hA : ∑ i, |w i * (d i).1| ≤ B := sum_abs_le w (Fl.vals d)
  set A := ∑ i, |w i * (d i).1| with hAdef
  have hA0 : 0 ≤ A := Finset.sum_nonneg fun i _ => abs_nonneg _
  have hi : ∀ i, |(w' i).1 * (d i).1 - w i * (d i).1| ≤ F.unit * |w i * (d i).1| := by
    intro i
    rw [← sub_mul, abs_mul, abs_mul, ← mul_assoc]
    exact mul_le_mul_of_nonneg_right (hw i) (abs_nonneg _)
  have h1 : |∑ i, (w' i).1 * (d i).1 - ∑ i, w i * (d i).1| ≤ F.unit * A := by
    rw [← Finset.sum_sub_distrib, hAdef, Finset.mul_sum]
    exact (Finset.abs_sum_le_sum_abs _ _).trans (Finset.sum_le_sum fun i _ => hi i)
  have h2 : ∑ i, |(w' i).1 * (d i).1| ≤ A + F.unit * A := by
    rw [hAdef, Finset.mul_sum, ← Finset.sum_add_distrib]
    refine Finset.sum_le_sum fun i _ => ?_
    have := abs_add_le ((w' i).1 * (d i).1 - w i * (d i).1) (w i * (d i).1)
    rw [sub_add_cancel] at this
    linarith [hi i]
  have h3 : |(dot w' d).1 - ∑ i, w i * (d i).1| ≤ |(dot w' d).1 - ∑ i, (w' i).1 * (d i).1| + F.unit * A := by
    rw [show (dot w' d).1 - ∑ i, w i * (d i).1 = ((dot w' d).1 - ∑ i, (w' i).1 * (d i).1) + (∑ i, (w' i).1 * (d i).1 - ∑ i, w i * (d i).1)
      by ring]
    exact (abs_add_le _ _).trans (add_le_add le_rfl h1)
  set U := ((D : ℝ) + 2) * F.unit with hU
  have hU0 : 0 < U := by positivity
  have g1 : 17 / 16 * (((D : ℝ) + 1) * F.unit) ≤ 17 / 16 * U := by rw [hU]; linarith
  have g2 : 17 / 16 * (((D : ℝ) + 1) * F.unit) * (∑ i, |(w' i).1 * (d i).1|) ≤ 17 / 16 * U * (A + F.unit * A) :=
    mul_le_mul g1 h2 (Finset.sum_nonneg fun i _ => abs_nonneg _) (by positivity)
  have g3 : U * (F.unit * A) ≤ 1 / 64 * (F.unit * A) := mul_le_mul_of_nonneg_right f2 (by positivity)
  have g4 : F.unit * A ≤ U / 2 * A := mul_le_mul_of_nonneg_right f1 hA0
  have g5 : U * A ≤ U * B := mul_le_mul_of_nonneg_left hA hU0.le
  have g6 : 9 / 8 * ((D : ℝ) * F.tiny) ≤ 2 * ((D + 2) * F.tiny) := by
    have : (D : ℝ) * F.tiny ≤ (D + 2) * F.tiny := mul_le_mul_of_nonneg_right (by linarith) ht0
    have h0 : 0 ≤ (D : ℝ) * F.tiny := by positivity
    linarith
  have g7 : 0 ≤ U * A := by positivity
  linarith

theorem sqrt_sub_sqrt_le {a b c t : ℝ} (ha : 0 ≤ a) (hc : 0 ≤ c) (ht : 0 ≤ t) (h : |b - a ^ 2| ≤ c * a ^ 2 + t) :
    |Real.sqrt b - a| ≤ c * a + Real.sqrt t := by
  have hs := Real.sqrt_nonneg t
  have hst := Real.sq_sqrt ht
  have hca : 0 ≤ c * a := by positivity
  obtain ⟨h1, h2⟩ := abs_le.1 h
  rw [abs_le]
  constructor
  · rcases le_total a (c * a + Real.sqrt t) with h3 | h3
    · linarith [Real.sqrt_nonneg b]
    · have : a - (c * a + Real.sqrt t) ≤ Real.sqrt b := by
        apply Real.le_sqrt_of_sq_le
        have k1 : 0 ≤ (a - (c * a + Real.sqrt t)) * (c * a + Real.sqrt t) := mul_nonneg (by linarith) (by linarith)
        have k2 : Real.sqrt t * Real.sqrt t ≤ a * Real.sqrt t := mul_le_mul_of_nonneg_right (by linarith) hs
        nlinarith
      linarith
  · have : Real.sqrt b ≤ a + c * a + Real.sqrt t := by
      apply Real.sqrt_le_iff.2
      refine ⟨by linarith, ?_⟩
      have k1 : 0 ≤ a * Real.sqrt t := by positivity
      have k2 : 0 ≤ (c * a) * Real.sqrt t := by positivity
      have k3 : 0 ≤ c * a ^ 2 := by positivity
      have k4 : 0 ≤ (c * a) ^ 2 := sq_nonneg _
      nlinarith
    linarith

/-- The absolute part of the error of a computed length. -/
noncomputable def FloatFormat.root (F : FloatFormat) (D : ℕ) : ℝ := Real.sqrt (2 * ((D + 2) * F.tiny))

theorem FloatFormat.root_nonneg (F : FloatFormat) (D : ℕ) : 0 ≤ F.root D := Real.sqrt_nonneg _

theorem tiny_le_root (hD : 64 * (D + 2) ≤ 2 ^ F.prec) (ht : F.tiny ≤ F.unit * F.unit) : ((D : ℝ) + 2) * F.tiny ≤ F.root D / 32 := by
  obtain ⟨f1, f2, f3, f4⟩ := dim_facts hD ht
  have ht0 := F.tiny_nonneg
  have hs : F.root D ^ 2 = 2 * ((D + 2) * F.tiny) := Real.sq_sqrt (by positivity)
  have h0 := F.root_nonneg D
  have h1 : F.root D ≤ 1 / 16 := by
    apply Real.sqrt_le_iff.2
    exact ⟨by norm_num, by linarith⟩
  nlinarith

/-- The computed length of a vector. -/
theorem length_abs (v : Vec (Fl F) D) (hD : 64 * (D + 2) ≤ 2 ^ F.prec) (ht : F.tiny ≤ F.unit * F.unit) :
    |(length v).1 - Spec.norm (Fl.vals v)| ≤ 8 / 5 * (((D + 2) * F.unit) * Spec.norm (Fl.vals v)) + 2 * F.root D := by
  obtain ⟨f1, f2, f3, f4⟩ := dim_facts hD ht
  have hu0 := F.unit_pos
  have ht0 := F.tiny_nonneg
  have hD0 : (0 : ℝ) ≤ D := by positivity
  set H := Spec.norm (Fl.vals v) with hH
  have hH0 : 0 ≤ H := norm_nonneg' _
  have hS : ∑ i, (v i).1 ^ 2 = H ^ 2 := by
    rw [hH, Spec.norm, Real.sq_sqrt (Finset.sum_nonneg fun i _ => sq_nonneg _)]; rfl
  have hd := dot_err v v f2
  have e1 : ∑ i, (v i).1 * (v i).1 = H ^ 2 := by rw [← hS]; exact Finset.sum_congr rfl fun i _ => (pow_two _).symm
  have e2 : ∑ i, |(v i).1 * (v i).1| = H ^ 2 := by
    rw [← hS]; exact Finset.sum_congr rfl fun i _ => by rw [abs_mul_self, pow_two]
  rw [e1, e2] at hd
  set U := ((D : ℝ) + 2) * F.unit with hU
  have hU0 : 0 < U := by positivity
  have hd' : |(dot v v).1 - H ^ 2| ≤ 17 / 16 * U * H ^ 2 + 2 * ((D + 2) * F.tiny) := by
    refine hd.trans (add_le_add ?_ ?_)
    · exact mul_le_mul_of_nonneg_right (by rw [hU]; linarith) (sq_nonneg _)
    · have : (D : ℝ) * F.tiny ≤ (D + 2) * F.tiny := mul_le_mul_of_nonneg_right (by linarith) ht0
      have h0 : 0 ≤ (D : ℝ) * F.tiny := by positivity
      linarith
  have hroot := sqrt_sub_sqrt_le hH0 (by positivity) (by positivity) hd'
  change _ ≤ _ + F.root D at hroot
  have hlen : (length v).1 = F.rnd (Real.sqrt (dot v v).1) := by unfold length; rw [Fl.val_sqrt]
  rw [hlen]
  refine (F.err_of hroot (abs_of_nonneg hH0).le).trans ?_
  have hr := tiny_le_root hD ht
  have hr0 := F.root_nonneg D
  have hUH : 0 ≤ U * H := by positivity
  have g1 : F.unit * H ≤ U / 2 * H := mul_le_mul_of_nonneg_right f1 hH0
  have g2 : F.unit * (U * H) ≤ 1 / 128 * (U * H) := mul_le_mul_of_nonneg_right (by linarith) hUH
  have g3 : F.unit * F.root D ≤ 1 / 128 * F.root D := mul_le_mul_of_nonneg_right (by linarith) hr0
  have e : 17 / 16 * U * H + F.root D + F.unit * (H + (17 / 16 * U * H + F.root D)) + F.tiny
      = 17 / 16 * (U * H) + F.root D + F.unit * H + 17 / 16 * (F.unit * (U * H)) + F.unit * F.root D + F.tiny := by ring
  rw [e]
  linarith

/-- The computed distance of two points. -/
theorem distance_abs (a b : Vec (Fl F) D) (hD : 64 * (D + 2) ≤ 2 ^ F.prec) (ht : F.tiny ≤ F.unit * F.unit) :
    |(length (vsub a b)).1 - Spec.dist (Fl.vals a) (Fl.vals b)|
      ≤ 11 / 5 * (((D + 2) * F.unit) * Spec.dist (Fl.vals a) (Fl.vals b)) + 2 * F.root D := by
  obtain ⟨f1, f2, f3, f4⟩ := dim_facts hD ht
  have hu0 := F.unit_pos
  set W := Spec.dist (Fl.vals a) (Fl.vals b) with hW
  have hW0 : 0 ≤ W := dist_nonneg' _ _
  have hN : |Spec.norm (Fl.vals (vsub a b)) - W| ≤ F.unit * W := by
    have h1 := norm_sub_norm (Fl.vals (vsub a b)) (fun i => (a i).1 - (b i).1)
    have h2 := dist_of_rel (a := Fl.vals (vsub a b)) (b := fun i => (a i).1 - (b i).1) hu0.le le_rfl fun i => by
      rw [add_zero]; exact Fl.sub_rel (a i) (b i)
    rw [mul_zero, add_zero] at h2
    exact h1.trans h2
  have hL := length_abs (vsub a b) hD ht
  set N := Spec.norm (Fl.vals (vsub a b)) with hNdef
  set U := ((D : ℝ) + 2) * F.unit with hU
  have hU0 : 0 < U := by positivity
  have hUW : 0 ≤ U * W := by positivity
  have h1 : N ≤ W + F.unit * W := by linarith [(abs_le.1 hN).2]
  have h2 : U * N ≤ U * (W + F.unit * W) := mul_le_mul_of_nonneg_left h1 hU0.le
  have h3 : F.unit * (U * W) ≤ 1 / 128 * (U * W) := mul_le_mul_of_nonneg_right (by linarith) hUW
  have h4 : F.unit * W ≤ U / 2 * W := mul_le_mul_of_nonneg_right f1 hW0
  have h5 : |(length (vsub a b)).1 - W| ≤ |(length (vsub a b)).1 - N| + |N - W| := by
    rw [show (length (vsub a b)).1 - W = ((length (vsub a b)).1 - N) + (N - W) by ring]; exact abs_add_le _ _
  have e : U * (W + F.unit * W) = U * W + F.unit * (U * W) := by ring
  rw [e] at h2
  linarith

theorem norm_sq' (v : Vec ℝ D) : Spec.norm v ^ 2 = ∑ i, v i ^ 2 := Real.sq_sqrt (Finset.sum_nonneg fun _ _ => sq_nonneg _)

/-- Pythagoras: the part of `w` along `d` and the rest. -/
theorem norm_rejection (w d : Vec ℝ D) (hd : 0 < Spec.norm d) :
    Spec.norm (fun i => w i - (∑ j, w j * d j) / Spec.norm d ^ 2 * d i) ^ 2 + ((∑ j, w j * d j) / Spec.norm d) ^ 2 = Spec.norm w ^ 2 := by
  rw [norm_sq' (fun i => _), norm_sq' w]
  set a := ∑ j, w j * d j with ha
  set M := Spec.norm d with hM
  have hM2 : ∑ i, d i ^ 2 = M ^ 2 := (norm_sq' d).symm
  have e : ∑ i, (w i - a / M ^ 2 * d i) ^ 2 = ∑ i, w i ^ 2 - 2 * (a / M ^ 2) * a + (a / M ^ 2) ^ 2 * M ^ 2 := by
    rw [← hM2, ha, Finset.mul_sum, Finset.mul_sum, ← Finset.sum_sub_distrib, ← Finset.sum_add_distrib]
    refine Finset.sum_congr rfl fun i _ => ?_
    ring
  rw [e]
  field_simp
  ring

/-- The computed parameter of the foot of the perpendicular. -/
theorem foot_err (w' d : Vec (Fl F) D) (w : Vec ℝ D) (hw : ∀ i, |(w' i).1 - w i| ≤ F.unit * |w i|)
    (hD : 64 * (D + 2) ≤ 2 ^ F.prec) (ht : F.tiny ≤ F.unit * F.unit) (hM1 : 1 / 2 ≤ Spec.norm (Fl.vals d)) :
    |(dot w' d / dot d d).1 - (∑ i, w i * (d i).1) / Spec.norm (Fl.vals d) ^ 2|
      ≤ 41 / 10 * (((D + 2) * F.unit) * (Spec.norm w / Spec.norm (Fl.vals d))) + 10 * ((D + 2) * F.tiny) := by
  obtain ⟨f1, f2, f3, f4⟩ := dim_facts hD ht
  have hu0 := F.unit_pos
  have ht0 := F.tiny_nonneg
  have hD0 : (0 : ℝ) ≤ D := by positivity
  have ha := dot_abs w' d w hw hD ht
  have hc := dot_abs d d (Fl.vals d) (fun i => by
    have : (0 : ℝ) ≤ F.unit * |(d i).1| := by positivity
    simpa [Fl.vals] using this) hD ht
  have hal := abs_dp_le w (Fl.vals d)
  change |∑ i, w i * (d i).1| ≤ _ at hal
  set a := ∑ i, w i * (d i).1 with hadef
  set M := Spec.norm (Fl.vals d) with hM
  set W := Spec.norm w with hW
  have hW0 : 0 ≤ W := norm_nonneg' _
  have hM0 : 0 < M := by linarith
  have e1 : ∑ i, Fl.vals d i * (d i).1 = M ^ 2 := by
    rw [hM, norm_sq']; exact Finset.sum_congr rfl fun i _ => (pow_two _).symm
  rw [e1] at hc
  set U := ((D : ℝ) + 2) * F.unit with hU
  set T := ((D : ℝ) + 2) * F.tiny with hT
  have hU0 : 0 < U := by positivity
  have hT0 : 0 ≤ T := by positivity
  have hM2 : 1 / 4 ≤ M ^ 2 := by nlinarith
  set a' := (dot w' d).1 with ha'
  set c' := (dot d d).1 with hc'
  have hc1 : |c' - M ^ 2| ≤ 9 / 5 * (U * M ^ 2) := by
    refine hc.trans ?_
    have : U * (1 / 4) ≤ U * M ^ 2 := mul_le_mul_of_nonneg_left hM2 hU0.le
    have e : M * M = M ^ 2 := (pow_two M).symm
    rw [e]
    linarith
  have hcl : 31 / 32 * M ^ 2 ≤ c' := by
    have h1 : U * M ^ 2 ≤ 1 / 64 * M ^ 2 := mul_le_mul_of_nonneg_right f2 (by positivity)
    linarith [(abs_le.1 hc1).1]
  have hc0 : 0 < c' := lt_of_lt_of_le (by positivity) hcl
  have hW' : 0 ≤ W / M := by positivity
  set V := W / M with hV
  have eW : W = V * M := by rw [hV]; field_simp
  set q := a / M ^ 2 with hq
  have haq : a = q * M ^ 2 := by rw [hq]; field_simp
  have hql : |q| ≤ V := by
    rw [hq, abs_div, abs_of_pos (show 0 < M ^ 2 by positivity), div_le_iff₀ (by positivity)]
    rw [eW] at hal
    linarith
  have hUV : 0 ≤ U * V := by positivity
  -- the exact quotient of the computed numbers
  have hquo : |a' / c' - q| ≤ 88 / 25 * (U * V) + 9 * T := by
    have h1 : a' / c' - q = (a' - a - q * (c' - M ^ 2)) / c' := by
      rw [haq]; field_simp; ring
    rw [h1, abs_div, abs_of_pos hc0, div_le_iff₀ hc0]
    have h2 : |a' - a - q * (c' - M ^ 2)| ≤ 8 / 5 * (U * (W * M)) + 2 * T + V * (9 / 5 * (U * M ^ 2)) := by
      refine (abs_sub _ _).trans (add_le_add ha ?_)
      rw [abs_mul]
      exact mul_le_mul hql hc1 (abs_nonneg _) hW'
    refine h2.trans ?_
    rw [eW]
    have e : 8 / 5 * (U * (V * M * M)) + 2 * T + V * (9 / 5 * (U * M ^ 2)) = 17 / 5 * (U * V) * M ^ 2 + 2 * T := by ring
    rw [e]
    have h3 : (88 / 25 * (U * V) + 9 * T) * (31 / 32 * M ^ 2) ≤ (88 / 25 * (U * V) + 9 * T) * c' :=
      mul_le_mul_of_nonneg_left hcl (by linarith)
    have h4 : T * (1 / 4) ≤ T * M ^ 2 := mul_le_mul_of_nonneg_left hM2 hT0
    have h5 : 0 ≤ (U * V) * M ^ 2 := by positivity
    have e5 : (88 / 25 * (U * V) + 9 * T) * (31 / 32 * M ^ 2) = 88 / 25 * (31 / 32) * ((U * V) * M ^ 2) + 9 * 31 / 32 * (T * M ^ 2) := by
      ring
    linarith
  have hdiv : (dot w' d / dot d d).1 = F.rnd (a' / c') := Fl.val_div _ _
  rw [hdiv]
  refine (F.err_of hquo hql).trans ?_
  have g1 : F.unit * V ≤ U / 2 * V := mul_le_mul_of_nonneg_right f1 hW'
  have g2 : F.unit * (U * V) ≤ 1 / 128 * (U * V) := mul_le_mul_of_nonneg_right (by linarith) hUV
  have g3 : F.unit * T ≤ 1 / 128 * T := mul_le_mul_of_nonneg_right (by linarith) hT0
  have e : 88 / 25 * (U * V) + 9 * T + F.unit * (V + (88 / 25 * (U * V) + 9 * T)) + F.tiny
      = 88 / 25 * (U * V) + 9 * T + F.unit * V + 88 / 25 * (F.unit * (U * V)) + 9 * (F.unit * T) + F.tiny := by ring
  rw [e]
  linarith

/-- The computed rejection. -/
theorem rejection_err (w' d : Vec (Fl F) D) (w : Vec ℝ D) (hw : ∀ i, |(w' i).1 - w i| ≤ F.unit * |w i|)
    (hD : 64 * (D + 2) ≤ 2 ^ F.prec) (ht : F.tiny ≤ F.unit * F.unit) (hM1 : 1 / 2 ≤ Spec.norm (Fl.vals d))
    (hM2 : Spec.norm (Fl.vals d) ≤ 2) :
    Spec.dist (Fl.vals (rejection w' d)) (fun i => w i - (∑ j, w j * (d j).1) / Spec.norm (Fl.vals d) ^ 2 * (d i).1)
      ≤ 6 * (((D + 2) * F.unit) * Spec.norm w) + 24 * ((D + 2) * F.tiny) := by
  obtain ⟨f1, f2, f3, f4⟩ := dim_facts hD ht
  have hu0 := F.unit_pos
  have ht0 := F.tiny_nonneg
  have hD0 : (0 : ℝ) ≤ D := by positivity
  have hf := foot_err w' d w hw hD ht hM1
  have hpy := norm_rejection w (Fl.vals d) (by linarith)
  have hal := abs_dp_le w (Fl.vals d)
  change |∑ i, w i * (d i).1| ≤ _ at hal
  change Spec.norm (fun i => w i - (∑ j, w j * (d j).1) / Spec.norm (Fl.vals d) ^ 2 * (d i).1) ^ 2 + ((∑ j, w j * (d j).1) / _) ^ 2 = _ at hpy
  set a := ∑ i, w i * (d i).1 with hadef
  set M := Spec.norm (Fl.vals d) with hM
  set W := Spec.norm w with hW
  have hW0 : 0 ≤ W := norm_nonneg' _
  have hM0 : 0 < M := by linarith
  set q := a / M ^ 2 with hq
  set r : Vec ℝ D := fun i => w i - q * (d i).1 with hr
  have hR : Spec.norm r ≤ W := by
    refine abs_le_of_sq_le_sq' ?_ hW0 |>.2
    linarith [sq_nonneg (a / M)]
  set U := ((D : ℝ) + 2) * F.unit with hU
  set T := ((D : ℝ) + 2) * F.tiny with hT
  have hU0 : 0 < U := by positivity
  have hT0 : 0 ≤ T := by positivity
  set V := W / M with hV
  have eW : W = V * M := by rw [hV]; field_simp
  have hV0 : 0 ≤ V := by positivity
  have hql : |q| ≤ V := by
    rw [hq, abs_div, abs_of_pos (show 0 < M ^ 2 by positivity), div_le_iff₀ (by positivity)]
    rw [eW] at hal
    linarith
  have hUV : 0 ≤ U * V := by positivity
  set q' := dot w' d / dot d d with hq'
  set E := 47 / 10 * (U * V) + 11 * T with hE
  have hE0 : 0 ≤ E := by positivity
  have hp : ∀ i, |(d i * q').1 - q * (d i).1| ≤ E * |(d i).1| + F.tiny := by
    intro i
    have h1 : |(d i).1 * q'.1 - q * (d i).1| ≤ (41 / 10 * (U * V) + 10 * T) * |(d i).1| := by
      rw [show (d i).1 * q'.1 - q * (d i).1 = (q'.1 - q) * (d i).1 by ring, abs_mul]
      exact mul_le_mul_of_nonneg_right hf (abs_nonneg _)
    have h2 : |q * (d i).1| ≤ V * |(d i).1| := by
      rw [abs_mul]; exact mul_le_mul_of_nonneg_right hql (abs_nonneg _)
    rw [Fl.val_mul]
    refine (F.err_of h1 h2).trans ?_
    have g1 : F.unit * V ≤ U / 2 * V := mul_le_mul_of_nonneg_right f1 hV0
    have g2 : F.unit * (U * V) ≤ 1 / 128 * (U * V) := mul_le_mul_of_nonneg_right (by linarith) hUV
    have g3 : F.unit * T ≤ 1 / 128 * T := mul_le_mul_of_nonneg_right (by linarith) hT0
    have e : (41 / 10 * (U * V) + 10 * T) * |(d i).1| + F.unit * (V * |(d i).1| + (41 / 10 * (U * V) + 10 * T) * |(d i).1|) + F.tiny
        = (41 / 10 * (U * V) + 10 * T + F.unit * V + 41 / 10 * (F.unit * (U * V)) + 10 * (F.unit * T)) * |(d i).1| + F.tiny := by ring
    rw [e, hE]
    exact add_le_add (mul_le_mul_of_nonneg_right (by linarith) (abs_nonneg _)) le_rfl
  have hi : ∀ i, |(rejection w' d i).1 - r i|
      ≤ (U / 2 * 129 / 128 * |w i| + 129 / 128 * E * |(d i).1|) + (U / 2 * |r i| + 129 / 128 * F.tiny) := by
    intro i
    have h0 := Fl.sub_rel (w' i) (d i * q')
    have h1 : |(w' i).1 - (d i * q').1 - r i| ≤ F.unit * |w i| + (E * |(d i).1| + F.tiny) := by
      rw [show (w' i).1 - (d i * q').1 - r i = ((w' i).1 - w i) - ((d i * q').1 - q * (d i).1) by rw [hr]; ring]
      exact (abs_sub _ _).trans (add_le_add (hw i) (hp i))
    set e := F.unit * |w i| + (E * |(d i).1| + F.tiny) with he
    have he0 : 0 ≤ e := le_trans (abs_nonneg _) h1
    have h2 : |(w' i).1 - (d i * q').1| ≤ |r i| + e := by
      have := abs_add_le ((w' i).1 - (d i * q').1 - r i) (r i)
      rw [sub_add_cancel] at this
      linarith
    have h3 : |(rejection w' d i).1 - r i| ≤ F.unit * (|r i| + e) + e := by
      change |(w' i - d i * q').1 - r i| ≤ _
      rw [show (w' i - d i * q').1 - r i = ((w' i - d i * q').1 - ((w' i).1 - (d i * q').1)) + ((w' i).1 - (d i * q').1 - r i) by ring]
      exact (abs_add_le _ _).trans (add_le_add (h0.trans (mul_le_mul_of_nonneg_left h2 hu0.le)) h1)
    refine h3.trans ?_
    have g1 : F.unit * |r i| ≤ U / 2 * |r i| := mul_le_mul_of_nonneg_right f1 (abs_nonneg _)
    have g2 : F.unit * e ≤ 1 / 128 * e := mul_le_mul_of_nonneg_right (by linarith) he0
    have g3 : F.unit * |w i| ≤ U / 2 * |w i| := mul_le_mul_of_nonneg_right f1 (abs_nonneg _)
    have e4 : F.unit * (|r i| + e) + e = F.unit * |r i| + F.unit * e + e := by ring
    rw [e4]
    have e5 : e = F.unit * |w i| + (E * |(d i).1| + F.tiny) := he
    linarith
  have hn1 : Spec.dist (Fl.vals (rejection w' d)) r ≤ Spec.norm (fun i =>
      (U / 2 * 129 / 128 * |w i| + 129 / 128 * E * |(d i).1|) + (U / 2 * |r i| + 129 / 128 * F.tiny)) := norm_mono hi
  have hn2 := norm_add_le' (fun i => U / 2 * 129 / 128 * |w i| + 129 / 128 * E * |(d i).1|) (fun i => U / 2 * |r i| + 129 / 128 * F.tiny)
  have hn3 := norm_add_le' (fun i => U / 2 * 129 / 128 * |w i|) (fun i => 129 / 128 * E * |(d i).1|)
  have hn4 : Spec.norm (fun i => U / 2 * |r i| + 129 / 128 * F.tiny) ≤ U / 2 * Spec.norm r + (D + 2) * (129 / 128 * F.tiny) := by
    have := dist_of_rel (a := fun i => r i + (U / 2 * |r i| + 129 / 128 * F.tiny)) (b := r) (e := U / 2) (t := 129 / 128 * F.tiny)
      (by positivity) (by positivity) (fun i => by
        have : 0 ≤ U / 2 * |r i| + 129 / 128 * F.tiny := by positivity
        rw [add_sub_cancel_left, abs_of_nonneg this])
    have e : Spec.dist (fun i => r i + (U / 2 * |r i| + 129 / 128 * F.tiny)) r = Spec.norm (fun i => U / 2 * |r i| + 129 / 128 * F.tiny) := by
      unfold Spec.dist Spec.norm; simp
    rwa [e] at this
  have e1 : Spec.norm (fun i => U / 2 * 129 / 128 * |w i|) = U / 2 * 129 / 128 * W := by rw [norm_smul' (by positivity), norm_abs']
  have e2 : Spec.norm (fun i => 129 / 128 * E * |(d i).1|) = 129 / 128 * E * M := by
    rw [norm_smul' (by positivity), norm_abs' (fun i => (d i).1)]; rfl
  rw [e1, e2] at hn3
  have hUW : 0 ≤ U * W := by positivity
  have g1 : U / 2 * Spec.norm r ≤ U / 2 * W := mul_le_mul_of_nonneg_left hR (by positivity)
  have g2 : T * M ≤ T * 2 := mul_le_mul_of_nonneg_left hM2 hT0
  have e3 : 129 / 128 * E * M = 129 / 128 * (47 / 10 * (U * W) + 11 * (T * M)) := by rw [hE, eW]; ring
  have e4 : ((D : ℝ) + 2) * (129 / 128 * F.tiny) = 129 / 128 * T := by rw [hT]; ring
  rw [e3] at hn3
  rw [e4] at hn4
  linarith

/-- The computed length of the rejection. -/
theorem rejection_length_err (w' d : Vec (Fl F) D) (w : Vec ℝ D) (hw : ∀ i, |(w' i).1 - w i| ≤ F.unit * |w i|)
    (hD : 64 * (D + 2) ≤ 2 ^ F.prec) (ht : F.tiny ≤ F.unit * F.unit) (hM1 : 1 / 2 ≤ Spec.norm (Fl.vals d))
    (hM2 : Spec.norm (Fl.vals d) ≤ 2) :
    |(length (rejection w' d)).1 - Spec.norm (fun i => w i - (∑ j, w j * (d j).1) / Spec.norm (Fl.vals d) ^ 2 * (d i).1)|
      ≤ 8 * (((D + 2) * F.unit) * Spec.norm w) + 3 * F.root D := by
  obtain ⟨f1, f2, f3, f4⟩ := dim_facts hD ht
  have hu0 := F.unit_pos
  have ht0 := F.tiny_nonneg
  have hrej := rejection_err w' d w hw hD ht hM1 hM2
  have hL := length_abs (rejection w' d) hD ht
  have hpy := norm_rejection w (Fl.vals d) (by linarith)
  change Spec.norm (fun i => w i - (∑ j, w j * (d j).1) / Spec.norm (Fl.vals d) ^ 2 * (d i).1) ^ 2 + ((∑ j, w j * (d j).1) / _) ^ 2 = _ at hpy
  set r : Vec ℝ D := fun i => w i - (∑ j, w j * (d j).1) / Spec.norm (Fl.vals d) ^ 2 * (d i).1 with hr
  have hN := (norm_sub_norm (Fl.vals (rejection w' d)) r).trans hrej
  have hW0 : 0 ≤ Spec.norm w := norm_nonneg' _
  have hR : Spec.norm r ≤ Spec.norm w := by
    refine abs_le_of_sq_le_sq' ?_ hW0 |>.2
    linarith [sq_nonneg ((∑ j, w j * (d j).1) / Spec.norm (Fl.vals d))]
  have hroot := tiny_le_root hD ht
  have hroot0 := F.root_nonneg D
  set W := Spec.norm w with hW
  set R := Spec.norm r with hRdef
  set N := Spec.norm (Fl.vals (rejection w' d)) with hNdef
  set U := ((D : ℝ) + 2) * F.unit with hU
  set T := ((D : ℝ) + 2) * F.tiny with hT
  have hU0 : 0 < U := by positivity
  have hT0 : 0 ≤ T := by positivity
  have hUW : 0 ≤ U * W := by positivity
  have h1 : N ≤ W + (6 * (U * W) + 24 * T) := by linarith [(abs_le.1 hN).2]
  have h2 : U * N ≤ U * (W + (6 * (U * W) + 24 * T)) := mul_le_mul_of_nonneg_left h1 hU0.le
  have h3 : U * (U * W) ≤ 1 / 64 * (U * W) := mul_le_mul_of_nonneg_right f2 hUW
  have h4 : U * T ≤ 1 / 64 * T := mul_le_mul_of_nonneg_right f2 hT0
  have e : U * (W + (6 * (U * W) + 24 * T)) = U * W + 6 * (U * (U * W)) + 24 * (U * T) := by ring
  rw [e] at h2
  have h5 : |(length (rejection w' d)).1 - R| ≤ |(length (rejection w' d)).1 - N| + |N - R| := by
    rw [show (length (rejection w' d)).1 - R = ((length (rejection w' d)).1 - N) + (N - R) by ring]; exact abs_add_le _ _
  linarith

/-- The computed unit vector. -/
theorem normalize_err (d : Vec (Fl F) D) {H : ℝ} (hH : Spec.norm (Fl.vals d) = H) (hH0 : 0 < H) (hD : 64 * (D + 2) ≤ 2 ^ F.prec)
    (ht0 : F.tiny ≤ F.unit * F.unit) (ht1 : F.tiny ≤ F.unit * F.unit * H) (ht2 : F.tiny ≤ F.unit * F.unit * H ^ 2) :
    Spec.dist (Fl.vals (normalize d)) (fun i => (d i).1 / H) ≤ 8 / 5 * ((D + 2) * F.unit) := by
  obtain ⟨f1, f2, f3, f4⟩ := dim_facts hD ht0
  have hu0 := F.unit_pos
  have hD0 : (0 : ℝ) ≤ D := by positivity
  have hL := length_err d hH hH0 (by linarith [F.tiny_nonneg]) (by linarith [F.tiny_nonneg]) f2
  set l := (length d).1 with hl
  set U := ((D : ℝ) + 2) * F.unit with hU
  have hU0 : 0 < U := by positivity
  have hUH : U * H ≤ 1 / 64 * H := mul_le_mul_of_nonneg_right f2 hH0.le
  have hlH : 63 / 64 * H ≤ l := by linarith [(abs_le.1 hL).1]
  have hl0 : 0 < l := by linarith
  have hi : ∀ i, |Fl.vals (normalize d) i - (d i).1 / H| ≤ (64 / 63 * U + F.unit * (1 + 64 / 63 * U)) * |(d i).1 / H| + F.tiny := by
    intro i
    have h1 : |(d i).1 / l - (d i).1 / H| ≤ 64 / 63 * U * |(d i).1 / H| := by
      have e : (d i).1 / l - (d i).1 / H = -(l - H) / l * ((d i).1 / H) := by field_simp; ring
      rw [e, abs_mul, abs_div, abs_neg, abs_of_pos hl0]
      refine mul_le_mul_of_nonneg_right ?_ (abs_nonneg _)
      rw [div_le_iff₀ hl0]
      have := mul_le_mul_of_nonneg_left hlH (show 0 ≤ 64 / 63 * U by positivity)
      linarith
    have e2 : Fl.vals (normalize d) i = F.rnd ((d i).1 / l) := rfl
    rw [e2]
    refine (F.err_of h1 le_rfl).trans (le_of_eq ?_)
    ring
  have h := dist_of_rel (by positivity) F.tiny_nonneg hi
  have hn : Spec.norm (fun i => (d i).1 / H) = 1 := by
    have e : (fun i => (d i).1 / H) = fun i => H⁻¹ * Fl.vals d i := by funext i; rw [div_eq_inv_mul]; rfl
    rw [e, norm_smul' (by positivity), hH, inv_mul_cancel₀ hH0.ne']
  rw [hn, mul_one] at h
  have g1 : F.unit * U ≤ 1 / 128 * U := mul_le_mul_of_nonneg_right (by linarith) hU0.le
  linarith
end Verif
