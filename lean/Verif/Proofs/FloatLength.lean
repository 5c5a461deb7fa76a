import Verif.Proofs.FloatError
import Verif.Proofs.Distance

set_option linter.unusedSectionVars false

/-
Errors of computed lengths and unit vectors.
-/
namespace Verif
open Spec

variable {F : FloatFormat}

/-- The vector of the values. -/
def Fl.vals {D : ℕ} (v : Vec (Fl F) D) : Vec ℝ D := fun i => (v i).1

theorem dot_succ_last {T : Type} [Zero T] [Add T] [Mul T] {D : ℕ} (u v : Vec T (D + 1)) :
    dot u v = dot (fun i => u i.castSucc) (fun i => v i.castSucc) + u (Fin.last D) * v (Fin.last D) := by
  unfold dot
  rw [Fin.foldl_succ_last]

/-- The computed sum of squares. -/
theorem dot_self_err {D : ℕ} (v : Vec (Fl F) D) {B : ℝ} (hB : ∑ i, (v i).1 ^ 2 ≤ B) (hB0 : 0 ≤ B) (ht : F.tiny ≤ 2 * (F.unit * F.unit * B))
    (hD : ((D : ℝ) + 2) * F.unit ≤ 1 / 64) :
    |(dot v v).1 - ∑ i, (v i).1 ^ 2| ≤ F.unit * ∑ i, (v i).1 ^ 2 + D * (5 / 4 * (F.unit * B)) := by
  have hu0 := F.unit_pos
  induction D with
  | zero => simp [dot, Fl.val_zero]
  | succ D ih =>
    rw [dot_succ_last, Fin.sum_univ_castSucc]
    rw [Fin.sum_univ_castSucc] at hB
    have hsq : 0 ≤ (v (Fin.last D)).1 ^ 2 := sq_nonneg _
    have hD' : ((D : ℝ) + 2) * F.unit ≤ 1 / 64 := by
      refine le_trans (mul_le_mul_of_nonneg_right ?_ hu0.le) hD
      push_cast; linarith
    have ih := ih (fun i => v i.castSucc) (by linarith) hD'
    set S := ∑ i : Fin D, (v i.castSucc).1 ^ 2 with hS
    have hS0 : 0 ≤ S := Finset.sum_nonneg fun i _ => sq_nonneg _
    set x := (v (Fin.last D)).1 with hx
    have hp : |(v (Fin.last D) * v (Fin.last D)).1 - x ^ 2| ≤ F.unit * x ^ 2 + F.tiny := by
      rw [Fl.val_mul, ← hx, ← pow_two]
      have := F.err (x ^ 2)
      rwa [abs_of_nonneg hsq] at this
    rw [Fl.val_add]
    have h1 : |(dot (fun i => v i.castSucc) (fun i => v i.castSucc)).1 + (v (Fin.last D) * v (Fin.last D)).1 - (S + x ^ 2)|
        ≤ (F.unit * S + D * (5 / 4 * (F.unit * B))) + (F.unit * x ^ 2 + F.tiny) := by
      rw [show (dot (fun i => v i.castSucc) (fun i => v i.castSucc)).1 + (v (Fin.last D) * v (Fin.last D)).1 - (S + x ^ 2)
        = ((dot (fun i => v i.castSucc) (fun i => v i.castSucc)).1 - S) + ((v (Fin.last D) * v (Fin.last D)).1 - x ^ 2) by ring]
      exact (abs_add_le _ _).trans (add_le_add ih hp)
    have h2 : |S + x ^ 2| ≤ S + x ^ 2 := (abs_of_nonneg (by linarith)).le
    refine (F.err_of h1 h2).trans ?_
    push_cast
    -- everything in terms of u B
    have huB : 0 ≤ F.unit * B := mul_nonneg hu0.le hB0
    have hD0 : (0 : ℝ) ≤ D := by positivity
    have k1 : F.unit * (F.unit * (S + x ^ 2)) ≤ F.unit * (F.unit * B) :=
      mul_le_mul_of_nonneg_left (mul_le_mul_of_nonneg_left hB hu0.le) hu0.le
    have k0 : F.unit * (S + x ^ 2) ≤ F.unit * B := mul_le_mul_of_nonneg_left hB hu0.le
    have k2 : F.unit ≤ 1 / 128 := by
      have : 2 * F.unit ≤ ((D : ℝ) + 2) * F.unit := mul_le_mul_of_nonneg_right (by linarith) hu0.le
      linarith
    have k3 : F.unit * (F.unit * B) ≤ 1 / 128 * (F.unit * B) := mul_le_mul_of_nonneg_right k2 huB
    have k4 : (D * F.unit) * (F.unit * B) ≤ 1 / 64 * (F.unit * B) := by
      refine mul_le_mul_of_nonneg_right ?_ huB
      have : (D : ℝ) * F.unit ≤ (D + 2) * F.unit := mul_le_mul_of_nonneg_right (by linarith) hu0.le
      linarith
    have k5 : F.tiny ≤ 2 * (F.unit * (F.unit * B)) := by rw [← mul_assoc F.unit]; exact ht
    have k6 : F.unit * F.tiny ≤ 1 / 128 * F.tiny := mul_le_mul_of_nonneg_right k2 F.tiny_nonneg
    have e : F.unit * S + D * (5 / 4 * (F.unit * B)) + (F.unit * x ^ 2 + F.tiny) + F.unit * (S + x ^ 2 +
        (F.unit * S + D * (5 / 4 * (F.unit * B)) + (F.unit * x ^ 2 + F.tiny))) + F.tiny
        = F.unit * (S + x ^ 2) + D * (5 / 4 * (F.unit * B)) + (F.unit * (S + x ^ 2) + F.unit * (F.unit * (S + x ^ 2))
          + 5 / 4 * ((D * F.unit) * (F.unit * B)) + F.unit * F.tiny + 2 * F.tiny) := by ring
    rw [e]
    linarith

/-- The computed length of a vector. -/
theorem length_err {D : ℕ} (v : Vec (Fl F) D) {H : ℝ} (hH : Spec.norm (Fl.vals v) = H) (hH0 : 0 < H) (ht : F.tiny ≤ 2 * (F.unit * F.unit * H ^ 2))
    (ht1 : F.tiny ≤ 2 * (F.unit * F.unit * H)) (hD : ((D : ℝ) + 2) * F.unit ≤ 1 / 64) :
    |(length v).1 - H| ≤ (D + 2) * F.unit * H := by
  have hu0 := F.unit_pos
  have hD0 : (0 : ℝ) ≤ D := by positivity
  have hS : ∑ i, (v i).1 ^ 2 = H ^ 2 := by
    rw [← hH, Spec.norm, Real.sq_sqrt (Finset.sum_nonneg fun i _ => sq_nonneg _)]; rfl
  have hd := dot_self_err v hS.le (by positivity) ht hD
  rw [hS] at hd
  set d := (dot v v).1 with hdd
  have huH : 0 < F.unit * H := mul_pos hu0 hH0
  have k2 : F.unit ≤ 1 / 128 := by
    have : 2 * F.unit ≤ ((D : ℝ) + 2) * F.unit := mul_le_mul_of_nonneg_right (by linarith) hu0.le
    linarith
  have kD : (D : ℝ) * F.unit ≤ 1 / 64 := by
    have : (D : ℝ) * F.unit ≤ (D + 2) * F.unit := mul_le_mul_of_nonneg_right (by linarith) hu0.le
    linarith
  have hH2 : 0 < H ^ 2 := by positivity
  -- the relative error of the sum
  have hrel : |d - H ^ 2| ≤ 1 / 32 * H ^ 2 := by
    refine hd.trans ?_
    have h1 : F.unit * H ^ 2 ≤ 1 / 128 * H ^ 2 := mul_le_mul_of_nonneg_right k2 hH2.le
    have h2 : (D * F.unit) * H ^ 2 ≤ 1 / 64 * H ^ 2 := mul_le_mul_of_nonneg_right kD hH2.le
    linarith
  have hdpos : (15 / 16 * H) ^ 2 ≤ d := by
    have := (abs_le.1 hrel).1
    nlinarith
  have hd0 : 0 ≤ d := le_trans (sq_nonneg _) hdpos
  have hsq : 15 / 16 * H ≤ Real.sqrt d := Real.le_sqrt_of_sq_le hdpos
  have hroot : |Real.sqrt d - H| ≤ (1 + 5 / 4 * D) * (16 / 31) * (F.unit * H) := by
    have e : (Real.sqrt d - H) * (Real.sqrt d + H) = d - H ^ 2 := by
      have := Real.mul_self_sqrt hd0
      ring_nf; ring_nf at this; linarith
    have hpos : 0 < Real.sqrt d + H := by positivity
    have h1 : |Real.sqrt d - H| * (Real.sqrt d + H) = |d - H ^ 2| := by
      rw [← e, abs_mul, abs_of_pos hpos]
    have h2 : |Real.sqrt d - H| * (31 / 16 * H) ≤ |Real.sqrt d - H| * (Real.sqrt d + H) :=
      mul_le_mul_of_nonneg_left (by linarith) (abs_nonneg _)
    have h3 : |Real.sqrt d - H| * (31 / 16 * H) ≤ ((1 + 5 / 4 * D) * (16 / 31) * (F.unit * H)) * (31 / 16 * H) := by
      refine (h2.trans (h1.le.trans hd)).trans (le_of_eq ?_)
      ring
    exact le_of_mul_le_mul_right h3 (by positivity)
  have hlen : (length v).1 = F.rnd (Real.sqrt d) := by unfold length; rw [Fl.val_sqrt]
  rw [hlen]
  refine (F.err_of hroot (abs_of_pos hH0).le).trans ?_
  have k3 : F.unit * (F.unit * H) ≤ 1 / 128 * (F.unit * H) := mul_le_mul_of_nonneg_right k2 huH.le
  have k4 : (D * F.unit) * (F.unit * H) ≤ 1 / 64 * (F.unit * H) := mul_le_mul_of_nonneg_right kD huH.le
  have k5 : 0 ≤ D * (F.unit * H) := by positivity
  have ht1' : F.tiny ≤ 2 * (F.unit * (F.unit * H)) := by rw [← mul_assoc F.unit]; exact ht1
  have e : (1 + 5 / 4 * (D : ℝ)) * (16 / 31) * (F.unit * H) + F.unit * (H + (1 + 5 / 4 * D) * (16 / 31) * (F.unit * H)) + F.tiny
      = 16 / 31 * (F.unit * H) + 20 / 31 * (D * (F.unit * H)) + F.unit * H + 16 / 31 * (F.unit * (F.unit * H))
        + 20 / 31 * ((D * F.unit) * (F.unit * H)) + F.tiny := by ring
  have e2 : ((D : ℝ) + 2) * F.unit * H = D * (F.unit * H) + 2 * (F.unit * H) := by ring
  rw [e, e2]
  linarith

theorem norm_nonneg' {D : ℕ} (v : Vec ℝ D) : 0 ≤ Spec.norm v := Real.sqrt_nonneg _

theorem norm_eq_dist {D : ℕ} (v : Vec ℝ D) : Spec.norm v = Spec.dist v 0 := by
  unfold Spec.norm Spec.dist; simp

theorem norm_sub_norm {D : ℕ} (a b : Vec ℝ D) : |Spec.norm a - Spec.norm b| ≤ Spec.dist a b := by
  rw [norm_eq_dist, norm_eq_dist, abs_le]
  have h1 := dist_triangle' a b 0
  have h2 := dist_triangle' b a 0
  rw [dist_comm' b a] at h2
  constructor <;> linarith

theorem norm_mono {D : ℕ} {a b : Vec ℝ D} (h : ∀ i, |a i| ≤ b i) : Spec.norm a ≤ Spec.norm b := by
  unfold Spec.norm
  apply Real.sqrt_le_sqrt
  refine Finset.sum_le_sum fun i _ => ?_
  rw [← sq_abs (a i)]
  exact pow_le_pow_left₀ (abs_nonneg _) (h i) 2

theorem norm_smul' {D : ℕ} {c : ℝ} (hc : 0 ≤ c) (a : Vec ℝ D) : Spec.norm (fun i => c * a i) = c * Spec.norm a := by
  unfold Spec.norm
  rw [← Real.sqrt_sq hc, ← Real.sqrt_mul (sq_nonneg c), Finset.mul_sum, Real.sqrt_sq hc]
  simp only [mul_pow]

theorem norm_abs' {D : ℕ} (a : Vec ℝ D) : Spec.norm (fun i => |a i|) = Spec.norm a := by
  unfold Spec.norm; simp only [sq_abs]

theorem coord_le_norm {D : ℕ} (a : Vec ℝ D) (i : Fin D) : |a i| ≤ Spec.norm a := by
  unfold Spec.norm
  refine Real.le_sqrt_of_sq_le ?_
  rw [sq_abs]
  exact Finset.single_le_sum (f := fun i => a i ^ 2) (fun i _ => sq_nonneg _) (Finset.mem_univ i)

/-- Small relative and absolute errors of the coordinates. -/
theorem dist_of_rel {D : ℕ} {a b : Vec ℝ D} {e t : ℝ} (he : 0 ≤ e) (ht : 0 ≤ t) (h : ∀ i, |a i - b i| ≤ e * |b i| + t) :
    Spec.dist a b ≤ e * Spec.norm b + (D + 2) * t := by
  have h1 : Spec.dist a b = Spec.norm (fun i => a i - b i) := rfl
  rw [h1]
  refine (norm_mono h).trans ?_
  have h2 := norm_sub_norm (fun i => e * |b i| + t) (fun i => e * |b i|)
  have h3 : Spec.dist (fun i => e * |b i| + t) (fun i => e * |b i|) = Spec.norm (fun _ : Fin D => t) := by
    unfold Spec.dist Spec.norm; simp
  have h4 : Spec.norm (fun _ : Fin D => t) ≤ (D + 2) * t := by
    unfold Spec.norm
    rw [Finset.sum_const, Finset.card_univ, Fintype.card_fin, nsmul_eq_mul]
    apply Real.sqrt_le_iff.2 ⟨by positivity, ?_⟩
    have : (0 : ℝ) ≤ D := by positivity
    have ht2 : 0 ≤ t ^ 2 := sq_nonneg t
    rw [mul_pow]
    exact mul_le_mul_of_nonneg_right (by nlinarith) ht2
  have h5 : Spec.norm (fun i => e * |b i|) = e * Spec.norm b := by rw [norm_smul' he, norm_abs']
  have h6 := (abs_le.1 h2).2
  rw [h3, h5] at h6
  linarith
end Verif
