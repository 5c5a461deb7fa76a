import Verif.Props.FloatDistance
import Verif.Proofs.MeshNormals
import Verif.Proofs.FloatQuadratic
import Verif.Spec.Area

set_option linter.unusedSectionVars false

/-
Errors of computed cross products and unit normals.
-/
namespace Verif
open Spec

variable {F : FloatFormat}

/-- The product of two numbers that are right up to a relative error. -/
theorem mul_rel {x y : Fl F} {X Y : ℝ} (hu : F.unit ≤ 1 / 256) (hx : |x.1 - X| ≤ F.unit * |X|) (hy : |y.1 - Y| ≤ F.unit * |Y|) :
    |(x * y).1 - X * Y| ≤ 25 / 8 * F.unit * |X * Y| + F.tiny := by
  have hu0 := F.unit_pos
  have h1 : |x.1 * y.1 - X * Y| ≤ (2 * F.unit + F.unit * F.unit) * |X * Y| := by
    have e : x.1 * y.1 - X * Y = (x.1 - X) * Y + (x.1 - X) * (y.1 - Y) + X * (y.1 - Y) := by ring
    rw [e, abs_mul X Y]
    refine (abs_add_three _ _ _).trans ?_
    rw [abs_mul, abs_mul, abs_mul]
    have a1 := mul_le_mul_of_nonneg_right hx (abs_nonneg Y)
    have a2 := mul_le_mul hx hy (abs_nonneg _) (by positivity)
    have a3 := mul_le_mul_of_nonneg_left hy (abs_nonneg X)
    linarith
  refine (F.err_of h1 le_rfl).trans ?_
  have h2 : F.unit * F.unit * |X * Y| ≤ 1 / 256 * F.unit * |X * Y| :=
    mul_le_mul_of_nonneg_right (mul_le_mul_of_nonneg_right hu hu0.le) (abs_nonneg _)
  have h3 : F.unit * (F.unit * F.unit * |X * Y|) ≤ 1 / 256 * (F.unit * F.unit * |X * Y|) :=
    mul_le_mul_of_nonneg_right hu (by positivity)
  have h4 : 0 ≤ F.unit * |X * Y| := by positivity
  linarith

/-- A two by two determinant. -/
theorem det_rel {x y z w : Fl F} {X Y Z W : ℝ} (hu : F.unit ≤ 1 / 256) (hx : |x.1 - X| ≤ F.unit * |X|) (hy : |y.1 - Y| ≤ F.unit * |Y|)
    (hz : |z.1 - Z| ≤ F.unit * |Z|) (hw : |w.1 - W| ≤ F.unit * |W|) :
    |(x * y - z * w).1 - (X * Y - Z * W)| ≤ 17 / 4 * F.unit * (|X * Y| + |Z * W|) + 9 / 4 * F.tiny := by
  have hu0 := F.unit_pos
  have ht0 := F.tiny_nonneg
  have h1 := mul_rel hu hx hy
  have h2 := mul_rel hu hz hw
  have h3 := Fl.sub_rel (x * y) (z * w)
  have a1 := abs_le_of_close h1 le_rfl
  have a2 := abs_le_of_close h2 le_rfl
  set p := (x * y).1
  set q := (z * w).1
  set A := |X * Y|
  set B := |Z * W|
  have hA : 0 ≤ A := abs_nonneg _
  have hB : 0 ≤ B := abs_nonneg _
  have h4 : |p - q| ≤ |p| + |q| := abs_sub _ _
  have h5 : F.unit * |p - q| ≤ F.unit * ((A + (25 / 8 * F.unit * A + F.tiny)) + (B + (25 / 8 * F.unit * B + F.tiny))) :=
    mul_le_mul_of_nonneg_left (by linarith) hu0.le
  have h6 : |(x * y - z * w).1 - (X * Y - Z * W)| ≤ |(x * y - z * w).1 - (p - q)| + (|p - X * Y| + |q - Z * W|) := by
    rw [show (x * y - z * w).1 - (X * Y - Z * W) = ((x * y - z * w).1 - (p - q)) + ((p - X * Y) - (q - Z * W)) by ring]
    exact (abs_add_le _ _).trans (add_le_add_right (abs_sub _ _) _)
  have h7 : F.unit * (F.unit * (A + B)) ≤ 1 / 256 * (F.unit * (A + B)) := mul_le_mul_of_nonneg_right hu (by positivity)
  have h8 : F.unit * F.tiny ≤ 1 / 256 * F.tiny := mul_le_mul_of_nonneg_right hu ht0
  have h9 : 0 ≤ F.unit * (A + B) := by positivity
  linarith

theorem cross_abs_norm (e f : Vec ℝ 3) :
    Spec.norm (![|e 1 * f 2| + |e 2 * f 1|, |e 2 * f 0| + |e 0 * f 2|, |e 0 * f 1| + |e 1 * f 0|] : Vec ℝ 3) ≤ 3 / 2 * (Spec.norm e * Spec.norm f) := by
  have h0 : 0 ≤ Spec.norm e * Spec.norm f := mul_nonneg (norm_nonneg' _) (norm_nonneg' _)
  refine Real.sqrt_le_iff.2 ⟨by positivity, ?_⟩
  rw [mul_pow, mul_pow, norm_sq', norm_sq']
  simp only [Fin.sum_univ_three, Matrix.cons_val_zero, Matrix.cons_val_one, Matrix.cons_val]
  have k : ∀ a b : ℝ, (|a| + |b|) ^ 2 ≤ 2 * (a ^ 2 + b ^ 2) := by
    intro a b
    have := sq_nonneg (|a| - |b|)
    nlinarith [sq_abs a, sq_abs b]
  have k0 := k (e 1 * f 2) (e 2 * f 1)
  have k1 := k (e 2 * f 0) (e 0 * f 2)
  have k2 := k (e 0 * f 1) (e 1 * f 0)
  have p0 := sq_nonneg (e 0 * f 0)
  have p1 := sq_nonneg (e 1 * f 1)
  have p2 := sq_nonneg (e 2 * f 2)
  have p3 := sq_nonneg (e 1 * f 2)
  have p4 := sq_nonneg (e 2 * f 1)
  have p5 := sq_nonneg (e 2 * f 0)
  have p6 := sq_nonneg (e 0 * f 2)
  have p7 := sq_nonneg (e 0 * f 1)
  have p8 := sq_nonneg (e 1 * f 0)
  have e1 : (3 / 2 : ℝ) ^ 2 * ((e 0 ^ 2 + e 1 ^ 2 + e 2 ^ 2) * (f 0 ^ 2 + f 1 ^ 2 + f 2 ^ 2)) = 9 / 4 * ((e 0 * f 0) ^ 2 + (e 1 * f 1) ^ 2 + (e 2 * f 2) ^ 2
      + (e 1 * f 2) ^ 2 + (e 2 * f 1) ^ 2 + (e 2 * f 0) ^ 2 + (e 0 * f 2) ^ 2 + (e 0 * f 1) ^ 2 + (e 1 * f 0) ^ 2) := by ring
  rw [e1]
  linarith

/-- The computed cross product. -/
theorem cross_err (e' f' : Vec (Fl F) 3) (e f : Vec ℝ 3) (hu : F.unit ≤ 1 / 256) (he : ∀ i, |(e' i).1 - e i| ≤ F.unit * |e i|)
    (hf : ∀ i, |(f' i).1 - f i| ≤ F.unit * |f i|) :
    Spec.dist (Fl.vals (cross e' f')) (cross e f) ≤ 51 / 8 * F.unit * (Spec.norm e * Spec.norm f) + 45 / 4 * F.tiny := by
  have hu0 := F.unit_pos
  have ht0 := F.tiny_nonneg
  set c : Vec ℝ 3 := ![|e 1 * f 2| + |e 2 * f 1|, |e 2 * f 0| + |e 0 * f 2|, |e 0 * f 1| + |e 1 * f 0|] with hc
  have hc0 : ∀ i, 0 ≤ c i := by intro i; fin_cases i <;> simp [hc] <;> positivity
  have h : ∀ i, |(fun i => Fl.vals (cross e' f') i - cross e f i + c i) i - c i| ≤ 17 / 4 * F.unit * |c i| + 9 / 4 * F.tiny := by
    intro i
    simp only [add_sub_cancel_right]
    rw [abs_of_nonneg (hc0 i)]
    fin_cases i
    · exact det_rel hu (he 1) (hf 2) (he 2) (hf 1)
    · exact det_rel hu (he 2) (hf 0) (he 0) (hf 2)
    · exact det_rel hu (he 0) (hf 1) (he 1) (hf 0)
  have h1 := dist_of_rel (by positivity) (by positivity) h
  have h2 : Spec.dist (fun i => Fl.vals (cross e' f') i - cross e f i + c i) c = Spec.dist (Fl.vals (cross e' f')) (cross e f) := by
    unfold Spec.dist; simp
  rw [h2] at h1
  have h3 := cross_abs_norm e f
  rw [← hc] at h3
  have h4 := mul_le_mul_of_nonneg_left h3 (show 0 ≤ 17 / 4 * F.unit by positivity)
  push_cast at h1
  linarith

/-- The directions of vectors that are close to each other. -/
theorem unit_diff {D : ℕ} {w w' : Vec ℝ D} (h : 0 < Spec.norm w) (h' : 0 < Spec.norm w') :
    Spec.dist (fun i => w' i / Spec.norm w') (fun i => w i / Spec.norm w) ≤ 2 * Spec.dist w' w / Spec.norm w := by
  set N := Spec.norm w
  set N' := Spec.norm w'
  have e : Spec.dist (fun i => w' i / N') (fun i => w i / N) = Spec.norm (fun i => (N⁻¹ * (w' i - w i)) + ((N - N') / (N * N')) * w' i) := by
    unfold Spec.dist Spec.norm
    congr 1
    refine Finset.sum_congr rfl fun i _ => ?_
    congr 1
    field_simp
    ring
  rw [e]
  refine (norm_add_le' _ _).trans ?_
  rw [norm_smul' (by positivity)]
  have h1 : Spec.norm (fun i => ((N - N') / (N * N')) * w' i) = |N - N'| / N := by
    rw [← norm_abs']
    have : (fun i => |((N - N') / (N * N')) * w' i|) = fun i => |(N - N') / (N * N')| * |w' i| := by funext i; rw [abs_mul]
    rw [this, norm_smul' (abs_nonneg _), norm_abs', abs_div, abs_of_pos (mul_pos h h')]
    change _ * N' = _
    field_simp
  rw [h1]
  have h2 : |N - N'| ≤ Spec.dist w' w := by
    rw [abs_sub_comm]; exact norm_sub_norm w' w
  have h3 : Spec.norm (fun i => w' i - w i) = Spec.dist w' w := rfl
  rw [h3, inv_mul_eq_div, ← add_div, div_le_div_iff_of_pos_right h]
  linarith
end Verif
