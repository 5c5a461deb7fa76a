import Verif.Proofs.FloatLength
import Verif.Props.FloatSphere

set_option linter.unusedSectionVars false

/-
C95: lengths and directions of segments in floating point.
-/
namespace Verif
open Spec

section
variable {F : FloatFormat} {D : ℕ}

/-- What the underflow condition amounts to. -/
theorem tiny_of_length {H : ℝ} (hH : 0 < H)
    (hsmall : ∀ k, F.emin = some k → k ≤ -2 * (F.prec : ℤ) ∧ (2 : ℝ) ^ ((k + 1) / 2) ≤ (2 : ℝ)⁻¹ ^ F.prec * H) :
    F.tiny ≤ F.unit * F.unit ∧ F.tiny ≤ F.unit * F.unit * H ∧ F.tiny ≤ F.unit * F.unit * H ^ 2 := by
  have hu0 := F.unit_pos
  unfold FloatFormat.tiny
  split
  · exact ⟨by positivity, by positivity, by positivity⟩
  · next k hk =>
    obtain ⟨h1, h2⟩ := hsmall k hk
    have hs : (2 : ℝ) ^ ((k + 1) / 2) ≤ F.unit := by
      unfold FloatFormat.unit
      rw [inv_pow, ← zpow_natCast, ← zpow_neg]
      exact zpow_le_zpow_right₀ (by norm_num) (by omega)
    have hk2 : (2 : ℝ) ^ k ≤ 2 ^ ((k + 1) / 2) * 2 ^ ((k + 1) / 2) := by
      rw [← zpow_add₀ (by norm_num)]
      exact zpow_le_zpow_right₀ (by norm_num) (by omega)
    have h0 := two_zpow_pos ((k + 1) / 2)
    refine ⟨hk2.trans (mul_le_mul hs hs h0.le hu0.le), ?_, ?_⟩
    · rw [mul_assoc]
      exact hk2.trans (mul_le_mul hs h2 h0.le hu0.le)
    · refine hk2.trans ((mul_le_mul h2 h2 h0.le (by positivity)).trans (le_of_eq ?_))
      show F.unit * H * (F.unit * H) = _
      ring

theorem dim_unit (hD : 64 * (D + 2) ≤ 2 ^ F.prec) : ((D : ℝ) + 2) * F.unit ≤ 1 / 64 ∧ F.unit ≤ 1 / 128 := by
  have hu0 := F.unit_pos
  have h1 : (64 : ℝ) * (D + 2) * F.unit ≤ 1 := by
    unfold FloatFormat.unit
    rw [inv_pow, ← div_eq_mul_inv, div_le_one (by positivity)]
    exact_mod_cast hD
  have hD0 : (0 : ℝ) ≤ D := by positivity
  have : 2 * F.unit ≤ ((D : ℝ) + 2) * F.unit := mul_le_mul_of_nonneg_right (by linarith) hu0.le
  constructor <;> linarith

/-- The computed difference of two points. -/
theorem vsub_err (s : Segment (Fl F) D) (i : Fin D) :
    |(vsub s.target s.source i).1 - ((s.target i).1 - (s.source i).1)| ≤ F.unit * |(s.target i).1 - (s.source i).1| + F.tiny :=
  F.err _

theorem norm_vsub (s : Segment (Fl F) D) {H : ℝ} (hH : H = Spec.dist (Fl.vals s.target) (Fl.vals s.source))
    (ht : F.tiny ≤ F.unit * F.unit * H) (hDu : ((D : ℝ) + 2) * F.unit ≤ 1 / 64) (hH0 : 0 < H) :
    |Spec.norm (Fl.vals (vsub s.target s.source)) - H| ≤ 65 / 64 * (F.unit * H) := by
  have hu0 := F.unit_pos
  have h1 := norm_sub_norm (Fl.vals (vsub s.target s.source)) (fun i => (s.target i).1 - (s.source i).1)
  have h2 := dist_of_rel (a := Fl.vals (vsub s.target s.source)) (b := fun i => (s.target i).1 - (s.source i).1) hu0.le F.tiny_nonneg
    (vsub_err s)
  have h3 : Spec.norm (fun i => (s.target i).1 - (s.source i).1) = H := hH.symm
  rw [h3] at h1 h2
  refine h1.trans (h2.trans ?_)
  have h4 : ((D : ℝ) + 2) * F.tiny ≤ (D + 2) * (F.unit * F.unit * H) := mul_le_mul_of_nonneg_left ht (by positivity)
  have h5 : ((D : ℝ) + 2) * (F.unit * F.unit * H) = ((D + 2) * F.unit) * (F.unit * H) := by ring
  have h6 : ((D : ℝ) + 2) * F.unit * (F.unit * H) ≤ 1 / 64 * (F.unit * H) := mul_le_mul_of_nonneg_right hDu (by positivity)
  linarith

theorem dist_pos_ne {a b : Vec ℝ D} (h : 0 < Spec.dist a b) : a ≠ b := by
  rintro rfl
  simp [Spec.dist] at h

/-- What is known about a segment: difference vector and length. -/
theorem segment_errs (s : Segment (Fl F) D) (hD : 64 * (D + 2) ≤ 2 ^ F.prec) {H : ℝ}
    (hH : H = Spec.dist (Fl.vals s.target) (Fl.vals s.source)) (hH0 : 0 < H)
    (hsmall : ∀ k, F.emin = some k → k ≤ -2 * (F.prec : ℤ) ∧ (2 : ℝ) ^ ((k + 1) / 2) ≤ (2 : ℝ)⁻¹ ^ F.prec * H) :
    |s.length.1 - Spec.norm (Fl.vals (vsub s.target s.source))| ≤ (D + 2) * F.unit * Spec.norm (Fl.vals (vsub s.target s.source)) ∧
      |Spec.norm (Fl.vals (vsub s.target s.source)) - H| ≤ 65 / 64 * (F.unit * H) ∧
      |s.length.1 - H| ≤ (D + 4) * F.unit * H := by
  have hu0 := F.unit_pos
  obtain ⟨_, ht1, ht2⟩ := tiny_of_length hH0 hsmall
  obtain ⟨hDu, hu⟩ := dim_unit (F := F) hD
  have hN := norm_vsub s hH ht1 hDu hH0
  set N := Spec.norm (Fl.vals (vsub s.target s.source)) with hNdef
  have huH : 0 < F.unit * H := mul_pos hu0 hH0
  have hNl : 63 / 64 * H ≤ N := by
    have := (abs_le.1 hN).1
    have h1 : F.unit * H ≤ 1 / 128 * H := mul_le_mul_of_nonneg_right hu hH0.le
    linarith
  have hN0 : 0 < N := by linarith
  have huu : 0 < F.unit * F.unit := by positivity
  have hL := length_err (vsub s.target s.source) hNdef.symm hN0 (by
    have h1 : H ^ 2 ≤ 2 * N ^ 2 := by nlinarith
    have := mul_le_mul_of_nonneg_left h1 huu.le
    linarith) (by
    have := mul_le_mul_of_nonneg_left hNl huu.le
    have h3 : 0 < F.unit * F.unit * N := by positivity
    linarith) hDu
  refine ⟨hL, hN, ?_⟩
  have hNu : N ≤ 65 / 64 * H := by
    have := (abs_le.1 hN).2
    have h1 : F.unit * H ≤ 1 / 128 * H := mul_le_mul_of_nonneg_right hu hH0.le
    linarith
  have h7 : ((D : ℝ) + 2) * F.unit * N ≤ (D + 2) * F.unit * H + 65 / 64 * ((D + 2) * F.unit * (F.unit * H)) := by
    have h8 : N ≤ H + 65 / 64 * (F.unit * H) := by have := (abs_le.1 hN).2; linarith
    have := mul_le_mul_of_nonneg_left h8 (show 0 ≤ ((D : ℝ) + 2) * F.unit by positivity)
    linarith
  have h9 : ((D : ℝ) + 2) * F.unit * (F.unit * H) ≤ 1 / 64 * (F.unit * H) := mul_le_mul_of_nonneg_right hDu huH.le
  have h10 : |s.length.1 - H| ≤ |s.length.1 - N| + |N - H| := by
    rw [show s.length.1 - H = (s.length.1 - N) + (N - H) by ring]; exact abs_add_le _ _
  have h11 : ((D : ℝ) + 4) * F.unit * H = (D + 2) * F.unit * H + 2 * (F.unit * H) := by ring
  have hL' : |s.length.1 - N| ≤ (D + 2) * F.unit * N := hL
  rw [h11]
  linarith

/-- **C95** The computed length of a segment is the distance of its end points with a relative error of at most `(D + 4) · 2^-prec`, in
every dimension, provided that the length is not so small that squares underflow. -/
theorem C95_length (s : Segment (Fl F) D) (hD : 64 * (D + 2) ≤ 2 ^ F.prec)
    (hH0 : 0 < Spec.dist (fun i => (s.target i).1) (fun i => (s.source i).1))
    (hsmall : ∀ k, F.emin = some k → k ≤ -2 * (F.prec : ℤ) ∧
      (2 : ℝ) ^ ((k + 1) / 2) ≤ (2 : ℝ)⁻¹ ^ F.prec * Spec.dist (fun i => (s.target i).1) (fun i => (s.source i).1)) :
    |s.length.1 - Spec.dist (fun i => (s.target i).1) (fun i => (s.source i).1)|
      ≤ (D + 4) * (2 : ℝ)⁻¹ ^ F.prec * Spec.dist (fun i => (s.target i).1) (fun i => (s.source i).1) :=
  (segment_errs s hD rfl hH0 hsmall).2.2

/-- **C95** The computed direction is the unit vector from source to target with an error of at most `(2 D + 7) · 2^-prec` in each
coordinate, and its computed length differs from one by at most `(3 D + 7) · 2^-prec` (what `ConeMeshBuilder` asserts). -/
theorem C95_direction (s : Segment (Fl F) D) (hD : 64 * (D + 2) ≤ 2 ^ F.prec)
    (hH0 : 0 < Spec.dist (fun i => (s.target i).1) (fun i => (s.source i).1))
    (hsmall : ∀ k, F.emin = some k → k ≤ -2 * (F.prec : ℤ) ∧
      (2 : ℝ) ^ ((k + 1) / 2) ≤ (2 : ℝ)⁻¹ ^ F.prec * Spec.dist (fun i => (s.target i).1) (fun i => (s.source i).1)) :
    (∀ i, |(s.direction i).1 - ((s.target i).1 - (s.source i).1) / Spec.dist (fun i => (s.target i).1) (fun i => (s.source i).1)|
      ≤ (2 * D + 7) * (2 : ℝ)⁻¹ ^ F.prec) ∧
    |(length s.direction).1 - 1| ≤ (3 * D + 7) * (2 : ℝ)⁻¹ ^ F.prec := by
  obtain ⟨hL, hN, hS⟩ := segment_errs s hD rfl hH0 hsmall
  change 0 < Spec.dist (Fl.vals s.target) (Fl.vals s.source) at hH0
  set H := Spec.dist (Fl.vals s.target) (Fl.vals s.source) with hH
  obtain ⟨ht0, ht1, _⟩ := tiny_of_length hH0 hsmall
  obtain ⟨hDu, hu⟩ := dim_unit (F := F) hD
  have hu0 := F.unit_pos
  have hD0 : (0 : ℝ) ≤ D := by positivity
  set N := Spec.norm (Fl.vals (vsub s.target s.source)) with hNdef
  set l := s.length.1 with hl
  have huH : 0 < F.unit * H := mul_pos hu0 hH0
  have hN0 : 0 < N := by
    have := (abs_le.1 hN).1
    have h1 : F.unit * H ≤ 1 / 128 * H := mul_le_mul_of_nonneg_right hu hH0.le
    linarith
  have hlN : 63 / 64 * N ≤ l := by
    have h1 := (abs_le.1 hL).1
    have h2 : ((D : ℝ) + 2) * F.unit * N ≤ 1 / 64 * N := mul_le_mul_of_nonneg_right hDu hN0.le
    linarith
  have hlH : 31 / 32 * H ≤ l := by
    have h1 := (abs_le.1 hS).1
    have h2 : ((D : ℝ) + 2) * F.unit * H ≤ 1 / 64 * H := mul_le_mul_of_nonneg_right hDu hH0.le
    have h3 : F.unit * H ≤ 1 / 128 * H := mul_le_mul_of_nonneg_right hu hH0.le
    have h4 : ((D : ℝ) + 4) * F.unit * H = (D + 2) * F.unit * H + 2 * (F.unit * H) := by ring
    linarith
  have hl0 : 0 < l := by linarith
  have hdir : ∀ i, (s.direction i).1 = F.rnd ((vsub s.target s.source i).1 / l) := fun i => rfl
  have huu : F.unit * F.unit ≤ 1 / 128 * F.unit := mul_le_mul_of_nonneg_right hu hu0.le
  constructor
  · intro i
    show |(s.direction i).1 - ((s.target i).1 - (s.source i).1) / H| ≤ (2 * D + 7) * F.unit
    have hd := vsub_err s i
    rw [hdir]
    set d := (vsub s.target s.source i).1 with hdd
    set x := (s.target i).1 - (s.source i).1 with hx
    have hxH : |x| ≤ H := coord_le_norm (fun i => (s.target i).1 - (s.source i).1) i
    have hq : |d / l - x / H| ≤ ((D + 5) * F.unit + F.unit * F.unit) * (32 / 31) := by
      have e : d / l - x / H = ((d - x) * H - x * (l - H)) / (l * H) := by field_simp; ring
      rw [e, abs_div, abs_of_pos (mul_pos hl0 hH0), div_le_iff₀ (mul_pos hl0 hH0)]
      have h1 : |(d - x) * H - x * (l - H)| ≤ (F.unit * |x| + F.tiny) * H + |x| * ((D + 4) * F.unit * H) := by
        refine (abs_sub _ _).trans ?_
        rw [abs_mul, abs_mul, abs_of_pos hH0]
        exact add_le_add (mul_le_mul_of_nonneg_right hd hH0.le) (mul_le_mul_of_nonneg_left hS (abs_nonneg _))
      refine h1.trans ?_
      have h2 : (F.unit * |x| + F.tiny) * H + |x| * ((D + 4) * F.unit * H) ≤ ((D + 5) * F.unit + F.unit * F.unit) * (H * H) := by
        have h3 : |x| * (((D : ℝ) + 5) * F.unit * H) ≤ H * ((D + 5) * F.unit * H) := mul_le_mul_of_nonneg_right hxH (by positivity)
        have h4 : F.tiny * H ≤ F.unit * F.unit * H * H := mul_le_mul_of_nonneg_right ht1 hH0.le
        linarith
      refine h2.trans ?_
      have h5 : H * H ≤ 32 / 31 * (l * H) := by
        have := mul_le_mul_of_nonneg_right hlH hH0.le
        linarith
      calc ((D + 5) * F.unit + F.unit * F.unit) * (H * H) ≤ ((D + 5) * F.unit + F.unit * F.unit) * (32 / 31 * (l * H)) :=
            mul_le_mul_of_nonneg_left h5 (by positivity)
        _ = _ := by ring
    have hX : |x / H| ≤ 1 := by
      rw [abs_div, abs_of_pos hH0, div_le_one hH0]; exact hxH
    refine (F.err_of hq hX).trans ?_
    have h6 : ((D : ℝ) + 2) * F.unit * F.unit ≤ 1 / 64 * F.unit := mul_le_mul_of_nonneg_right hDu hu0.le
    have h7 : F.unit * (F.unit * F.unit) ≤ 1 / 128 * (1 / 128 * F.unit) := mul_le_mul hu huu (by positivity) (by norm_num)
    have h8 : 0 ≤ (D : ℝ) * F.unit := by positivity
    have e : ((D + 5) * F.unit + F.unit * F.unit) * (32 / 31) + F.unit * (1 + ((D + 5) * F.unit + F.unit * F.unit) * (32 / 31)) + F.tiny
        = 32 / 31 * (D * F.unit) + 160 / 31 * F.unit + 32 / 31 * (F.unit * F.unit) + F.unit + 32 / 31 * ((D + 2) * F.unit * F.unit)
          + 96 / 31 * (F.unit * F.unit) + 32 / 31 * (F.unit * (F.unit * F.unit)) + F.tiny := by ring
    have e2 : (2 * (D : ℝ) + 7) * F.unit = 2 * (D * F.unit) + 7 * F.unit := by ring
    rw [e, e2]
    linarith
  · show |(length s.direction).1 - 1| ≤ (3 * D + 7) * F.unit
    set q : Vec ℝ D := fun i => l⁻¹ * (vsub s.target s.source i).1 with hq
    have hqn : Spec.norm q = l⁻¹ * N := norm_smul' (by positivity) (Fl.vals (vsub s.target s.source))
    have hq1 : |Spec.norm q - 1| ≤ 64 / 63 * ((D + 2) * F.unit) := by
      have e : Spec.norm q - 1 = -(l - N) / l := by rw [hqn]; field_simp; ring
      rw [e, abs_div, abs_neg, abs_of_pos hl0, div_le_iff₀ hl0]
      refine hL.trans ?_
      have := mul_le_mul_of_nonneg_left hlN (show 0 ≤ 64 / 63 * (((D : ℝ) + 2) * F.unit) by positivity)
      linarith
    have hrel : ∀ i, |Fl.vals s.direction i - q i| ≤ F.unit * |q i| + F.tiny := by
      intro i
      show |(s.direction i).1 - _| ≤ _
      rw [hdir, show q i = (vsub s.target s.source i).1 / l by rw [hq]; ring]
      exact F.err _
    have hdq := dist_of_rel hu0.le F.tiny_nonneg hrel
    have h1 := norm_sub_norm (Fl.vals s.direction) q
    have hDt : ((D : ℝ) + 2) * F.tiny ≤ 1 / 64 * F.unit := by
      calc ((D : ℝ) + 2) * F.tiny ≤ (D + 2) * (F.unit * F.unit) := mul_le_mul_of_nonneg_left ht0 (by positivity)
        _ = ((D + 2) * F.unit) * F.unit := by ring
        _ ≤ _ := mul_le_mul_of_nonneg_right hDu hu0.le
    have hqu : Spec.norm q ≤ 65 / 64 + 1 / 63 := by
      have := (abs_le.1 hq1).2
      linarith
    have hquu : F.unit * Spec.norm q ≤ F.unit * (65 / 64 + 1 / 63) := mul_le_mul_of_nonneg_left hqu hu0.le
    set m := Spec.norm (Fl.vals s.direction) with hm
    have hm1 : |m - 1| ≤ 64 / 63 * ((D + 2) * F.unit) + 68 / 64 * F.unit := by
      have h3 : |m - 1| ≤ |m - Spec.norm q| + |Spec.norm q - 1| := by
        rw [show m - 1 = (m - Spec.norm q) + (Spec.norm q - 1) by ring]; exact abs_add_le _ _
      linarith
    have hml : 31 / 32 ≤ m := by have := (abs_le.1 hm1).1; linarith
    have hmu : m ≤ 33 / 32 := by have := (abs_le.1 hm1).2; linarith
    have hlen := length_err s.direction hm.symm (by linarith) (by
      have : (1 : ℝ) ≤ 2 * m ^ 2 := by nlinarith
      have := mul_le_mul_of_nonneg_left this (show 0 ≤ F.unit * F.unit by positivity)
      linarith) (by
      have := mul_le_mul_of_nonneg_left hml (show 0 ≤ F.unit * F.unit by positivity)
      have h0 : 0 ≤ F.unit * F.unit * m := by positivity
      linarith) hDu
    have h4 : ((D : ℝ) + 2) * F.unit * m ≤ (D + 2) * F.unit * (33 / 32) := mul_le_mul_of_nonneg_left hmu (by positivity)
    have h5 : |(length s.direction).1 - 1| ≤ |(length s.direction).1 - m| + |m - 1| := by
      rw [show (length s.direction).1 - 1 = ((length s.direction).1 - m) + (m - 1) by ring]; exact abs_add_le _ _
    have h8 : 0 ≤ (D : ℝ) * F.unit := by positivity
    have e3 : ((D : ℝ) + 2) * F.unit = D * F.unit + 2 * F.unit := by ring
    have e4 : (3 * (D : ℝ) + 7) * F.unit = 3 * (D * F.unit) + 7 * F.unit := by ring
    rw [e3] at h4 hm1
    rw [e3] at hlen
    rw [e4]
    linarith
end

/-! ### Concrete cases -/
section Examples

/-- From (1, 2, 3) to (4, 6, 3), length 5, in `double`. -/
example : |(⟨![fl64 1, fl64 2, fl64 3], ![fl64 4, fl64 6, fl64 3]⟩ : Segment (Fl binary64) 3).length.1 - 5| ≤ 1 / 10 ^ 14 ∧
    |((⟨![fl64 1, fl64 2, fl64 3], ![fl64 4, fl64 6, fl64 3]⟩ : Segment (Fl binary64) 3).direction 1).1 - 4 / 5| ≤ 1 / 10 ^ 14 := by
  have hd : Spec.dist (fun i => ((⟨![fl64 1, fl64 2, fl64 3], ![fl64 4, fl64 6, fl64 3]⟩ : Segment (Fl binary64) 3).target i).1)
      (fun i => ((⟨![fl64 1, fl64 2, fl64 3], ![fl64 4, fl64 6, fl64 3]⟩ : Segment (Fl binary64) 3).source i).1) = 5 := by
    unfold Spec.dist
    rw [Fin.sum_univ_three]
    show Real.sqrt ((((4 : ℤ) : ℝ) - ((1 : ℤ) : ℝ)) ^ 2 + (((6 : ℤ) : ℝ) - ((2 : ℤ) : ℝ)) ^ 2 + (((3 : ℤ) : ℝ) - ((3 : ℤ) : ℝ)) ^ 2) = 5
    rw [show (((4 : ℤ) : ℝ) - ((1 : ℤ) : ℝ)) ^ 2 + (((6 : ℤ) : ℝ) - ((2 : ℤ) : ℝ)) ^ 2 + (((3 : ℤ) : ℝ) - ((3 : ℤ) : ℝ)) ^ 2 = 5 ^ 2 by
      push_cast; norm_num]
    exact Real.sqrt_sq (by norm_num)
  have h1 := C95_length (⟨![fl64 1, fl64 2, fl64 3], ![fl64 4, fl64 6, fl64 3]⟩ : Segment (Fl binary64) 3)
    (by show 64 * (3 + 2) ≤ 2 ^ 53; norm_num) (by rw [hd]; norm_num) (by rw [hd]; exact small64 (by norm_num))
  have h2 := (C95_direction (⟨![fl64 1, fl64 2, fl64 3], ![fl64 4, fl64 6, fl64 3]⟩ : Segment (Fl binary64) 3)
    (by show 64 * (3 + 2) ≤ 2 ^ 53; norm_num) (by rw [hd]; norm_num) (by rw [hd]; exact small64 (by norm_num))).1 1
  rw [hd] at h1 h2
  constructor
  · refine h1.trans ?_
    show (((3 : ℕ) : ℝ) + 4) * (2 : ℝ)⁻¹ ^ 53 * 5 ≤ 1 / 10 ^ 14
    norm_num
  · have e : ((((6 : ℤ) : ℝ) - ((2 : ℤ) : ℝ)) / 5) = 4 / 5 := by push_cast; norm_num
    rw [← e]
    refine h2.trans ?_
    show (2 * ((3 : ℕ) : ℝ) + 7) * (2 : ℝ)⁻¹ ^ 53 ≤ 1 / 10 ^ 14
    norm_num
end Examples
end Verif
