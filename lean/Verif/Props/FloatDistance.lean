import Verif.Proofs.FloatVec
import Verif.Proofs.FloatKdTree
import Verif.Props.Distance
import Verif.Props.FloatSegment
import Verif.Props.FloatSolid

set_option linter.unusedSectionVars false

/-
C104: distances between points and lines, rays, planes and spheres in floating point.
-/
namespace Verif
open Spec

section
variable {F : FloatFormat} {D : ℕ}

theorem tiny_of_emin (h : ∀ k, F.emin = some k → k ≤ -2 * (F.prec : ℤ)) : F.tiny ≤ F.unit * F.unit := by
  have hu0 := F.unit_pos
  unfold FloatFormat.tiny
  split
  · positivity
  · next k hk =>
    have h1 := h k hk
    unfold FloatFormat.unit
    rw [inv_pow, ← zpow_natCast, ← zpow_neg, ← zpow_add₀ (by norm_num)]
    exact zpow_le_zpow_right₀ (by norm_num) (by omega)

theorem root_le {ω : ℝ} (hω : 0 ≤ ω) (h : ∀ k, F.emin = some k → 2 * (D + 2) * (2 : ℝ) ^ k ≤ ω ^ 2) : F.root D ≤ ω := by
  unfold FloatFormat.root
  apply Real.sqrt_le_iff.2 ⟨hω, ?_⟩
  unfold FloatFormat.tiny
  split
  · rw [mul_zero, mul_zero]; positivity
  · next k hk => have := h k hk; linarith

/-! ### Exact distances -/

theorem vals_ne_zero {d : Vec ℝ D} (h : 0 < Spec.norm d) : d ≠ 0 := by
  rintro rfl
  simp [Spec.norm] at h

theorem dp_self_norm (d : Vec ℝ D) : d ⬝ᵥ d = Spec.norm d ^ 2 := by
  rw [norm_sq']; exact Finset.sum_congr rfl fun i _ => (pow_two _).symm

/-- The distance to a line, with the vector from the point to the origin. -/
theorem line_distance (v o d : Vec ℝ D) (hd : 0 < Spec.norm d) :
    Spec.IsDistance {v} (Spec.line o d)
      (Spec.norm (fun i => (o i - v i) - (∑ j, (o j - v j) * d j) / Spec.norm d ^ 2 * d i)) := by
  have h := distVecLine_spec v o (vals_ne_zero hd)
  have e : distVecLine v ⟨o, d⟩ = Spec.norm (fun i => (o i - v i) - (∑ j, (o j - v j) * d j) / Spec.norm d ^ 2 * d i) := by
    rw [spec_norm_eq, distVecLine, rejection_eq, dp_self_norm]
    rfl
  rwa [e] at h

theorem ray_distance_front (v o d : Vec ℝ D) (hd : 0 < Spec.norm d) (h : 0 ≤ ∑ j, (v j - o j) * d j) :
    Spec.IsDistance {v} (Spec.ray o d)
      (Spec.norm (fun i => (v i - o i) - (∑ j, (v j - o j) * d j) / Spec.norm d ^ 2 * d i)) := by
  have hn0 := vals_ne_zero hd
  have h' : 0 ≤ (v - o) ⬝ᵥ d := h
  have e1 : Spec.norm (fun i => (v i - o i) - (∑ j, (v j - o j) * d j) / Spec.norm d ^ 2 * d i)
      = Spec.dist v (Spec.pointAt o d ((v - o) ⬝ᵥ d / (d ⬝ᵥ d))) := by
    unfold Spec.norm Spec.dist Spec.pointAt
    congr 1
    refine Finset.sum_congr rfl fun i _ => ?_
    rw [dp_self_norm]
    show (v i - o i - ((v - o) ⬝ᵥ d) / Spec.norm d ^ 2 * d i) ^ 2 = _
    ring
  rw [e1]
  refine IsDistance_intro rfl ⟨_, div_nonneg h' (dp_self_nonneg d), rfl⟩ ?_
  rintro p rfl q ⟨t, -, rfl⟩
  rw [pointAt_eq, pointAt_eq, ← sub_sub, ← sub_sub, sq_line (p - o) hn0 t]
  have : 0 ≤ (t - (p - o) ⬝ᵥ d / (d ⬝ᵥ d)) ^ 2 * (d ⬝ᵥ d) := mul_nonneg (sq_nonneg _) (dp_self_nonneg d)
  linarith

theorem ray_distance_back (v o d : Vec ℝ D) (h : ∑ j, (v j - o j) * d j ≤ 0) :
    Spec.IsDistance {v} (Spec.ray o d) (Spec.dist v o) := by
  have hz : Spec.pointAt o d 0 = o := by rw [pointAt_eq]; simp
  have h' : (v - o) ⬝ᵥ d ≤ 0 := h
  refine IsDistance_intro rfl ⟨0, le_refl _, hz.symm⟩ ?_
  rintro p rfl q ⟨t, ht, rfl⟩
  rw [pointAt_eq, ← sub_sub, dp_sub_self (p - o), dotProduct_smul, dp_smul_self, smul_eq_mul]
  have := mul_nonneg ht (neg_nonneg.2 h')
  have := mul_nonneg (sq_nonneg t) (dp_self_nonneg d)
  linarith

/-- Leaving out the part along `d` shortens a vector by at most that part. -/
theorem norm_sub_rejection_le (w d : Vec ℝ D) (hd : 0 < Spec.norm d) :
    Spec.norm w ≤ Spec.norm (fun i => w i - (∑ j, w j * d j) / Spec.norm d ^ 2 * d i) + |∑ j, w j * d j| / Spec.norm d := by
  have h := norm_rejection w d hd
  set R := Spec.norm (fun i => w i - (∑ j, w j * d j) / Spec.norm d ^ 2 * d i)
  have hR : 0 ≤ R := norm_nonneg' _
  have hx : 0 ≤ |∑ j, w j * d j| / Spec.norm d := by positivity
  have e : ((∑ j, w j * d j) / Spec.norm d) ^ 2 = (|∑ j, w j * d j| / Spec.norm d) ^ 2 := by rw [div_pow, div_pow, sq_abs]
  rw [e] at h
  refine abs_le_of_sq_le_sq' ?_ (by positivity) |>.2
  nlinarith [mul_nonneg hR hx]

theorem rejection_le_norm (w d : Vec ℝ D) (hd : 0 < Spec.norm d) :
    Spec.norm (fun i => w i - (∑ j, w j * d j) / Spec.norm d ^ 2 * d i) ≤ Spec.norm w := by
  have h := norm_rejection w d hd
  refine abs_le_of_sq_le_sq' ?_ (norm_nonneg' _) |>.2
  linarith [sq_nonneg ((∑ j, w j * d j) / Spec.norm d)]

/-! ### C104 -/

/-- **C104** The computed distance of a point and a line (with the direction stored in it) differs from the smallest distance to a point of
the line by at most `8 (D + 2) 2^-prec` times the distance of the point to the origin of the line, plus three times `ω`, the square root of
the smallest positive number (up to the factor `2 (D + 2)`). No operand need be large: the point may lie on the line. -/
theorem C104_point_line (v : Vec (Fl F) D) (l : Line (Fl F) D) (hD : 64 * (D + 2) ≤ 2 ^ F.prec)
    (hmin : ∀ k, F.emin = some k → k ≤ -2 * (F.prec : ℤ))
    (hd1 : 1 / 2 ≤ Spec.norm (fun i => (l.direction i).1)) (hd2 : Spec.norm (fun i => (l.direction i).1) ≤ 2)
    {ω : ℝ} (hω : 0 ≤ ω) (hω2 : ∀ k, F.emin = some k → 2 * (D + 2) * (2 : ℝ) ^ k ≤ ω ^ 2) :
    ∃ δ, Spec.IsDistance {fun i => (v i).1} (Spec.line (fun i => (l.origin i).1) (fun i => (l.direction i).1)) δ ∧
      |(distVecLine v l).1 - δ| ≤ 8 * (D + 2) * (2 : ℝ)⁻¹ ^ F.prec * Spec.dist (fun i => (v i).1) (fun i => (l.origin i).1) + 3 * ω := by
  have ht := tiny_of_emin hmin
  refine ⟨_, line_distance _ _ _ (by linarith), ?_⟩
  have h := rejection_length_err (vsub l.origin v) l.direction (fun i => (l.origin i).1 - (v i).1)
    (fun i => Fl.sub_rel _ _) hD ht hd1 hd2
  refine h.trans ?_
  have e : Spec.norm (fun i => (l.origin i).1 - (v i).1) = Spec.dist (fun i => (v i).1) (fun i => (l.origin i).1) := dist_comm' _ _
  rw [e]
  have := root_le hω hω2
  have e2 : 8 * (((D : ℝ) + 2) * F.unit * Spec.dist (fun i => (v i).1) (fun i => (l.origin i).1))
      = 8 * (D + 2) * (2 : ℝ)⁻¹ ^ F.prec * Spec.dist (fun i => (v i).1) (fun i => (l.origin i).1) := by
    unfold FloatFormat.unit; ring
  rw [e2]
  linarith

/-- **C104** The same for a ray, with the constant 10; where the ray starts the tolerance `τ` of the comparison is added. -/
theorem C104_point_ray [Tol (Fl F)] (v : Vec (Fl F) D) (r : Ray (Fl F) D) (hD : 64 * (D + 2) ≤ 2 ^ F.prec)
    (hmin : ∀ k, F.emin = some k → k ≤ -2 * (F.prec : ℤ))
    (hd1 : 1 / 2 ≤ Spec.norm (fun i => (r.direction i).1)) (hd2 : Spec.norm (fun i => (r.direction i).1) ≤ 2)
    {τ : ℝ} (hτ : 0 ≤ τ) (hgt : ∀ x : Fl F, isGreater x 0 = true → 0 ≤ x.1) (hle : ∀ x : Fl F, isGreater x 0 = false → x.1 ≤ τ)
    {ω : ℝ} (hω : 0 ≤ ω) (hω2 : ∀ k, F.emin = some k → 2 * (D + 2) * (2 : ℝ) ^ k ≤ ω ^ 2) :
    ∃ δ, Spec.IsDistance {fun i => (v i).1} (Spec.ray (fun i => (r.origin i).1) (fun i => (r.direction i).1)) δ ∧
      |(distRayVec r v).1 - δ|
        ≤ 10 * (D + 2) * (2 : ℝ)⁻¹ ^ F.prec * Spec.dist (fun i => (v i).1) (fun i => (r.origin i).1) + 2 * τ + 4 * ω := by
  have ht := tiny_of_emin hmin
  have hroot := root_le hω hω2
  have hroot0 := F.root_nonneg D
  have htr := tiny_le_root hD ht
  have hu0 := F.unit_pos
  have ht0 := F.tiny_nonneg
  set w : Vec ℝ D := fun i => (v i).1 - (r.origin i).1 with hw
  have hM0 : 0 < Spec.norm (fun i => (r.direction i).1) := by linarith
  have hdot := dot_abs (vsub v r.origin) r.direction w (fun i => Fl.sub_rel _ _) hD ht
  have hrej := rejection_length_err (vsub v r.origin) r.direction w (fun i => Fl.sub_rel _ _) hD ht hd1 hd2
  have hdst := distance_abs r.origin v hD ht
  have hfront := ray_distance_front (fun i => (v i).1) (fun i => (r.origin i).1) (fun i => (r.direction i).1) hM0
  have hback := ray_distance_back (fun i => (v i).1) (fun i => (r.origin i).1) (fun i => (r.direction i).1)
  have hR1 := norm_sub_rejection_le w (fun i => (r.direction i).1) hM0
  have hR2 := rejection_le_norm w (fun i => (r.direction i).1) hM0
  have eW : Spec.dist (fun i => (v i).1) (fun i => (r.origin i).1) = Spec.norm w := rfl
  have eW' : Spec.dist (Fl.vals r.origin) (Fl.vals v) = Spec.norm w := dist_comm' _ _
  rw [eW'] at hdst
  rw [eW] at hback ⊢
  change |_ - Spec.norm (fun i => w i - (∑ j, w j * (r.direction j).1) / Spec.norm (fun i => (r.direction i).1) ^ 2 * (r.direction i).1)| ≤ _ at hrej
  change 0 ≤ ∑ j, w j * (r.direction j).1 → Spec.IsDistance _ _
    (Spec.norm (fun i => w i - (∑ j, w j * (r.direction j).1) / Spec.norm (fun i => (r.direction i).1) ^ 2 * (r.direction i).1)) at hfront
  change ∑ j, w j * (r.direction j).1 ≤ 0 → _ at hback
  change _ ≤ _ * (_ * (Spec.norm w * Spec.norm (fun i => (r.direction i).1))) + _ at hdot
  set R := Spec.norm (fun i => w i - (∑ j, w j * (r.direction j).1) / Spec.norm (fun i => (r.direction i).1) ^ 2 * (r.direction i).1) with hR
  set a := ∑ j, w j * (r.direction j).1 with ha
  set M := Spec.norm (fun i => (r.direction i).1) with hM
  set W := Spec.norm w with hW
  have hW0 : 0 ≤ W := norm_nonneg' _
  set U := ((D : ℝ) + 2) * F.unit with hU
  set T := ((D : ℝ) + 2) * F.tiny with hT
  have hU0 : 0 < U := by positivity
  have hT0 : 0 ≤ T := by positivity
  have hUW : 0 ≤ U * W := by positivity
  have e2 : 10 * ((D : ℝ) + 2) * (2 : ℝ)⁻¹ ^ F.prec * W = 10 * (U * W) := by rw [hU]; unfold FloatFormat.unit; ring
  rw [e2]
  -- the part along the ray
  have halong : ∀ {b : ℝ}, 0 ≤ b → |a| ≤ b + (8 / 5 * (U * (W * M)) + 2 * T) → W - R ≤ 2 * b + 8 / 5 * (U * W) + 4 * T := by
    intro b hb h
    have h1 : |a| / M ≤ 2 * b + 8 / 5 * (U * W) + 4 * T := by
      rw [div_le_iff₀ hM0]
      have h2 : b * (1 / 2) ≤ b * M := mul_le_mul_of_nonneg_left hd1 hb
      have h3 : T * (1 / 2) ≤ T * M := mul_le_mul_of_nonneg_left hd1 hT0
      have e : (2 * b + 8 / 5 * (U * W) + 4 * T) * M = 2 * (b * M) + 8 / 5 * (U * (W * M)) + 4 * (T * M) := by ring
      rw [e]
      linarith
    linarith
  have hdist : distRayVec r v = length (if isGreater (dot (vsub v r.origin) r.direction) 0 then rejection (vsub v r.origin) r.direction
    else vsub r.origin v) := rfl
  obtain ⟨hd3, hd4⟩ := abs_le.1 hdot
  have hWM : 0 ≤ U * (W * M) := by positivity
  rcases Bool.eq_false_or_eq_true (isGreater (dot (vsub v r.origin) r.direction) 0) with hc | hc
  · have hpos := hgt _ hc
    rw [hdist, hc, if_pos rfl]
    rcases le_total 0 a with h | h
    · exact ⟨R, hfront h, hrej.trans (by linarith)⟩
    · refine ⟨W, hback h, ?_⟩
      have h1 := halong le_rfl (show |a| ≤ 0 + (8 / 5 * (U * (W * M)) + 2 * T) by rw [abs_of_nonpos h]; linarith)
      have h2 : |(length (rejection (vsub v r.origin) r.direction)).1 - W| ≤ |(length (rejection (vsub v r.origin) r.direction)).1 - R| + |R - W| := by
        rw [show (length (rejection (vsub v r.origin) r.direction)).1 - W = ((length (rejection (vsub v r.origin) r.direction)).1 - R) + (R - W) by ring]
        exact abs_add_le _ _
      rw [abs_of_nonpos (show R - W ≤ 0 by linarith)] at h2
      linarith
  · have hneg := hle _ hc
    rw [hdist, hc, if_neg (by simp)]
    rcases le_total 0 a with h | h
    · refine ⟨R, hfront h, ?_⟩
      have h1 := halong hτ (show |a| ≤ τ + (8 / 5 * (U * (W * M)) + 2 * T) by rw [abs_of_nonneg h]; linarith)
      have h2 : |(length (vsub r.origin v)).1 - R| ≤ |(length (vsub r.origin v)).1 - W| + |W - R| := by
        rw [show (length (vsub r.origin v)).1 - R = ((length (vsub r.origin v)).1 - W) + (W - R) by ring]
        exact abs_add_le _ _
      rw [abs_of_nonneg (show 0 ≤ W - R by linarith)] at h2
      linarith
    · exact ⟨W, hback h, hdst.trans (by linarith)⟩

/-- **C104** The computed distance of a point and a plane. The stored normal need only be nearly of length one: `η` is its deviation. -/
theorem C104_point_plane (v : Vec (Fl F) 3) (p : Plane (Fl F)) (hp : 9 ≤ F.prec) (hmin : ∀ k, F.emin = some k → k ≤ -2 * (F.prec : ℤ))
    {η : ℝ} (hη : |Spec.norm (fun i => (p.normal i).1) - 1| ≤ η) (hη1 : η ≤ 1 / 2)
    {ω : ℝ} (hω : 0 ≤ ω) (hω2 : ∀ k, F.emin = some k → (2 : ℝ) ^ k ≤ ω) :
    ∃ δ, Spec.IsDistance {fun i => (v i).1} (Spec.plane (fun i => (p.origin i).1) (fun i => (p.normal i).1)) δ ∧
      |(distPlaneVec p v).1 - δ|
        ≤ 12 * (2 : ℝ)⁻¹ ^ F.prec * Spec.dist (fun i => (v i).1) (fun i => (p.origin i).1) + η * δ + 10 * ω := by
  have ht := tiny_of_emin hmin
  have hD : 64 * (3 + 2) ≤ 2 ^ F.prec := le_trans (by norm_num) (Nat.pow_le_pow_right (by norm_num) hp)
  have htω : F.tiny ≤ ω := by
    unfold FloatFormat.tiny
    split
    · exact hω
    · next k hk => exact hω2 k hk
  have hdot := dot_abs (vsub p.origin v) p.normal (fun i => (p.origin i).1 - (v i).1) (fun i => Fl.sub_rel _ _) hD ht
  set n : Vec ℝ 3 := fun i => (p.normal i).1 with hn
  change _ ≤ 8 / 5 * (_ * (_ * Spec.norm n)) + _ at hdot
  have hM := abs_le.1 hη
  have hM0 : 0 < Spec.norm n := by linarith
  have hex := C22_point_plane (fun i => (p.origin i).1) n (fun i => (v i).1) (vals_ne_zero hM0)
  refine ⟨_, hex, ?_⟩
  have e : distPlaneVec (Plane.make (fun i => (p.origin i).1) n) (fun i => (v i).1)
      = |∑ i, ((p.origin i).1 - (v i).1) * n i| / Spec.norm n := by
    unfold distPlaneVec Plane.make
    rw [stdAbs_eq, dot_eq, normalize_eq, dotProduct_smul, smul_eq_mul, abs_mul, abs_of_pos (inv_pos.2 (length_pos (vals_ne_zero hM0))),
      ← spec_norm_eq, ← div_eq_inv_mul]
    rfl
  have eW : Spec.norm (fun i => (p.origin i).1 - (v i).1) = Spec.dist (fun i => (v i).1) (fun i => (p.origin i).1) := dist_comm' _ _
  rw [eW] at hdot
  rw [e]
  have hval : (distPlaneVec p v).1 = |(dot (vsub p.origin v) p.normal).1| := Fl.val_stdAbs _
  rw [hval]
  have h1 := (abs_abs_sub_abs_le (dot (vsub p.origin v) p.normal).1 (∑ i, ((p.origin i).1 - (v i).1) * n i)).trans hdot
  set W := Spec.dist (fun i => (v i).1) (fun i => (p.origin i).1) with hW
  have hW0 : 0 ≤ W := dist_nonneg' _ _
  set x := |∑ i, ((p.origin i).1 - (v i).1) * n i| with hx
  set M := Spec.norm n with hMd
  have hu0 := F.unit_pos
  have h2 : |x - x / M| ≤ η * (x / M) := by
    have hx0 : 0 ≤ x / M := div_nonneg (abs_nonneg _) hM0.le
    have e3 : x - x / M = (M - 1) * (x / M) := by field_simp
    rw [e3, abs_mul, abs_of_nonneg hx0]
    exact mul_le_mul_of_nonneg_right hη hx0
  have h3 : |(|(dot (vsub p.origin v) p.normal).1| : ℝ) - x / M| ≤ |(|(dot (vsub p.origin v) p.normal).1| : ℝ) - x| + |x - x / M| := by
    rw [show (|(dot (vsub p.origin v) p.normal).1| : ℝ) - x / M = (|(dot (vsub p.origin v) p.normal).1| - x) + (x - x / M) by ring]
    exact abs_add_le _ _
  have h4 : F.unit * (W * M) ≤ F.unit * (W * (3 / 2)) :=
    mul_le_mul_of_nonneg_left (mul_le_mul_of_nonneg_left (by linarith) hW0) hu0.le
  have e5 : 12 * (2 : ℝ)⁻¹ ^ F.prec * W = 12 * (F.unit * W) := by unfold FloatFormat.unit; ring
  rw [e5]
  push_cast at h1
  linarith

/-- **C104** The computed signed distance of a point and a sphere; `distance` is its absolute value. -/
theorem C104_point_sphere (v : Vec (Fl F) 3) (s : Sphere (Fl F)) (hp : 9 ≤ F.prec) (hmin : ∀ k, F.emin = some k → k ≤ -2 * (F.prec : ℤ))
    {ω : ℝ} (hω : 0 ≤ ω) (hω2 : ∀ k, F.emin = some k → 10 * (2 : ℝ) ^ k ≤ ω ^ 2) :
    |(signedDistSphere v s).1 - (Spec.dist (fun i => (v i).1) (fun i => (s.origin i).1) - s.radius.1)|
      ≤ (2 : ℝ)⁻¹ ^ F.prec * (12 * Spec.dist (fun i => (v i).1) (fun i => (s.origin i).1)
          + |Spec.dist (fun i => (v i).1) (fun i => (s.origin i).1) - s.radius.1|) + 3 * ω ∧
    (distSphere v s).1 = |(signedDistSphere v s).1| := by
  have ht := tiny_of_emin hmin
  have hD : 64 * (3 + 2) ≤ 2 ^ F.prec := le_trans (by norm_num) (Nat.pow_le_pow_right (by norm_num) hp)
  obtain ⟨f1, f2, f3, f4⟩ := dim_facts hD ht
  refine ⟨?_, Fl.val_stdAbs _⟩
  have hroot := root_le (F := F) (D := 3) hω (fun k hk => le_trans (by norm_num) (hω2 k hk))
  have hroot0 := F.root_nonneg 3
  have hu0 := F.unit_pos
  have h := distance_abs v s.origin hD ht
  have hsub := Fl.sub_rel (length (vsub v s.origin)) s.radius
  change |(signedDistSphere v s).1 - _| ≤ _ at hsub
  change |_ - Spec.dist (fun i => (v i).1) (fun i => (s.origin i).1)| ≤ 11 / 5 * (_ * Spec.dist (fun i => (v i).1) (fun i => (s.origin i).1)) + _ at h
  set W := Spec.dist (fun i => (v i).1) (fun i => (s.origin i).1) with hW
  have hW0 : 0 ≤ W := dist_nonneg' _ _
  set l := (length (vsub v s.origin)).1 with hl
  set x := |W - s.radius.1| with hx
  change _ ≤ F.unit * (12 * W + x) + 3 * ω
  push_cast at h f1 f2
  have e : 11 / 5 * ((3 + 2) * F.unit * W) = 11 * (F.unit * W) := by ring
  rw [e] at h
  have h1 : |l - s.radius.1| ≤ x + (11 * (F.unit * W) + 2 * F.root 3) := by
    rw [show l - s.radius.1 = (W - s.radius.1) + (l - W) by ring]
    exact (abs_add_le _ _).trans (add_le_add le_rfl h)
  have h2 := mul_le_mul_of_nonneg_left h1 hu0.le
  have h3 : |(signedDistSphere v s).1 - (W - s.radius.1)| ≤ |(signedDistSphere v s).1 - (l - s.radius.1)| + |l - W| := by
    rw [show (signedDistSphere v s).1 - (W - s.radius.1) = ((signedDistSphere v s).1 - (l - s.radius.1)) + (l - W) by ring]
    exact abs_add_le _ _
  have hUW : 0 ≤ F.unit * W := by positivity
  have hu : F.unit ≤ 1 / 320 := by linarith
  have h4 : F.unit * (F.unit * W) ≤ 1 / 320 * (F.unit * W) := mul_le_mul_of_nonneg_right hu hUW
  have h5 : F.unit * F.root 3 ≤ 1 / 320 * F.root 3 := mul_le_mul_of_nonneg_right hu hroot0
  have e2 : F.unit * (x + (11 * (F.unit * W) + 2 * F.root 3)) = F.unit * x + 11 * (F.unit * (F.unit * W)) + 2 * (F.unit * F.root 3) := by ring
  rw [e2] at h2
  linarith

/-! ### The constructors -/

/-- Distances to lines and rays depend continuously on the direction. -/
theorem along_lipschitz {P : ℝ → Prop} (h0 : P 0) {v o a b : Vec ℝ D} {x y : ℝ}
    (hx : Spec.IsDistance {v} {p | ∃ t, P t ∧ p = Spec.pointAt o a t} x) (hy : Spec.IsDistance {v} {p | ∃ t, P t ∧ p = Spec.pointAt o b t} y)
    (ha : 31 / 32 ≤ Spec.norm a) : y ≤ x + 64 / 31 * (Spec.dist v o * Spec.dist a b) := by
  obtain ⟨⟨v', rfl, p, ⟨t, ht, rfl⟩, rfl⟩, hmin⟩ := hx
  have h1 := hy.2 ⟨v', rfl, Spec.pointAt o b t, ⟨t, ht, rfl⟩, rfl⟩
  have hz : o = Spec.pointAt o a 0 := by rw [pointAt_eq]; simp
  have h2 : Spec.dist v' (Spec.pointAt o a t) ≤ Spec.dist v' o := hmin ⟨v', rfl, o, ⟨0, h0, hz⟩, rfl⟩
  have h3 := dist_triangle' v' (Spec.pointAt o a t) (Spec.pointAt o b t)
  have h4 : Spec.dist (Spec.pointAt o a t) (Spec.pointAt o b t) = |t| * Spec.dist a b := by
    have e : Spec.dist (Spec.pointAt o a t) (Spec.pointAt o b t) = Spec.norm (fun i => t * (a i - b i)) := by
      unfold Spec.dist Spec.norm Spec.pointAt
      congr 1
      exact Finset.sum_congr rfl fun i _ => by ring
    rw [e, ← norm_abs']
    simp only [abs_mul]
    rw [norm_smul' (abs_nonneg t), norm_abs' (fun i => a i - b i)]
    rfl
  have h5 : Spec.dist o (Spec.pointAt o a t) = |t| * Spec.norm a := by
    have e : Spec.dist o (Spec.pointAt o a t) = Spec.norm (fun i => t * a i) := by
      unfold Spec.dist Spec.norm Spec.pointAt
      congr 1
      exact Finset.sum_congr rfl fun i _ => by ring
    rw [e, ← norm_abs']
    simp only [abs_mul]
    rw [norm_smul' (abs_nonneg t), norm_abs']
  have h6 := dist_triangle' o v' (Spec.pointAt o a t)
  rw [dist_comm' o v', h5] at h6
  have h7 : |t| * (31 / 32) ≤ |t| * Spec.norm a := mul_le_mul_of_nonneg_left ha (abs_nonneg t)
  have h8 : |t| * Spec.dist a b ≤ (64 / 31 * Spec.dist v' o) * Spec.dist a b :=
    mul_le_mul_of_nonneg_right (by linarith) (dist_nonneg' _ _)
  rw [h4] at h3
  linarith

/-- What a constructor stores as direction. -/
theorem made_direction (d : Vec (Fl F) D) (hD : 64 * (D + 2) ≤ 2 ^ F.prec) (hH0 : 0 < Spec.norm (fun i => (d i).1))
    (hsmall : ∀ k, F.emin = some k → k ≤ -2 * (F.prec : ℤ) ∧
      (2 : ℝ) ^ ((k + 1) / 2) ≤ (2 : ℝ)⁻¹ ^ F.prec * Spec.norm (fun i => (d i).1)) :
    Spec.dist (fun i => (normalize d i).1) (fun i => (d i).1 / Spec.norm (fun i => (d i).1)) ≤ 8 / 5 * ((D + 2) * F.unit) ∧
      Spec.norm (fun i => (d i).1 / Spec.norm (fun i => (d i).1)) = 1 ∧
      |Spec.norm (fun i => (normalize d i).1) - 1| ≤ 8 / 5 * ((D + 2) * F.unit) ∧
      31 / 32 ≤ Spec.norm (fun i => (normalize d i).1) ∧ Spec.norm (fun i => (normalize d i).1) ≤ 33 / 32 := by
  obtain ⟨ht0, ht1, ht2⟩ := tiny_of_length hH0 hsmall
  obtain ⟨f1, f2, f3, f4⟩ := dim_facts hD ht0
  have h := normalize_err d rfl hH0 hD ht0 ht1 ht2
  change Spec.dist (fun i => (normalize d i).1) (fun i => (d i).1 / Spec.norm (fun i => (d i).1)) ≤ _ at h
  set H := Spec.norm (fun i => (d i).1) with hH
  have hn : Spec.norm (fun i => (d i).1 / H) = 1 := by
    have e : (fun i => (d i).1 / H) = fun i => H⁻¹ * (d i).1 := by funext i; rw [div_eq_inv_mul]
    rw [e, norm_smul' (by positivity), ← hH, inv_mul_cancel₀ hH0.ne']
  have h2 := (norm_sub_norm (fun i => (normalize d i).1) (fun i => (d i).1 / H)).trans h
  rw [hn] at h2
  have h3 := abs_le.1 h2
  exact ⟨h, hn, h2, by linarith, by linarith⟩

theorem line_set (o d : Vec ℝ D) : Spec.line o d = {p | ∃ t, True ∧ p = Spec.pointAt o d t} := by
  unfold Spec.line; simp only [true_and]

theorem normalized_eq (d : Vec ℝ D) : (fun i => d i / Spec.norm d) = normalize d := by
  rw [normalize_eq, ← spec_norm_eq]; funext i; simp [div_eq_inv_mul]

/-- **C104** The distance to a line made from an origin and any direction that does not underflow, against the line through that origin with that
direction. -/
theorem C104_line_make (v o d : Vec (Fl F) D) (hD : 64 * (D + 2) ≤ 2 ^ F.prec) (hH0 : 0 < Spec.norm (fun i => (d i).1))
    (hsmall : ∀ k, F.emin = some k → k ≤ -2 * (F.prec : ℤ) ∧
      (2 : ℝ) ^ ((k + 1) / 2) ≤ (2 : ℝ)⁻¹ ^ F.prec * Spec.norm (fun i => (d i).1))
    {ω : ℝ} (hω : 0 ≤ ω) (hω2 : ∀ k, F.emin = some k → 2 * (D + 2) * (2 : ℝ) ^ k ≤ ω ^ 2) :
    ∃ δ, Spec.IsDistance {fun i => (v i).1} (Spec.line (fun i => (o i).1) (fun i => (d i).1)) δ ∧
      |(distVecLine v (Line.make o d)).1 - δ| ≤ 12 * (D + 2) * (2 : ℝ)⁻¹ ^ F.prec * Spec.dist (fun i => (v i).1) (fun i => (o i).1) + 3 * ω := by
  obtain ⟨h1, h2, h3, h4, h5⟩ := made_direction d hD hH0 hsmall
  obtain ⟨x, hx, hxe⟩ := C104_point_line v (Line.make o d) hD (fun k hk => (hsmall k hk).1) (show 1 / 2 ≤ Spec.norm (fun i => (normalize d i).1) by linarith)
    (show Spec.norm (fun i => (normalize d i).1) ≤ 2 by linarith) hω hω2
  change Spec.IsDistance _ (Spec.line (fun i => (o i).1) (fun i => (normalize d i).1)) x at hx
  change |_ - x| ≤ _ * Spec.dist (fun i => (v i).1) (fun i => (o i).1) + _ at hxe
  set H := Spec.norm (fun i => (d i).1) with hH
  have hy := line_distance (fun i => (v i).1) (fun i => (o i).1) (fun i => (d i).1 / H) (by rw [h2]; norm_num)
  set y := Spec.norm (fun i => ((o i).1 - (v i).1) - (∑ j, ((o j).1 - (v j).1) * ((d j).1 / H)) / Spec.norm (fun i => (d i).1 / H) ^ 2 * ((d i).1 / H))
  refine ⟨y, ?_, ?_⟩
  · have e := line_normalize (fun i => (o i).1) (vals_ne_zero hH0)
    rwa [← e, ← normalized_eq]
  · rw [line_set] at hx hy
    have l1 := along_lipschitz trivial hx hy h4
    have l2 := along_lipschitz trivial hy hx (by rw [h2]; norm_num)
    rw [dist_comm' (fun i => (d i).1 / H)] at l2
    set W := Spec.dist (fun i => (v i).1) (fun i => (o i).1) with hW
    have hW0 : 0 ≤ W := dist_nonneg' _ _
    have l3 := mul_le_mul_of_nonneg_left h1 hW0
    have l4 : |x - y| ≤ 64 / 31 * (W * (8 / 5 * ((D + 2) * F.unit))) := abs_le.2 ⟨by linarith, by linarith⟩
    have l5 : |(distVecLine v (Line.make o d)).1 - y| ≤ |(distVecLine v (Line.make o d)).1 - x| + |x - y| := by
      rw [show (distVecLine v (Line.make o d)).1 - y = ((distVecLine v (Line.make o d)).1 - x) + (x - y) by ring]; exact abs_add_le _ _
    have hu0 := F.unit_pos
    have l6 : 0 ≤ ((D : ℝ) + 2) * F.unit * W := by positivity
    change _ ≤ 8 * (D + 2) * F.unit * W + 3 * ω at hxe
    change _ ≤ 12 * (D + 2) * F.unit * W + 3 * ω
    linarith

theorem Ray.make_eq_fl [Tol (Fl F)] {dbg : Bool} {o d : Vec (Fl F) D} {r : Ray (Fl F) D} (h : Ray.make dbg o d = .ok r) :
    r = ⟨o, normalize d⟩ := by
  unfold Ray.make at h
  rw [geoAssert_bind] at h
  split at h
  · cases h
  · cases h; rfl

/-- **C104** The same for rays. -/
theorem C104_ray_make [Tol (Fl F)] (dbg : Bool) (v o d : Vec (Fl F) D) (r : Ray (Fl F) D) (hr : Ray.make dbg o d = .ok r)
    (hD : 64 * (D + 2) ≤ 2 ^ F.prec) (hH0 : 0 < Spec.norm (fun i => (d i).1))
    (hsmall : ∀ k, F.emin = some k → k ≤ -2 * (F.prec : ℤ) ∧
      (2 : ℝ) ^ ((k + 1) / 2) ≤ (2 : ℝ)⁻¹ ^ F.prec * Spec.norm (fun i => (d i).1))
    {τ : ℝ} (hτ : 0 ≤ τ) (hgt : ∀ x : Fl F, isGreater x 0 = true → 0 ≤ x.1) (hle : ∀ x : Fl F, isGreater x 0 = false → x.1 ≤ τ)
    {ω : ℝ} (hω : 0 ≤ ω) (hω2 : ∀ k, F.emin = some k → 2 * (D + 2) * (2 : ℝ) ^ k ≤ ω ^ 2) :
    ∃ δ, Spec.IsDistance {fun i => (v i).1} (Spec.ray (fun i => (o i).1) (fun i => (d i).1)) δ ∧
      |(distRayVec r v).1 - δ| ≤ 14 * (D + 2) * (2 : ℝ)⁻¹ ^ F.prec * Spec.dist (fun i => (v i).1) (fun i => (o i).1) + 2 * τ + 4 * ω := by
  cases Ray.make_eq_fl hr
  obtain ⟨h1, h2, h3, h4, h5⟩ := made_direction d hD hH0 hsmall
  obtain ⟨x, hx, hxe⟩ := C104_point_ray v ⟨o, normalize d⟩ hD (fun k hk => (hsmall k hk).1) (show 1 / 2 ≤ Spec.norm (fun i => (normalize d i).1) by linarith)
    (show Spec.norm (fun i => (normalize d i).1) ≤ 2 by linarith) hτ hgt hle hω hω2
  set H := Spec.norm (fun i => (d i).1) with hH
  have hy : ∃ y, Spec.IsDistance {fun i => (v i).1} (Spec.ray (fun i => (o i).1) (fun i => (d i).1 / H)) y := by
    rcases le_total 0 (∑ j, ((v j).1 - (o j).1) * ((d j).1 / H)) with h | h
    · exact ⟨_, ray_distance_front (fun i => (v i).1) (fun i => (o i).1) (fun i => (d i).1 / H) (by rw [h2]; norm_num) h⟩
    · exact ⟨_, ray_distance_back (fun i => (v i).1) (fun i => (o i).1) (fun i => (d i).1 / H) h⟩
  obtain ⟨y, hy⟩ := hy
  refine ⟨y, ?_, ?_⟩
  · have e := ray_normalize (fun i => (o i).1) (vals_ne_zero hH0)
    rwa [← e, ← normalized_eq]
  · have l1 := along_lipschitz (P := fun t => 0 ≤ t) le_rfl hx hy h4
    have l2 := along_lipschitz (P := fun t => 0 ≤ t) le_rfl hy hx (by rw [h2]; norm_num)
    rw [dist_comm' (fun i => (d i).1 / H)] at l2
    set W := Spec.dist (fun i => (v i).1) (fun i => (o i).1) with hW
    have hW0 : 0 ≤ W := dist_nonneg' _ _
    have l3 := mul_le_mul_of_nonneg_left h1 hW0
    have l4 : |x - y| ≤ 64 / 31 * (W * (8 / 5 * ((D + 2) * F.unit))) := abs_le.2 ⟨by linarith, by linarith⟩
    have l5 : |(distRayVec ⟨o, normalize d⟩ v).1 - y| ≤ |(distRayVec ⟨o, normalize d⟩ v).1 - x| + |x - y| := by
      rw [show (distRayVec ⟨o, normalize d⟩ v).1 - y = ((distRayVec ⟨o, normalize d⟩ v).1 - x) + (x - y) by ring]; exact abs_add_le _ _
    have hu0 := F.unit_pos
    have l6 : 0 ≤ ((D : ℝ) + 2) * F.unit * W := by positivity
    change _ ≤ 10 * (D + 2) * F.unit * W + 2 * τ + 4 * ω at hxe
    change _ ≤ 14 * (D + 2) * F.unit * W + 2 * τ + 4 * ω
    linarith

/-- **C104** The same for planes: the distance to the plane through `o` with normal `n`, as computed from the plane made from them. -/
theorem C104_plane_make (v o n : Vec (Fl F) 3) (hp : 9 ≤ F.prec) (hH0 : 0 < Spec.norm (fun i => (n i).1))
    (hsmall : ∀ k, F.emin = some k → k ≤ -2 * (F.prec : ℤ) ∧
      (2 : ℝ) ^ ((k + 1) / 2) ≤ (2 : ℝ)⁻¹ ^ F.prec * Spec.norm (fun i => (n i).1))
    {ω : ℝ} (hω : 0 ≤ ω) (hω2 : ∀ k, F.emin = some k → (2 : ℝ) ^ k ≤ ω) :
    ∃ δ, Spec.IsDistance {fun i => (v i).1} (Spec.plane (fun i => (o i).1) (fun i => (n i).1)) δ ∧
      |(distPlaneVec (Plane.make o n) v).1 - δ|
        ≤ 20 * (2 : ℝ)⁻¹ ^ F.prec * Spec.dist (fun i => (v i).1) (fun i => (o i).1) + 10 * ω := by
  have hD : 64 * (3 + 2) ≤ 2 ^ F.prec := le_trans (by norm_num) (Nat.pow_le_pow_right (by norm_num) hp)
  obtain ⟨h1, h2, h3, h4, h5⟩ := made_direction n hD hH0 hsmall
  have ht := tiny_of_emin fun k hk => (hsmall k hk).1
  have htω : F.tiny ≤ ω := by
    unfold FloatFormat.tiny
    split
    · exact hω
    · next k hk => exact hω2 k hk
  have hdot := dot_abs (vsub o v) (normalize n) (fun i => (o i).1 - (v i).1) (fun i => Fl.sub_rel _ _) hD ht
  change _ ≤ 8 / 5 * (_ * (_ * Spec.norm (fun i => (normalize n i).1))) + _ at hdot
  have hex := C22_point_plane (fun i => (o i).1) (fun i => (n i).1) (fun i => (v i).1) (vals_ne_zero hH0)
  refine ⟨_, hex, ?_⟩
  set H := Spec.norm (fun i => (n i).1) with hH
  have e : distPlaneVec (Plane.make (fun i => (o i).1) (fun i => (n i).1)) (fun i => (v i).1)
      = |∑ i, ((o i).1 - (v i).1) * ((n i).1 / H)| := by
    unfold distPlaneVec Plane.make
    rw [stdAbs_eq, dot_eq, ← normalized_eq (fun i => (n i).1)]
    rfl
  have eW : Spec.norm (fun i => (o i).1 - (v i).1) = Spec.dist (fun i => (v i).1) (fun i => (o i).1) := dist_comm' _ _
  have hval : (distPlaneVec (Plane.make o n) v).1 = |(dot (vsub o v) (normalize n)).1| := Fl.val_stdAbs _
  rw [e, hval]
  refine (abs_abs_sub_abs_le _ _).trans ?_
  have hdiff : |∑ i, ((o i).1 - (v i).1) * (normalize n i).1 - ∑ i, ((o i).1 - (v i).1) * ((n i).1 / H)|
      ≤ Spec.norm (fun i => (o i).1 - (v i).1) * Spec.dist (fun i => (normalize n i).1) (fun i => (n i).1 / H) := by
    rw [← Finset.sum_sub_distrib]
    have := abs_dp_le (fun i => (o i).1 - (v i).1) (fun i => (normalize n i).1 - (n i).1 / H)
    simp only [mul_sub] at this
    exact this
  rw [eW] at hdot hdiff
  set W := Spec.dist (fun i => (v i).1) (fun i => (o i).1) with hW
  have hW0 : 0 ≤ W := dist_nonneg' _ _
  have hu0 := F.unit_pos
  have l1 : |(dot (vsub o v) (normalize n)).1 - ∑ i, ((o i).1 - (v i).1) * ((n i).1 / H)|
      ≤ |(dot (vsub o v) (normalize n)).1 - ∑ i, ((o i).1 - (v i).1) * (normalize n i).1|
        + |∑ i, ((o i).1 - (v i).1) * (normalize n i).1 - ∑ i, ((o i).1 - (v i).1) * ((n i).1 / H)| := by
    rw [show (dot (vsub o v) (normalize n)).1 - ∑ i, ((o i).1 - (v i).1) * ((n i).1 / H)
      = ((dot (vsub o v) (normalize n)).1 - ∑ i, ((o i).1 - (v i).1) * (normalize n i).1)
        + (∑ i, ((o i).1 - (v i).1) * (normalize n i).1 - ∑ i, ((o i).1 - (v i).1) * ((n i).1 / H)) by ring]
    exact abs_add_le _ _
  have l2 := mul_le_mul_of_nonneg_left h1 hW0
  have l3 : F.unit * (W * Spec.norm (fun i => (normalize n i).1)) ≤ F.unit * (W * (33 / 32)) :=
    mul_le_mul_of_nonneg_left (mul_le_mul_of_nonneg_left h5 hW0) hu0.le
  have l4 : 0 ≤ F.unit * W := by positivity
  change _ ≤ 20 * F.unit * W + 10 * ω
  push_cast at hdot l2
  linarith
end

/-! ### Examples: what the bounds mean for doubles -/
section Examples
attribute [local instance] tol64

theorem emin64 : ∀ k, binary64.emin = some k → k ≤ -2 * (binary64.prec : ℤ) := by
  intro k hk
  cases hk
  show (-1074 : ℤ) ≤ -2 * 53
  norm_num

theorem root64 : ∀ k, binary64.emin = some k → 2 * ((3 : ℕ) + 2) * (2 : ℝ) ^ k ≤ ((2 : ℝ)⁻¹ ^ 500) ^ 2 := by
  intro k hk
  cases hk
  rw [← pow_mul, inv_pow, ← zpow_natCast, ← zpow_neg]
  calc (2 : ℝ) * ((3 : ℕ) + 2) * 2 ^ (-1074 : ℤ) ≤ 2 ^ (4 : ℤ) * 2 ^ (-1074 : ℤ) :=
        mul_le_mul_of_nonneg_right (by norm_num) (by positivity)
    _ = 2 ^ (4 + -1074 : ℤ) := (zpow_add₀ (by norm_num) _ _).symm
    _ ≤ _ := zpow_le_zpow_right₀ (by norm_num) (by norm_num)

theorem root64' : (2 : ℝ)⁻¹ ^ 500 ≤ 1 / 10 ^ 20 := by
  calc (2 : ℝ)⁻¹ ^ 500 ≤ (2 : ℝ)⁻¹ ^ 70 := pow_le_pow_of_le_one (by norm_num) (by norm_num) (by norm_num)
    _ ≤ _ := by norm_num

theorem unit64' : (2 : ℝ)⁻¹ ^ binary64.prec ≤ 1 / 10 ^ 15 := by
  show (2 : ℝ)⁻¹ ^ 53 ≤ _
  norm_num

noncomputable def p64 (a b c : ℤ) (ha : |a| < 2 ^ 53 := by norm_num) (hb : |b| < 2 ^ 53 := by norm_num) (hc : |c| < 2 ^ 53 := by norm_num) :
    Vec (Fl binary64) 3 := ![fl64 a ha, fl64 b hb, fl64 c hc]

theorem p64_vals (a b c : ℤ) (ha : |a| < 2 ^ 53) (hb : |b| < 2 ^ 53) (hc : |c| < 2 ^ 53) :
    (fun i => (p64 a b c ha hb hc i).1) = ![(a : ℝ), (b : ℝ), (c : ℝ)] := by
  funext i; fin_cases i <;> rfl

theorem norm3 (a b c r : ℝ) (hr : 0 ≤ r) (h : a ^ 2 + b ^ 2 + c ^ 2 = r ^ 2) : Spec.norm ![a, b, c] = r := by
  unfold Spec.norm
  rw [Fin.sum_univ_three]
  simp only [Matrix.cons_val_zero, Matrix.cons_val_one, Matrix.cons_val]
  rw [h, Real.sqrt_sq hr]

theorem dist3 (a b c a' b' c' r : ℝ) (hr : 0 ≤ r) (h : (a - a') ^ 2 + (b - b') ^ 2 + (c - c') ^ 2 = r ^ 2) :
    Spec.dist ![a, b, c] ![a', b', c'] = r := by
  unfold Spec.dist
  rw [Fin.sum_univ_three]
  simp only [Matrix.cons_val_zero, Matrix.cons_val_one, Matrix.cons_val]
  rw [h, Real.sqrt_sq hr]

theorem small64' {r : ℝ} (h : 1 ≤ r) : ∀ k, binary64.emin = some k → k ≤ -2 * (binary64.prec : ℤ) ∧
    (2 : ℝ) ^ ((k + 1) / 2) ≤ (2 : ℝ)⁻¹ ^ binary64.prec * r := by
  intro k hk
  refine ⟨emin64 k hk, ?_⟩
  cases hk
  show (2 : ℝ) ^ ((-1074 + 1 : ℤ) / 2) ≤ (2 : ℝ)⁻¹ ^ 53 * r
  have h1 : (2 : ℝ) ^ ((-1074 + 1 : ℤ) / 2) ≤ (2 : ℝ)⁻¹ ^ 53 := by
    rw [inv_pow, ← zpow_natCast, ← zpow_neg]
    exact zpow_le_zpow_right₀ (by norm_num) (by norm_num)
  have h2 : (0 : ℝ) < (2 : ℝ)⁻¹ ^ 53 := by positivity
  nlinarith

/-- A point on the line through (1, 2, 3) in the direction (2, 3, 6), at distance 700 from the origin of the line: the computed distance is at most
1e-10 (the exact one is 0), although the stored direction (2, 3, 6) / 7 is not representable. -/
example : (distVecLine (p64 201 302 603) (Line.make (p64 1 2 3) (p64 2 3 6))).1 ≤ 1 / 10 ^ 10 := by
  have hn : Spec.norm (fun i => ((p64 2 3 6) i).1) = 7 := by
    rw [p64_vals]; exact norm3 _ _ _ 7 (by norm_num) (by norm_num)
  obtain ⟨δ, h1, h2⟩ := C104_line_make (p64 201 302 603) (p64 1 2 3) (p64 2 3 6) (by show 64 * 5 ≤ 2 ^ 53; norm_num) (by rw [hn]; norm_num)
    (by rw [hn]; exact small64' (by norm_num)) (ω := (2 : ℝ)⁻¹ ^ 500) (by positivity) root64
  have hδ : δ ≤ 0 := by
    have : (0 : ℝ) = Spec.dist (fun i => ((p64 201 302 603) i).1) (fun i => ((p64 201 302 603) i).1) := by simp [Spec.dist]
    refine h1.2 ⟨_, rfl, _, ⟨100, ?_⟩, this⟩
    rw [p64_vals, p64_vals, p64_vals]
    funext i; fin_cases i <;> (simp [Spec.pointAt]; try norm_num)
  have hW : Spec.dist (fun i => ((p64 201 302 603) i).1) (fun i => ((p64 1 2 3) i).1) = 700 := by
    rw [p64_vals, p64_vals]; exact dist3 _ _ _ _ _ _ 700 (by norm_num) (by norm_num)
  rw [hW] at h2
  have h3 := (abs_le.1 h2).2
  have h4 := unit64'
  have h5 := root64'
  push_cast at h3
  generalize (2 : ℝ)⁻¹ ^ binary64.prec = μ at h3 h4 h5 ⊢
  generalize (2 : ℝ)⁻¹ ^ 500 = ν at h3 h4 h5 ⊢
  norm_num at h3 h4 h5 ⊢
  linarith

/-- A line whose stored direction is a unit vector already. -/
example : |(distVecLine (p64 201 5 603) ⟨p64 1 2 3, p64 0 1 0⟩).1 - 1000 * Real.sqrt (2 / 5)| ≤ 1 / 10 ^ 10 := by
  have hn : Spec.norm (fun i => ((p64 0 1 0) i).1) = 1 := by
    rw [p64_vals]; exact norm3 _ _ _ 1 (by norm_num) (by norm_num)
  obtain ⟨δ, h1, h2⟩ := C104_point_line (p64 201 5 603) ⟨p64 1 2 3, p64 0 1 0⟩ (by show 64 * 5 ≤ 2 ^ 53; norm_num) emin64 (by rw [hn]; norm_num)
    (by rw [hn]; norm_num) (ω := (2 : ℝ)⁻¹ ^ 500) (by positivity) root64
  have hδ : δ = 1000 * Real.sqrt (2 / 5) := by
    have h := line_distance (fun i => ((p64 201 5 603) i).1) (fun i => ((p64 1 2 3) i).1) (fun i => ((p64 0 1 0) i).1) (by rw [hn]; norm_num)
    rw [h1.unique h, hn, Spec.norm]
    simp only [Fin.sum_univ_three]
    have e : ∀ (n : ℤ) (h : |n| < 2 ^ 53), (fl64 n h).1 = (n : ℝ) := fun _ _ => rfl
    simp only [p64, Matrix.cons_val_zero, Matrix.cons_val_one, Matrix.cons_val, e]
    rw [show (1000 : ℝ) = Real.sqrt (1000 ^ 2) from (Real.sqrt_sq (by norm_num)).symm, ← Real.sqrt_mul (by norm_num)]
    congr 1
    norm_num
  rw [hδ] at h2
  refine h2.trans ?_
  have hW : Spec.dist (fun i => ((p64 201 5 603) i).1) (fun i => ((p64 1 2 3) i).1) ≤ 1000 := by
    rw [p64_vals, p64_vals]
    unfold Spec.dist
    rw [Fin.sum_univ_three]
    apply Real.sqrt_le_iff.2
    constructor
    · norm_num
    · simp; norm_num
  show 8 * ((3 : ℕ) + 2) * (2 : ℝ)⁻¹ ^ binary64.prec * Spec.dist (fun i => ((p64 201 5 603) i).1) (fun i => ((p64 1 2 3) i).1) + _ ≤ _
  have h4 := unit64'
  have h5 := root64'
  have hu : (0 : ℝ) < (2 : ℝ)⁻¹ ^ binary64.prec := by positivity
  have h6 := mul_le_mul_of_nonneg_left hW hu.le
  push_cast
  generalize (2 : ℝ)⁻¹ ^ binary64.prec = μ at h4 h5 h6 ⊢
  generalize (2 : ℝ)⁻¹ ^ 500 = ν at h4 h5 h6 ⊢
  norm_num at h4 h5 h6 ⊢
  linarith

theorem greater64 : (∀ x : Fl binary64, isGreater x 0 = true → 0 ≤ x.1) ∧ (∀ x : Fl binary64, isGreater x 0 = false → x.1 ≤ 1 / 10 ^ 6) := by
  constructor
  · intro x h
    have h : decide ((0 : Fl binary64).1 < x.1 - 1 / 10 ^ 6) = true := h
    rw [decide_eq_true_eq, Fl.val_zero] at h
    norm_num at h
    linarith
  · intro x h
    have h : decide ((0 : Fl binary64).1 < x.1 - 1 / 10 ^ 6) = false := h
    rw [decide_eq_false_iff_not, Fl.val_zero] at h
    norm_num at h ⊢
    linarith

/-- A point behind the start of a ray: its distance to the start. -/
example : |(distRayVec ⟨p64 1 2 3, p64 0 1 0⟩ (p64 3 (-1) 9)).1 - 7| ≤ 1 / 10 ^ 5 := by
  have hn : Spec.norm (fun i => ((p64 0 1 0) i).1) = 1 := by
    rw [p64_vals]; exact norm3 _ _ _ 1 (by norm_num) (by norm_num)
  obtain ⟨δ, h1, h2⟩ := C104_point_ray (p64 3 (-1) 9) ⟨p64 1 2 3, p64 0 1 0⟩ (by show 64 * 5 ≤ 2 ^ 53; norm_num) emin64 (by rw [hn]; norm_num)
    (by rw [hn]; norm_num) (τ := 1 / 10 ^ 6) (by norm_num) greater64.1 greater64.2 (ω := (2 : ℝ)⁻¹ ^ 500) (by positivity) root64
  have hW : Spec.dist (fun i => ((p64 3 (-1) 9) i).1) (fun i => ((p64 1 2 3) i).1) = 7 := by
    rw [p64_vals, p64_vals]; exact dist3 _ _ _ _ _ _ 7 (by norm_num) (by norm_num)
  have hδ : δ = 7 := by
    rw [← hW]
    refine h1.unique (ray_distance_back (fun i => ((p64 3 (-1) 9) i).1) (fun i => ((p64 1 2 3) i).1) (fun i => ((p64 0 1 0) i).1) ?_)
    rw [Fin.sum_univ_three]
    have e : ∀ (n : ℤ) (h : |n| < 2 ^ 53), (fl64 n h).1 = (n : ℝ) := fun _ _ => rfl
    simp only [p64, Matrix.cons_val_zero, Matrix.cons_val_one, Matrix.cons_val, e]
    norm_num
  rw [hδ] at h2
  refine h2.trans ?_
  show 10 * ((3 : ℕ) + 2) * (2 : ℝ)⁻¹ ^ binary64.prec * Spec.dist (fun i => ((p64 3 (-1) 9) i).1) (fun i => ((p64 1 2 3) i).1) + _ + _ ≤ _
  rw [hW]
  have h4 := unit64'
  have h5 := root64'
  push_cast
  generalize (2 : ℝ)⁻¹ ^ binary64.prec = μ at h4 h5 ⊢
  generalize (2 : ℝ)⁻¹ ^ 500 = ν at h4 h5 ⊢
  norm_num at h4 h5 ⊢
  linarith

/-- A ray made from the direction (2, 3, 6). -/
example (r : Ray (Fl binary64) 3) (hr : Ray.make true (p64 1 2 3) (p64 2 3 6) = .ok r) : (distRayVec r (p64 201 302 603)).1 ≤ 1 / 10 ^ 5 := by
  have hn : Spec.norm (fun i => ((p64 2 3 6) i).1) = 7 := by
    rw [p64_vals]; exact norm3 _ _ _ 7 (by norm_num) (by norm_num)
  obtain ⟨δ, h1, h2⟩ := C104_ray_make true (p64 201 302 603) (p64 1 2 3) (p64 2 3 6) r hr (by show 64 * 5 ≤ 2 ^ 53; norm_num) (by rw [hn]; norm_num)
    (by rw [hn]; exact small64' (by norm_num)) (τ := 1 / 10 ^ 6) (by norm_num) greater64.1 greater64.2 (ω := (2 : ℝ)⁻¹ ^ 500) (by positivity) root64
  have hδ : δ ≤ 0 := by
    have : (0 : ℝ) = Spec.dist (fun i => ((p64 201 302 603) i).1) (fun i => ((p64 201 302 603) i).1) := by simp [Spec.dist]
    refine h1.2 ⟨_, rfl, _, ⟨100, by norm_num, ?_⟩, this⟩
    rw [p64_vals, p64_vals, p64_vals]
    funext i; fin_cases i <;> (simp [Spec.pointAt]; try norm_num)
  have hW : Spec.dist (fun i => ((p64 201 302 603) i).1) (fun i => ((p64 1 2 3) i).1) = 700 := by
    rw [p64_vals, p64_vals]; exact dist3 _ _ _ _ _ _ 700 (by norm_num) (by norm_num)
  rw [hW] at h2
  have h3 := (abs_le.1 h2).2
  have h4 := unit64'
  have h5 := root64'
  push_cast at h3
  generalize (2 : ℝ)⁻¹ ^ binary64.prec = μ at h3 h4 h5 ⊢
  generalize (2 : ℝ)⁻¹ ^ 500 = ν at h3 h4 h5 ⊢
  norm_num at h3 h4 h5 ⊢
  linarith

theorem emin64' : ∀ k, binary64.emin = some k → (2 : ℝ) ^ k ≤ 1 / 10 ^ 20 := by
  intro k hk
  cases hk
  calc (2 : ℝ) ^ (-1074 : ℤ) ≤ 2 ^ (-70 : ℤ) := zpow_le_zpow_right₀ (by norm_num) (by norm_num)
    _ ≤ _ := by norm_num

/-- A point of the plane through (1, 2, 3) with the normal (2, 3, 6). -/
example : (distPlaneVec (Plane.make (p64 1 2 3) (p64 2 3 6)) (p64 7 (-2) 3)).1 ≤ 1 / 10 ^ 12 := by
  have hn : Spec.norm (fun i => ((p64 2 3 6) i).1) = 7 := by
    rw [p64_vals]; exact norm3 _ _ _ 7 (by norm_num) (by norm_num)
  obtain ⟨δ, h1, h2⟩ := C104_plane_make (p64 7 (-2) 3) (p64 1 2 3) (p64 2 3 6) (by show 9 ≤ 53; norm_num) (by rw [hn]; norm_num)
    (by rw [hn]; exact small64' (by norm_num)) (ω := 1 / 10 ^ 20) (by norm_num) emin64'
  have hδ : δ ≤ 0 := by
    have : (0 : ℝ) = Spec.dist (fun i => ((p64 7 (-2) 3) i).1) (fun i => ((p64 7 (-2) 3) i).1) := by simp [Spec.dist]
    refine h1.2 ⟨_, rfl, _, ?_, this⟩
    rw [p64_vals, p64_vals, p64_vals]
    simp [Spec.plane, Fin.sum_univ_three]
    norm_num
  have hW : Spec.dist (fun i => ((p64 7 (-2) 3) i).1) (fun i => ((p64 1 2 3) i).1) ≤ 8 := by
    rw [p64_vals, p64_vals]
    unfold Spec.dist
    rw [Fin.sum_univ_three]
    apply Real.sqrt_le_iff.2
    constructor
    · norm_num
    · simp; norm_num
  have h3 := (abs_le.1 h2).2
  have h4 := unit64'
  have hu : (0 : ℝ) < (2 : ℝ)⁻¹ ^ binary64.prec := by positivity
  have h6 := mul_le_mul_of_nonneg_left hW hu.le
  generalize (2 : ℝ)⁻¹ ^ binary64.prec = μ at h3 h4 h6 ⊢
  norm_num at h3 h4 h6 ⊢
  linarith

/-- A plane whose normal is stored exactly. -/
example : |(distPlaneVec ⟨p64 1 2 3, p64 0 1 0⟩ (p64 3 5 9)).1 - 3| ≤ 1 / 10 ^ 12 := by
  have hn : Spec.norm (fun i => ((p64 0 1 0) i).1) = 1 := by
    rw [p64_vals]; exact norm3 _ _ _ 1 (by norm_num) (by norm_num)
  obtain ⟨δ, h1, h2⟩ := C104_point_plane (p64 3 5 9) ⟨p64 1 2 3, p64 0 1 0⟩ (by show 9 ≤ 53; norm_num) emin64 (η := 0)
    (by rw [hn]; norm_num) (by norm_num) (ω := 1 / 10 ^ 20) (by norm_num) emin64'
  have hδ : δ = 3 := by
    have e : ∀ (n : ℤ) (h : |n| < 2 ^ 53), (fl64 n h).1 = (n : ℝ) := fun _ _ => rfl
    have h := C22_point_plane (fun i => ((p64 1 2 3) i).1) (fun i => ((p64 0 1 0) i).1) (fun i => ((p64 3 5 9) i).1) (vals_ne_zero (by rw [hn]; norm_num))
    rw [h1.unique h]
    unfold distPlaneVec Plane.make
    rw [stdAbs_eq, dot_eq, ← normalized_eq, hn]
    simp only [div_one, dotProduct, Fin.sum_univ_three, vsub, p64, Matrix.cons_val_zero, Matrix.cons_val_one, Matrix.cons_val, e]
    norm_num
  have hW : Spec.dist (fun i => ((p64 3 5 9) i).1) (fun i => ((p64 1 2 3) i).1) = 7 := by
    rw [p64_vals, p64_vals]; exact dist3 _ _ _ _ _ _ 7 (by norm_num) (by norm_num)
  rw [hδ] at h2
  refine h2.trans ?_
  show 12 * (2 : ℝ)⁻¹ ^ binary64.prec * Spec.dist (fun i => ((p64 3 5 9) i).1) (fun i => ((p64 1 2 3) i).1) + _ + _ ≤ _
  rw [hW]
  have h4 := unit64'
  generalize (2 : ℝ)⁻¹ ^ binary64.prec = μ at h4 ⊢
  norm_num at h4 ⊢
  linarith

/-- A point outside a sphere. -/
example : |(signedDistSphere (p64 3 5 9) ⟨p64 1 2 3, fl64 2⟩).1 - 5| ≤ 1 / 10 ^ 12 := by
  have h := (C104_point_sphere (p64 3 5 9) ⟨p64 1 2 3, fl64 2⟩ (by show 9 ≤ 53; norm_num) emin64 (ω := (2 : ℝ)⁻¹ ^ 500) (by positivity)
    (fun k hk => le_trans (by norm_num) (root64 k hk))).1
  have hW : Spec.dist (fun i => ((p64 3 5 9) i).1) (fun i => ((p64 1 2 3) i).1) = 7 := by
    rw [p64_vals, p64_vals]; exact dist3 _ _ _ _ _ _ 7 (by norm_num) (by norm_num)
  simp only [hW] at h
  have e : ((fl64 2 : Fl binary64)).1 = 2 := by show ((2 : ℤ) : ℝ) = 2; norm_num
  rw [e] at h
  have h4 := unit64'
  have h5 := root64'
  generalize (2 : ℝ)⁻¹ ^ binary64.prec = μ at h h4 h5 ⊢
  generalize (2 : ℝ)⁻¹ ^ 500 = ν at h h4 h5 ⊢
  norm_num at h h4 h5 ⊢
  linarith
end Examples
end Verif
