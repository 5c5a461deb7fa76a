import Verif.Proofs.FloatClosest

/-!
# C114, C115: closest points of lines in floating point

`closest_point_on_line_parameters`, `intersect(Line3, Line3)` and `distance(Line, Ray)` evaluated in a floating-point
format, against the exact lines of the stored values.
-/

namespace Verif
open Matrix

set_option linter.unusedSectionVars false

variable {F : FloatFormat}

theorem norm_smul_abs {D : ℕ} (c : ℝ) (d : Vec ℝ D) : Spec.norm (fun i => c * d i) = |c| * Spec.norm d := by
  rw [← norm_abs', ← norm_abs' d, ← norm_smul' (abs_nonneg _)]
  congr 1
  funext i
  exact abs_mul _ _

theorem pointAt_sub_pointAt {D : ℕ} (lo n ro m : Vec ℝ D) (t s : ℝ) :
    Spec.pointAt lo n t - Spec.pointAt ro m s = (lo - ro) + t • n - s • m := by
  rw [pointAt_eq, pointAt_eq]; abel

/-- The points at critical parameters are closest. -/
theorem critical_distance {D : ℕ} {lo n ro m : Vec ℝ D} {t z : ℝ} (h1 : ((lo - ro) + t • n - z • m) ⬝ᵥ n = 0)
    (h2 : ((lo - ro) + t • n - z • m) ⬝ᵥ m = 0) :
    Spec.IsDistance (Spec.line lo n) (Spec.line ro m) (Spec.dist (Spec.pointAt lo n t) (Spec.pointAt ro m z)) := by
  refine IsDistance_intro ⟨_, rfl⟩ ⟨_, rfl⟩ ?_
  rintro _ ⟨t', rfl⟩ _ ⟨s', rfl⟩
  rw [pointAt_sub_pointAt, pointAt_sub_pointAt, sq_two_lines h1 h2 t' s']
  have := dp_self_nonneg ((t' - t) • n - (s' - z) • m)
  linarith

/-- The distance of a line and a ray: that of the lines if the closest point of the second line is on the ray. -/
theorem critical_ray_front {D : ℕ} {lo n ro m : Vec ℝ D} {t z : ℝ} (h1 : ((lo - ro) + t • n - z • m) ⬝ᵥ n = 0)
    (h2 : ((lo - ro) + t • n - z • m) ⬝ᵥ m = 0) (hz : 0 ≤ z) :
    Spec.IsDistance (Spec.line lo n) (Spec.ray ro m) (Spec.dist (Spec.pointAt lo n t) (Spec.pointAt ro m z)) := by
  have h := critical_distance h1 h2
  refine ⟨⟨_, ⟨t, rfl⟩, _, ⟨z, hz, rfl⟩, rfl⟩, ?_⟩
  rintro x ⟨p, hp, _, ⟨s', -, rfl⟩, rfl⟩
  exact h.2 ⟨p, hp, _, ⟨s', rfl⟩, rfl⟩

/-- The distance of a line and a ray: that of the origin of the ray otherwise. -/
theorem critical_ray_back {D : ℕ} {lo n ro m : Vec ℝ D} {t z δ : ℝ} (h1 : ((lo - ro) + t • n - z • m) ⬝ᵥ n = 0)
    (h2 : ((lo - ro) + t • n - z • m) ⬝ᵥ m = 0) (hz : z < 0) (hs : Spec.IsDistance {ro} (Spec.line lo n) δ) :
    Spec.IsDistance (Spec.line lo n) (Spec.ray ro m) δ := by
  obtain ⟨⟨p', hp', q, ⟨t₀, rfl⟩, hv⟩, hmin⟩ := hs
  obtain rfl : p' = ro := hp'
  refine ⟨⟨_, ⟨t₀, rfl⟩, p', ⟨0, le_refl _, by rw [pointAt_eq]; simp⟩, by rw [hv, dist_comm']⟩, ?_⟩
  rintro x ⟨_, ⟨t', rfl⟩, _, ⟨s', hs', rfl⟩, rfl⟩
  have hpos : 0 < s' - z := by linarith
  set l := -z / (s' - z)
  have hl0 : 0 ≤ l := div_nonneg (by linarith) hpos.le
  have hl1 : l ≤ 1 := by rw [div_le_one hpos]; linarith
  let _ := realTol
  have := realTol_lawful
  have hconv := sq_two_lines_convex h1 h2 t' s' l hl0 hl1
  have hz : z + l * (s' - z) = 0 := by simp only [l]; field_simp; ring
  rw [hz] at hconv
  refine (hmin ⟨_, rfl, _, ⟨t + l * (t' - t), rfl⟩, rfl⟩).trans ?_
  rw [dist_comm', spec_dist_eq, spec_dist_eq, pointAt_sub_pointAt]
  apply Real.sqrt_le_sqrt
  refine le_trans (le_of_eq ?_) hconv
  have : Spec.pointAt lo n (t + l * (t' - t)) - p' = lo - p' + (t + l * (t' - t)) • n - (0 : ℝ) • m := by
    rw [pointAt_eq, zero_smul]; abel
  rw [this]

/-- The distance from the origin of the second line to the first is that of the lines up to the parameter. -/
theorem origin_distance_close {D : ℕ} {lo n ro m : Vec ℝ D} {t z δ : ℝ} (h1 : ((lo - ro) + t • n - z • m) ⬝ᵥ n = 0)
    (h2 : ((lo - ro) + t • n - z • m) ⬝ᵥ m = 0) (hs : Spec.IsDistance {ro} (Spec.line lo n) δ) :
    |δ - Spec.dist (Spec.pointAt lo n t) (Spec.pointAt ro m z)| ≤ |z| * Spec.norm m := by
  have hle : Spec.dist (Spec.pointAt lo n t) (Spec.pointAt ro m z) ≤ δ := by
    obtain ⟨⟨p', hp', q, hq, hv⟩, -⟩ := hs
    obtain rfl : p' = ro := hp'
    rw [hv, dist_comm' p']
    exact (critical_distance h1 h2).2 ⟨q, hq, p', ⟨0, by rw [pointAt_eq]; simp⟩, rfl⟩
  have h3 : δ ≤ Spec.dist ro (Spec.pointAt lo n t) := hs.2 ⟨ro, rfl, _, ⟨t, rfl⟩, rfl⟩
  have h4 := dist_triangle' ro (Spec.pointAt ro m z) (Spec.pointAt lo n t)
  have h5 : Spec.dist ro (Spec.pointAt ro m z) = |z| * Spec.norm m := by
    rw [← norm_smul_abs, dist_comm']
    unfold Spec.dist Spec.norm
    congr 1
    refine Finset.sum_congr rfl fun i _ => ?_
    congr 1
    show ro i + z * m i - ro i = _
    ring
  rw [dist_comm' (Spec.pointAt ro m z)] at h4
  rw [abs_of_nonneg (by linarith)]
  linarith

/-- The distance of a line and a parallel ray is that of the origin of the ray. -/
theorem parallel_ray_distance {D : ℕ} {lo n ro m : Vec ℝ D} {δ : ℝ} (hn0 : n ≠ 0) (hg : Spec.gram n m = 0) (hs : Spec.IsDistance {ro} (Spec.line lo n) δ) :
    Spec.IsDistance (Spec.line lo n) (Spec.ray ro m) δ := by
  have hm := parallel_of_gram_eq_zero hn0 hg
  set c := m ⬝ᵥ n / (n ⬝ᵥ n)
  obtain ⟨⟨p', hp', q, ⟨t, rfl⟩, hv⟩, hleast⟩ := hs
  obtain rfl : p' = ro := hp'
  refine ⟨⟨_, ⟨t, rfl⟩, p', ⟨0, le_refl _, by rw [pointAt_eq]; simp⟩, by rw [hv, dist_comm']⟩, ?_⟩
  rintro x ⟨_, ⟨t', rfl⟩, _, ⟨s', hs', rfl⟩, rfl⟩
  refine (hleast ⟨p', rfl, _, ⟨t' - s' * c, rfl⟩, rfl⟩).trans (le_of_eq ?_)
  rw [dist_comm', spec_dist_eq, spec_dist_eq]
  have : Spec.pointAt lo n (t' - s' * c) - p' = Spec.pointAt lo n t' - Spec.pointAt p' m s' := by
    rw [pointAt_eq, pointAt_eq, pointAt_eq, hm, smul_smul, sub_smul]; abel
  rw [this]

/-- Lines that are not parallel have at most one common point. -/
theorem lines_meet_once {D : ℕ} {lo n ro m : Vec ℝ D} (hg : 0 < Spec.gram n m) {p x : Vec ℝ D} (hp1 : p ∈ Spec.line lo n) (hp2 : p ∈ Spec.line ro m)
    (hx1 : x ∈ Spec.line lo n) (hx2 : x ∈ Spec.line ro m) : p = x := by
  obtain ⟨t, ht⟩ := hp1
  obtain ⟨s, hs⟩ := hp2
  obtain ⟨t', ht'⟩ := hx1
  obtain ⟨s', hs'⟩ := hx2
  have e1 : p - x = (t - t') • n := by rw [ht, ht', pointAt_eq, pointAt_eq, sub_smul]; abel
  have e2 : p - x = (s - s') • m := by rw [hs, hs', pointAt_eq, pointAt_eq, sub_smul]; abel
  by_contra hne
  have hc : t - t' ≠ 0 := fun h => hne (by rw [h, zero_smul] at e1; exact sub_eq_zero.1 e1)
  have e3 : n = ((s - s') / (t - t')) • m := by
    rw [div_eq_inv_mul, ← smul_smul, ← e2, e1, smul_smul, inv_mul_cancel₀ hc, one_smul]
  rw [gram_eq, e3] at hg
  simp only [smul_dotProduct, dotProduct_smul, smul_eq_mul] at hg
  linarith

theorem length_nonneg_fl {D : ℕ} (v : Vec (Fl F) D) : 0 ≤ (length v).1 := by
  unfold length
  rw [Fl.val_sqrt]
  exact F.rounds.nonneg (Real.sqrt_nonneg _)

/-- The computed closest points and their distance. -/
theorem closest_points [Tol (Fl F)] (lo a ro b : Vec (Fl F) 3) (eps : Fl F) (hp : 9 ≤ F.prec) (hmin : ∀ k, F.emin = some k → k ≤ -4 * (F.prec : ℤ))
    (ha : Spec.norm (Fl.vals a) ≤ 33 / 32) (hb : Spec.norm (Fl.vals b) ≤ 33 / 32) {s ω : ℝ} (hs0 : 0 < s)
    (hs : s ^ 2 ≤ Spec.gram (Fl.vals a) (Fl.vals b)) (hu : 256 * F.unit ≤ s ^ 2) (hω : F.tiny * (1 / s ^ 2 + 1) ≤ ω) (hr : F.root 3 ≤ ω)
    (hz : ∀ x : Fl F, 1 / 2 * s ^ 2 ≤ |x.1| → Tol.isZero x eps = false) :
    ∃ par t z, closestPointOnLineParameters lo a ro b eps = some par ∧
      ((Fl.vals lo - Fl.vals ro) + t • Fl.vals a - z • Fl.vals b) ⬝ᵥ Fl.vals a = 0 ∧
      ((Fl.vals lo - Fl.vals ro) + t • Fl.vals a - z • Fl.vals b) ⬝ᵥ Fl.vals b = 0 ∧
      |par.s.1 - z| ≤ 126 * (F.unit / s ^ 2 * (Spec.dist (Fl.vals lo) (Fl.vals ro) / s)) + 36 * ω ∧
      Spec.dist (Fl.vals (vadd lo (vscale a par.t))) (Spec.pointAt (Fl.vals lo) (Fl.vals a) t)
        ≤ F.unit * Spec.norm (Fl.vals lo) + 135 * (F.unit / s ^ 2 * (Spec.dist (Fl.vals lo) (Fl.vals ro) / s)) + 43 * ω ∧
      Spec.dist (Fl.vals (vadd ro (vscale b par.s))) (Spec.pointAt (Fl.vals ro) (Fl.vals b) z)
        ≤ F.unit * Spec.norm (Fl.vals ro) + 135 * (F.unit / s ^ 2 * (Spec.dist (Fl.vals lo) (Fl.vals ro) / s)) + 43 * ω ∧
      |(length (vsub (vadd lo (vscale a par.t)) (vadd ro (vscale b par.s)))).1
          - Spec.dist (Spec.pointAt (Fl.vals lo) (Fl.vals a) t) (Spec.pointAt (Fl.vals ro) (Fl.vals b) z)|
        ≤ 2 * F.unit * (Spec.norm (Fl.vals lo) + Spec.norm (Fl.vals ro))
          + 290 * (F.unit / s ^ 2 * (Spec.dist (Fl.vals lo) (Fl.vals ro) / s)) + 92 * ω := by
  obtain ⟨-, h⟩ := closest_err lo a ro b eps hp hmin ha hb
  obtain ⟨par, t, z, hpar, c1, c2, htK, hzK, et, ez⟩ := h s _ ω hs0 hs hu rfl hω hz
  obtain ⟨ht, hu1⟩ := tiny_small hmin hp
  have hu0 := F.unit_pos
  have ht0 := F.tiny_nonneg
  have htt := tiny_of_emin (F := F) fun k hk => by have := hmin k hk; omega
  have hD : 64 * (3 + 2) ≤ 2 ^ F.prec := le_trans (by norm_num) (Nat.pow_le_pow_right (by norm_num) hp)
  have hq : 0 < s ^ 2 := by positivity
  have hω2 : F.tiny ≤ ω := by
    have : 0 ≤ F.tiny * (1 / s ^ 2) := by positivity
    linarith
  have hω0 : 0 ≤ ω := ht0.trans hω2
  have hs2 : s ^ 2 ≤ 8 / 7 := by
    refine hs.trans ?_
    rw [gram_eq]
    have k1 : Fl.vals a ⬝ᵥ Fl.vals a ≤ 33 / 32 * (33 / 32) := by
      rw [dp_self_norm, sq]; exact mul_le_mul ha ha (norm_nonneg' _) (by norm_num)
    have k2 : Fl.vals b ⬝ᵥ Fl.vals b ≤ 33 / 32 * (33 / 32) := by
      rw [dp_self_norm, sq]; exact mul_le_mul hb hb (norm_nonneg' _) (by norm_num)
    have h2 := mul_le_mul k1 k2 (dp_self_nonneg _) (by norm_num)
    have h3 := mul_self_nonneg (Fl.vals a ⬝ᵥ Fl.vals b)
    linarith
  have hs1 : s ≤ 16 / 15 + 1 / 240 := by
    refine le_of_sq_le_sq (hs2.trans ?_) (by norm_num)
    norm_num
  set K := Spec.dist (Fl.vals lo) (Fl.vals ro) / s with hK
  have hW0 := dist_nonneg' (Fl.vals lo) (Fl.vals ro)
  have hK0 : 0 ≤ K := by rw [hK]; positivity
  have hWK : Spec.dist (Fl.vals lo) (Fl.vals ro) = s * K := by rw [hK]; field_simp
  set α := F.unit / s ^ 2 with hα
  have ha1 : α ≤ 1 / 256 := by rw [hα, div_le_iff₀ hq]; linarith
  have ha2 : F.unit ≤ 8 / 7 * α := by
    rw [hα, mul_div_assoc', le_div_iff₀ hq]
    have := mul_le_mul_of_nonneg_left hs2 hu0.le
    linarith
  have hαK : 0 ≤ α * K := by positivity
  have huK : F.unit * K ≤ 8 / 7 * (α * K) := by
    have := mul_le_mul_of_nonneg_right ha2 hK0
    linarith
  have pt : ∀ (o d : Vec (Fl F) 3) (t' : Fl F) (t : ℝ), Spec.norm (Fl.vals d) ≤ 33 / 32 → |t| ≤ 33 / 32 * K → |t'.1 - t| ≤ 126 * (α * K) + 36 * ω →
      Spec.dist (Fl.vals (vadd o (vscale d t'))) (Spec.pointAt (Fl.vals o) (Fl.vals d) t)
        ≤ F.unit * Spec.norm (Fl.vals o) + 135 * (α * K) + 43 * ω := by
    intro o d t' t hd h1 h2
    refine (param_point_err o d t' hu1 hd hK0 ha1 ha2 hω2 h1 h2).trans ?_
    have h3 : Spec.norm (Spec.pointAt (Fl.vals o) (Fl.vals d) t) ≤ Spec.norm (Fl.vals o) + 33 / 32 * K * (33 / 32) := by
      refine (norm_add_le' (Fl.vals o) (fun i => t * Fl.vals d i)).trans (add_le_add le_rfl ?_)
      rw [norm_smul_abs]
      exact mul_le_mul h1 hd (norm_nonneg' _) (by positivity)
    have h4 := mul_le_mul_of_nonneg_left h3 hu0.le
    linarith
  have p1 := pt lo a par.t t ha htK et
  have p2 := pt ro b par.s z hb hzK ez
  refine ⟨par, t, z, hpar, c1, c2, ez, p1, p2, ?_⟩
  have hdist := critical_distance c1 c2
  set P := Spec.pointAt (Fl.vals lo) (Fl.vals a) t with hP
  set Q := Spec.pointAt (Fl.vals ro) (Fl.vals b) z with hQ
  set p := vadd lo (vscale a par.t) with hpp
  set q := vadd ro (vscale b par.s) with hqq
  have hδ : Spec.dist P Q ≤ Spec.dist (Fl.vals lo) (Fl.vals ro) :=
    hdist.2 ⟨_, ⟨0, by rw [pointAt_eq]; simp⟩, _, ⟨0, by rw [pointAt_eq]; simp⟩, rfl⟩
  have hL := distance_abs p q hD htt
  push_cast at hL
  have x1 := dist_triangle' (Fl.vals p) P (Fl.vals q)
  have x2 := dist_triangle' P Q (Fl.vals q)
  have x3 := dist_triangle' P (Fl.vals p) Q
  have x4 := dist_triangle' (Fl.vals p) (Fl.vals q) Q
  rw [dist_comm' Q] at x2
  rw [dist_comm' P (Fl.vals p)] at x3
  set X := Spec.dist (Fl.vals p) (Fl.vals q) with hX
  set E1 := Spec.dist (Fl.vals p) P with hE1
  set E2 := Spec.dist (Fl.vals q) Q with hE2
  have hE10 : 0 ≤ E1 := dist_nonneg' _ _
  have hE20 : 0 ≤ E2 := dist_nonneg' _ _
  have y1 : F.unit * X ≤ F.unit * (16 / 15 * K + 1 / 240 * K + (E1 + E2)) := by
    refine mul_le_mul_of_nonneg_left ?_ hu0.le
    have := mul_le_mul_of_nonneg_right hs1 hK0
    linarith
  have y2 : F.unit * (E1 + E2) ≤ 1 / 512 * (E1 + E2) := mul_le_mul_of_nonneg_right hu1 (by linarith)
  have n1 : 0 ≤ F.unit * Spec.norm (Fl.vals lo) := mul_nonneg hu0.le (norm_nonneg' _)
  have n2 : 0 ≤ F.unit * Spec.norm (Fl.vals ro) := mul_nonneg hu0.le (norm_nonneg' _)
  obtain ⟨l1, l2⟩ := abs_le.1 hL
  rw [abs_le]
  constructor <;> linarith

/-! ### C114 -/

section
variable [Tol (Fl F)]

/-- C114: `intersect(Line3, Line3)` in floating point, for directions of about unit length whose squared sine is at
least `s² ≥ 256·2^-p`.  With `P`, `Q` the closest points of the exact lines, `a = 2^-p/s²` and `K` the distance of the
origins divided by `s`: a reported point is within `2^-p·|lhs.origin| + 135·a·K + 43·ω` of `P`, a point is reported if
the lines are closer than the threshold of the tolerance less the error `E`, and none if they are further apart than
the threshold plus `E`, where `E = 2·2^-p·(|lhs.origin| + |rhs.origin|) + 290·a·K + 92·ω`. -/
theorem C114_line_3d (l r : Line (Fl F) 3) (e : Fl F) (hp : 9 ≤ F.prec) (hmin : ∀ k, F.emin = some k → k ≤ -4 * (F.prec : ℤ))
    (hl : Spec.norm (fun i => (l.direction i).1) ≤ 33 / 32) (hr : Spec.norm (fun i => (r.direction i).1) ≤ 33 / 32)
    {s ω : ℝ} (hs0 : 0 < s) (hs : s ^ 2 ≤ Spec.gram (fun i => (l.direction i).1) (fun i => (r.direction i).1))
    (hu : 256 * (2 : ℝ)⁻¹ ^ F.prec ≤ s ^ 2) (hω0 : 0 ≤ ω) (hω : ∀ k, F.emin = some k → (2 : ℝ) ^ k * (1 / s ^ 2 + 1) ≤ ω)
    (hω2 : ∀ k, F.emin = some k → 10 * (2 : ℝ) ^ k ≤ ω ^ 2)
    (hz : ∀ x : Fl F, 1 / 2 * s ^ 2 ≤ |x.1| → isZero x = false) {E : ℝ}
    (hE : E = 2 * (2 : ℝ)⁻¹ ^ F.prec * (Spec.norm (fun i => (l.origin i).1) + Spec.norm (fun i => (r.origin i).1))
      + 290 * ((2 : ℝ)⁻¹ ^ F.prec / s ^ 2 * (Spec.dist (fun i => (l.origin i).1) (fun i => (r.origin i).1) / s)) + 92 * ω) :
    ∃ P Q, P ∈ Spec.line (fun i => (l.origin i).1) (fun i => (l.direction i).1) ∧ Q ∈ Spec.line (fun i => (r.origin i).1) (fun i => (r.direction i).1) ∧
      Spec.IsDistance (Spec.line (fun i => (l.origin i).1) (fun i => (l.direction i).1))
        (Spec.line (fun i => (r.origin i).1) (fun i => (r.direction i).1)) (Spec.dist P Q) ∧
      (∀ q, intersectLine3 l r e = some q → Spec.dist (fun i => (q i).1) P ≤ (2 : ℝ)⁻¹ ^ F.prec * Spec.norm (fun i => (l.origin i).1)
        + 135 * ((2 : ℝ)⁻¹ ^ F.prec / s ^ 2 * (Spec.dist (fun i => (l.origin i).1) (fun i => (r.origin i).1) / s)) + 43 * ω) ∧
      (∀ θ, (∀ x : Fl F, |x.1| ≤ θ → Tol.isZero x e = true) → Spec.dist P Q + E ≤ θ → intersectLine3 l r e ≠ none) ∧
      (∀ θ, (∀ x : Fl F, θ < |x.1| → Tol.isZero x e = false) → θ + E < Spec.dist P Q → intersectLine3 l r e = none) := by
  have hω' : F.tiny * (1 / s ^ 2 + 1) ≤ ω := by
    unfold FloatFormat.tiny
    split
    · rw [zero_mul]; exact hω0
    · next k hk => exact hω k hk
  obtain ⟨par, t, z, hpar, c1, c2, -, p1, -, hL⟩ := closest_points l.origin l.direction r.origin r.direction Tol.eps hp hmin hl hr hs0 hs hu hω'
    (root_le hω0 fun k hk => by have := hω2 k hk; push_cast; linarith) hz
  have hrun : intersectLine3 l r e = if Tol.isZero (length (vsub (vadd l.origin (vscale l.direction par.t)) (vadd r.origin (vscale r.direction par.s)))) e
      then some (vadd l.origin (vscale l.direction par.t)) else none := by
    unfold intersectLine3
    rw [hpar]
  rw [hrun]
  refine ⟨_, _, ⟨t, rfl⟩, ⟨z, rfl⟩, critical_distance c1 c2, ?_, ?_, ?_⟩
  · intro q hq
    split at hq
    · cases hq
      exact p1
    · cases hq
  · intro θ h1 h2
    rw [h1, if_pos rfl]
    · simp
    · change |_ - Spec.dist (Spec.pointAt (fun i => (l.origin i).1) (fun i => (l.direction i).1) t) (Spec.pointAt (fun i => (r.origin i).1) (fun i => (r.direction i).1) z)|
        ≤ _ at hL
      obtain ⟨l1, l2⟩ := abs_le.1 hL
      rw [abs_of_nonneg (length_nonneg_fl _)]
      refine le_trans ?_ h2
      rw [hE]
      change _ ≤ _ + (2 * F.unit * (Spec.norm (Fl.vals l.origin) + Spec.norm (Fl.vals r.origin)) + 290 * (F.unit / s ^ 2 * (Spec.dist (Fl.vals l.origin) (Fl.vals r.origin) / s)) + 92 * ω)
      linarith
  · intro θ h1 h2
    rw [h1]
    · simp
    · change |_ - Spec.dist (Spec.pointAt (fun i => (l.origin i).1) (fun i => (l.direction i).1) t) (Spec.pointAt (fun i => (r.origin i).1) (fun i => (r.direction i).1) z)|
        ≤ _ at hL
      obtain ⟨l1, l2⟩ := abs_le.1 hL
      refine lt_of_lt_of_le ?_ (le_abs_self _)
      rw [hE] at h2
      change θ + (2 * F.unit * (Spec.norm (Fl.vals l.origin) + Spec.norm (Fl.vals r.origin)) + 290 * (F.unit / s ^ 2 * (Spec.dist (Fl.vals l.origin) (Fl.vals r.origin) / s)) + 92 * ω) < _ at h2
      linarith

/-- C114: lines with a common point are reported to meet, near that point, if the tolerance covers the rounding error. -/
theorem C114_common_point (l r : Line (Fl F) 3) (e : Fl F) (hp : 9 ≤ F.prec) (hmin : ∀ k, F.emin = some k → k ≤ -4 * (F.prec : ℤ))
    (hl : Spec.norm (fun i => (l.direction i).1) ≤ 33 / 32) (hr : Spec.norm (fun i => (r.direction i).1) ≤ 33 / 32)
    {s ω : ℝ} (hs0 : 0 < s) (hs : s ^ 2 ≤ Spec.gram (fun i => (l.direction i).1) (fun i => (r.direction i).1))
    (hu : 256 * (2 : ℝ)⁻¹ ^ F.prec ≤ s ^ 2) (hω0 : 0 ≤ ω) (hω : ∀ k, F.emin = some k → (2 : ℝ) ^ k * (1 / s ^ 2 + 1) ≤ ω)
    (hω2 : ∀ k, F.emin = some k → 10 * (2 : ℝ) ^ k ≤ ω ^ 2)
    (hz : ∀ x : Fl F, 1 / 2 * s ^ 2 ≤ |x.1| → isZero x = false) {x : Fin 3 → ℝ}
    (hxl : x ∈ Spec.line (fun i => (l.origin i).1) (fun i => (l.direction i).1)) (hxr : x ∈ Spec.line (fun i => (r.origin i).1) (fun i => (r.direction i).1))
    (he : ∀ y : Fl F, |y.1| ≤ 2 * (2 : ℝ)⁻¹ ^ F.prec * (Spec.norm (fun i => (l.origin i).1) + Spec.norm (fun i => (r.origin i).1))
      + 290 * ((2 : ℝ)⁻¹ ^ F.prec / s ^ 2 * (Spec.dist (fun i => (l.origin i).1) (fun i => (r.origin i).1) / s)) + 92 * ω → Tol.isZero y e = true) :
    ∃ q, intersectLine3 l r e = some q ∧ Spec.dist (fun i => (q i).1) x ≤ (2 : ℝ)⁻¹ ^ F.prec * Spec.norm (fun i => (l.origin i).1)
        + 135 * ((2 : ℝ)⁻¹ ^ F.prec / s ^ 2 * (Spec.dist (fun i => (l.origin i).1) (fun i => (r.origin i).1) / s)) + 43 * ω := by
  obtain ⟨P, Q, hP, hQ, hd, hq, hsome, -⟩ := C114_line_3d l r e hp hmin hl hr hs0 hs hu hω0 hω hω2 hz rfl
  have h0 : Spec.dist P Q = 0 := by
    refine le_antisymm ?_ (dist_nonneg' _ _)
    refine (hd.2 ⟨x, hxl, x, hxr, rfl⟩).trans (le_of_eq ?_)
    rw [spec_dist_eq, sub_self, dotProduct_zero, Real.sqrt_zero]
  have hPQ : P = Q := by
    have h1 : (∑ i, (P i - Q i) ^ 2) = 0 := by
      have h2 := (Real.sqrt_eq_zero (Finset.sum_nonneg fun i _ => sq_nonneg (P i - Q i))).1 h0
      exact h2
    funext i
    have h3 := (Finset.sum_eq_zero_iff_of_nonneg fun i _ => sq_nonneg (P i - Q i)).1 h1 i (Finset.mem_univ i)
    have := pow_eq_zero_iff (two_ne_zero) |>.1 h3
    linarith
  subst hPQ
  have hg : 0 < Spec.gram (fun i => (l.direction i).1) (fun i => (r.direction i).1) := lt_of_lt_of_le (by positivity) hs
  have hPx : P = x := lines_meet_once hg hP hQ hxl hxr
  rw [h0, zero_add] at hsome
  have h1 := hsome _ he le_rfl
  obtain ⟨q, hq1⟩ := Option.ne_none_iff_exists'.1 h1
  refine ⟨q, hq1, ?_⟩
  rw [← hPx]
  exact hq q hq1

/-- C114: `distance(Line, Ray)` in floating point, for directions of about unit length whose squared sine is at least
`s² ≥ 256·2^-p`: with `a = 2^-p/s²` and `K` the distance of the origins divided by `s`, the result is within
`2·2^-p·(|line.origin| + |ray.origin|) + 420·a·K + 130·ω` of the distance of the exact line and the exact ray. -/
theorem C114_line_ray (l : Line (Fl F) 3) (r : Ray (Fl F) 3) (hp : 9 ≤ F.prec) (hmin : ∀ k, F.emin = some k → k ≤ -4 * (F.prec : ℤ))
    (hl : |Spec.norm (fun i => (l.direction i).1) - 1| ≤ 1 / 32) (hr : Spec.norm (fun i => (r.direction i).1) ≤ 33 / 32)
    {s ω : ℝ} (hs0 : 0 < s) (hs : s ^ 2 ≤ Spec.gram (fun i => (l.direction i).1) (fun i => (r.direction i).1))
    (hu : 256 * (2 : ℝ)⁻¹ ^ F.prec ≤ s ^ 2) (hω0 : 0 ≤ ω) (hω : ∀ k, F.emin = some k → (2 : ℝ) ^ k * (1 / s ^ 2 + 1) ≤ ω)
    (hω2 : ∀ k, F.emin = some k → 10 * (2 : ℝ) ^ k ≤ ω ^ 2)
    (hz : ∀ x : Fl F, 1 / 2 * s ^ 2 ≤ |x.1| → isZero x = false) :
    ∃ δ, Spec.IsDistance (Spec.line (fun i => (l.origin i).1) (fun i => (l.direction i).1))
        (Spec.ray (fun i => (r.origin i).1) (fun i => (r.direction i).1)) δ ∧
      |(distLineRay l r).1 - δ| ≤ 2 * (2 : ℝ)⁻¹ ^ F.prec * (Spec.norm (fun i => (l.origin i).1) + Spec.norm (fun i => (r.origin i).1))
        + 420 * ((2 : ℝ)⁻¹ ^ F.prec / s ^ 2 * (Spec.dist (fun i => (l.origin i).1) (fun i => (r.origin i).1) / s)) + 130 * ω := by
  have hu0 := F.unit_pos
  have hω' : F.tiny * (1 / s ^ 2 + 1) ≤ ω := by
    unfold FloatFormat.tiny
    split
    · rw [zero_mul]; exact hω0
    · next k hk => exact hω k hk
  obtain ⟨l1, l2⟩ := abs_le.1 hl
  have hl2 : Spec.norm (Fl.vals l.direction) ≤ 33 / 32 := by
    change Spec.norm (Fl.vals l.direction) - 1 ≤ _ at l2
    linarith
  have hl1 : 31 / 32 ≤ Spec.norm (Fl.vals l.direction) := by
    change _ ≤ Spec.norm (Fl.vals l.direction) - 1 at l1
    linarith
  obtain ⟨par, t, z, hpar, c1, c2, ez, -, -, hL⟩ := closest_points l.origin l.direction r.origin r.direction Tol.eps hp hmin hl2 hr hs0 hs hu hω'
    (root_le hω0 fun k hk => by have := hω2 k hk; push_cast; linarith) hz
  have hD : 64 * (3 + 2) ≤ 2 ^ F.prec := le_trans (by norm_num) (Nat.pow_le_pow_right (by norm_num) hp)
  obtain ⟨δ₀, hδ₀, hv⟩ := C104_point_line r.origin l hD (fun k hk => by have := hmin k hk; omega) (le_trans (by norm_num) hl1) (hl2.trans (by norm_num)) hω0
    (fun k hk => by have := hω2 k hk; push_cast; linarith)
  have hclose := origin_distance_close c1 c2 hδ₀
  have hback := fun h => critical_ray_back c1 c2 h hδ₀
  have hfront := critical_ray_front c1 c2
  change Spec.norm (Fl.vals r.direction) ≤ _ at hr
  change |_ - δ₀| ≤ 8 * (((3 : ℕ) : ℝ) + 2) * F.unit * Spec.dist (Fl.vals r.origin) (Fl.vals l.origin) + 3 * ω at hv
  change 256 * F.unit ≤ s ^ 2 at hu
  show ∃ δ, Spec.IsDistance (Spec.line (Fl.vals l.origin) (Fl.vals l.direction)) (Spec.ray (Fl.vals r.origin) (Fl.vals r.direction)) δ ∧
      |(distLineRay l r).1 - δ| ≤ 2 * F.unit * (Spec.norm (Fl.vals l.origin) + Spec.norm (Fl.vals r.origin))
        + 420 * (F.unit / s ^ 2 * (Spec.dist (Fl.vals l.origin) (Fl.vals r.origin) / s)) + 130 * ω
  push_cast at hv
  rw [dist_comm' (Fl.vals r.origin)] at hv
  set δ := Spec.dist (Spec.pointAt (Fl.vals l.origin) (Fl.vals l.direction) t) (Spec.pointAt (Fl.vals r.origin) (Fl.vals r.direction) z) with hδ
  set W := Spec.dist (Fl.vals l.origin) (Fl.vals r.origin) with hW
  have hW0 : 0 ≤ W := dist_nonneg' _ _
  set A := F.unit / s ^ 2 * (W / s) with hA
  have hA0 : 0 ≤ A := by positivity
  set N := 2 * F.unit * (Spec.norm (Fl.vals l.origin) + Spec.norm (Fl.vals r.origin)) with hN
  have hN0 : 0 ≤ N := mul_nonneg (by positivity) (add_nonneg (norm_nonneg' _) (norm_nonneg' _))
  -- 40 u W is small beside A
  have hWA : F.unit * W ≤ 3 / 2 * A := by
    have hs2 : s ^ 2 ≤ 33 / 32 * (33 / 32) * (33 / 32 * (33 / 32)) := by
      refine hs.trans ?_
      change Spec.gram (Fl.vals l.direction) (Fl.vals r.direction) ≤ _
      rw [gram_eq]
      have k1 : Fl.vals l.direction ⬝ᵥ Fl.vals l.direction ≤ 33 / 32 * (33 / 32) := by
        rw [dp_self_norm, sq]; exact mul_le_mul hl2 hl2 (norm_nonneg' _) (by norm_num)
      have k2 : Fl.vals r.direction ⬝ᵥ Fl.vals r.direction ≤ 33 / 32 * (33 / 32) := by
        rw [dp_self_norm, sq]; exact mul_le_mul hr hr (norm_nonneg' _) (by norm_num)
      have h2 := mul_le_mul k1 k2 (dp_self_nonneg _) (by norm_num)
      have h3 := mul_self_nonneg (Fl.vals l.direction ⬝ᵥ Fl.vals r.direction)
      linarith
    have hs1 : s ≤ 11 / 10 := le_of_sq_le_sq (hs2.trans (by norm_num)) (by norm_num)
    have e : F.unit * W = s ^ 2 * s * A := by rw [hA]; field_simp
    rw [e]
    refine mul_le_mul_of_nonneg_right ?_ hA0
    have := mul_le_mul hs2 hs1 hs0.le (by norm_num)
    linarith
  have hrun : distLineRay l r = if par.s < 0 then distVecLine r.origin l
      else length (vsub (vadd l.origin (vscale l.direction par.t)) (vadd r.origin (vscale r.direction par.s))) := by
    unfold distLineRay
    rw [hpar]
  rw [hrun]
  have hzr : ∀ {c : ℝ}, |z| ≤ c → |z| * Spec.norm (Fl.vals r.direction) ≤ 33 / 32 * c := fun {c} h => by
    have := mul_le_mul h hr (norm_nonneg' _) ((abs_nonneg _).trans h)
    linarith
  obtain ⟨z1, z2⟩ := abs_le.1 ez
  obtain ⟨v1, v2⟩ := abs_le.1 hv
  obtain ⟨L1, L2⟩ := abs_le.1 hL
  obtain ⟨g1, g2⟩ := abs_le.1 hclose
  by_cases hs' : par.s < 0
  · rw [if_pos hs']
    have hneg : par.s.1 < 0 := (Fl.lt_iff _ _).1 hs'
    by_cases hz0 : z < 0
    · refine ⟨δ₀, hback hz0, ?_⟩
      rw [abs_le]
      constructor <;> linarith
    · rw [not_lt] at hz0
      have hzb := hzr (c := 126 * A + 36 * ω) (by rw [abs_of_nonneg hz0]; linarith)
      refine ⟨δ, hfront hz0, ?_⟩
      rw [abs_le]
      constructor <;> linarith
  · rw [if_neg hs']
    have hpos : 0 ≤ par.s.1 := not_lt.1 fun h => hs' ((Fl.lt_iff _ _).2 h)
    by_cases hz0 : z < 0
    · have hzb := hzr (c := 126 * A + 36 * ω) (by rw [abs_of_neg hz0]; linarith)
      refine ⟨δ₀, hback hz0, ?_⟩
      rw [abs_le]
      constructor <;> linarith
    · refine ⟨δ, hfront (not_lt.1 hz0), ?_⟩
      rw [abs_le]
      constructor <;> linarith

/-- C114: `distance(Line, Ray)` in floating point for parallel directions, if the tolerance accepts `45·2^-p` as zero. -/
theorem C114_line_ray_parallel (l : Line (Fl F) 3) (r : Ray (Fl F) 3) (hp : 9 ≤ F.prec) (hmin : ∀ k, F.emin = some k → k ≤ -4 * (F.prec : ℤ))
    (hl : |Spec.norm (fun i => (l.direction i).1) - 1| ≤ 1 / 32) (hr : Spec.norm (fun i => (r.direction i).1) ≤ 33 / 32)
    (hpar : Spec.Parallel (fun i => (l.direction i).1) (fun i => (r.direction i).1))
    (hz : ∀ x : Fl F, |x.1| ≤ 45 * (2 : ℝ)⁻¹ ^ F.prec → isZero x = true)
    {ω : ℝ} (hω0 : 0 ≤ ω) (hω2 : ∀ k, F.emin = some k → 10 * (2 : ℝ) ^ k ≤ ω ^ 2) :
    ∃ δ, Spec.IsDistance (Spec.line (fun i => (l.origin i).1) (fun i => (l.direction i).1))
        (Spec.ray (fun i => (r.origin i).1) (fun i => (r.direction i).1)) δ ∧
      |(distLineRay l r).1 - δ| ≤ 40 * ((2 : ℝ)⁻¹ ^ F.prec * Spec.dist (fun i => (l.origin i).1) (fun i => (r.origin i).1)) + 3 * ω := by
  obtain ⟨l1, l2⟩ := abs_le.1 hl
  have hl2 : Spec.norm (Fl.vals l.direction) ≤ 33 / 32 := by
    change Spec.norm (Fl.vals l.direction) - 1 ≤ _ at l2
    linarith
  have hl1 : 31 / 32 ≤ Spec.norm (Fl.vals l.direction) := by
    change _ ≤ Spec.norm (Fl.vals l.direction) - 1 at l1
    linarith
  have hD : 64 * (3 + 2) ≤ 2 ^ F.prec := le_trans (by norm_num) (Nat.pow_le_pow_right (by norm_num) hp)
  have hg0 : Spec.gram (Fl.vals l.direction) (Fl.vals r.direction) = 0 := gram_eq_zero_of_parallel hpar
  have hden := (closest_err l.origin l.direction r.origin r.direction Tol.eps hp hmin hl2 hr).1
  rw [hg0, sub_zero] at hden
  have hrun : distLineRay l r = distVecLine r.origin l := by
    unfold distLineRay closestPointOnLineParameters
    simp only
    rw [show Tol.isZero _ _ = true from hz _ hden]
    rfl
  rw [hrun]
  obtain ⟨δ₀, hδ₀, hv⟩ := C104_point_line r.origin l hD (fun k hk => by have := hmin k hk; omega) (le_trans (by norm_num) hl1) (hl2.trans (by norm_num)) hω0
    (fun k hk => by have := hω2 k hk; push_cast; linarith)
  refine ⟨δ₀, ?_, ?_⟩
  · exact parallel_ray_distance (n := Fl.vals l.direction) (m := Fl.vals r.direction) (vals_ne_zero (by linarith)) hg0 hδ₀
  · refine hv.trans (le_of_eq ?_)
    rw [dist_comm' (fun i => (r.origin i).1)]
    push_cast
    ring

/-! ### C115 -/

theorem Fl.one_mul_fl (a : Fl F) : 1 * a = a := by rw [Fl.mul_comm_fl, Fl.mul_one_fl]
theorem Fl.sub_zero_fl (a : Fl F) : a - 0 = a := by
  refine Fl.ext ?_
  show F.rnd (a.1 - 0) = a.1
  rw [sub_zero]
  exact F.rounds.exact a.2
theorem Fl.zero_sub_fl (a : Fl F) : 0 - a = -a := by
  refine Fl.ext ?_
  show F.rnd (0 - a.1) = -a.1
  rw [zero_sub, F.rounds.odd, F.rounds.exact a.2]
theorem Fl.div_one_fl (a : Fl F) : a / 1 = a := by
  refine Fl.ext ?_
  show F.rnd (a.1 / 1) = a.1
  rw [div_one]
  exact F.rounds.exact a.2

/-- Subtracting a quarter of the last digit leaves a power of two unchanged. -/
theorem rnd_sub_absorb (j : ℤ) (hj : ∀ k, F.emin = some k → k ≤ j) : F.rnd ((2 : ℝ) ^ (j + F.prec + 2) - 2 ^ j) = 2 ^ (j + F.prec + 2) := by
  have hA : Spec.Representable F.prec F.emin ((2 : ℝ) ^ (j + F.prec + 2)) := representable_two_pow F.one_lt_prec fun k hk => by have := hj k hk; omega
  have hB := two_zpow_pos j
  have hmem := F.rounds.mem ((2 : ℝ) ^ (j + F.prec + 2) - 2 ^ j)
  have hle := F.rounds.of_le hA (show (2 : ℝ) ^ (j + F.prec + 2) - 2 ^ j ≤ _ by linarith)
  have hnear := F.rounds.nearest ((2 : ℝ) ^ (j + F.prec + 2) - 2 ^ j) _ hA
  rw [show (2 : ℝ) ^ (j + F.prec + 2) - (2 ^ (j + F.prec + 2) - 2 ^ j) = 2 ^ j by ring, abs_of_pos hB] at hnear
  set y := F.rnd ((2 : ℝ) ^ (j + F.prec + 2) - 2 ^ j) with hy
  have hge : (2 : ℝ) ^ (j + F.prec + 2) - 2 * 2 ^ j ≤ y := by
    obtain ⟨h1, -⟩ := abs_le.1 hnear
    linarith
  obtain ⟨m, e, hm, he, hme⟩ := hmem
  have e4 : (2 : ℝ) ^ (j + 2) = 4 * 2 ^ j := by rw [zpow_add₀ (by norm_num)]; norm_num; ring
  have h8 : (2 : ℝ) ^ (j + F.prec + 1) * 2 = 2 ^ (j + F.prec + 2) := by
    rw [← zpow_add_one₀ (by norm_num)]; congr 1; ring
  have h9 : (4 : ℝ) * 2 ^ j ≤ 2 ^ (j + F.prec + 1) := by
    rw [← e4]; exact zpow_le_zpow_right₀ (by norm_num) (by have := F.one_lt_prec; omega)
  by_cases hej : j + 2 ≤ e
  · obtain ⟨d, hd⟩ := Int.eq_ofNat_of_zero_le (show 0 ≤ e - (j + 2) by omega)
    have e1 : y = ((m * 2 ^ d : ℤ) : ℝ) * 2 ^ (j + 2) := by
      rw [hme, show e = d + (j + 2) by omega, zpow_add₀ (by norm_num)]; push_cast; rw [zpow_natCast]; ring
    have e2 : (2 : ℝ) ^ (j + F.prec + 2) = ((2 ^ F.prec : ℤ) : ℝ) * 2 ^ (j + 2) := by
      push_cast
      rw [← zpow_natCast, ← zpow_add₀ (by norm_num)]; congr 1; ring
    have hlt : ((2 ^ F.prec - m * 2 ^ d : ℤ) : ℝ) < 1 := by
      have h5 : ((2 ^ F.prec - m * 2 ^ d : ℤ) : ℝ) * 2 ^ (j + 2) = 2 ^ (j + F.prec + 2) - y := by rw [e1, e2]; push_cast; ring
      have h6 : ((2 ^ F.prec - m * 2 ^ d : ℤ) : ℝ) * 2 ^ (j + 2) < 1 * 2 ^ (j + 2) := by rw [h5, one_mul, e4]; linarith
      exact lt_of_mul_lt_mul_right h6 (two_zpow_pos _).le
    have hlt' : 2 ^ F.prec - m * 2 ^ d < 1 := by exact_mod_cast hlt
    refine le_antisymm hle ?_
    rw [e1, e2]
    refine mul_le_mul_of_nonneg_right ?_ (two_zpow_pos _).le
    exact_mod_cast (by omega : 2 ^ F.prec ≤ m * 2 ^ d)
  · exfalso
    have h1 : (m : ℝ) < 2 ^ (F.prec : ℤ) := by
      rw [zpow_natCast]; exact_mod_cast lt_of_le_of_lt (le_abs_self m) hm
    have h2 : y < 2 ^ (j + F.prec + 1) := by
      rw [hme]
      calc (m : ℝ) * 2 ^ e < 2 ^ (F.prec : ℤ) * 2 ^ e := mul_lt_mul_of_pos_right h1 (two_zpow_pos e)
        _ = 2 ^ ((F.prec : ℤ) + e) := (zpow_add₀ (by norm_num) _ _).symm
        _ ≤ _ := zpow_le_zpow_right₀ (by norm_num) (by omega)
    linarith

/-- **C115 (as stated: false)** In every floating point format: two perpendicular lines with a common point `(2^j, 0, 0)` for which `intersect`
reports no point, and a line and a ray with that common point for which `distance` reports `2^j`.  The origin of the first line is
`2^(j+p+2)` away, so that the difference of the origins is rounded by `2^j`. -/
theorem C115_counterexample (e : Fl F) (j : ℤ) (hj : ∀ k, F.emin = some k → k ≤ j ∧ k ≤ 2 * j) (h1 : isZero (1 : Fl F) = false)
    (hz : ∀ x : Fl F, x.1 = 2 ^ j → Tol.isZero x e = false) :
    ∃ l r : Line (Fl F) 3, Spec.norm (fun i => (l.direction i).1) = 1 ∧ Spec.norm (fun i => (r.direction i).1) = 1 ∧
      ∑ i, (l.direction i).1 * (r.direction i).1 = 0 ∧
      (∃ x, x ∈ Spec.line (fun i => (l.origin i).1) (fun i => (l.direction i).1) ∧ x ∈ Spec.line (fun i => (r.origin i).1) (fun i => (r.direction i).1) ∧
        x ∈ Spec.ray (fun i => (r.origin i).1) (fun i => (r.direction i).1)) ∧
      intersectLine3 l r e = none ∧ (distLineRay l ⟨r.origin, r.direction⟩).1 = 2 ^ j := by
  let A : Fl F := ⟨2 ^ (j + F.prec + 2), representable_two_pow F.one_lt_prec fun k hk => by have := (hj k hk).1; omega⟩
  let B : Fl F := ⟨2 ^ j, representable_two_pow F.one_lt_prec fun k hk => (hj k hk).1⟩
  have hAB : A - B = A := Fl.ext (rnd_sub_absorb j fun k hk => (hj k hk).1)
  have hB : 0 < B.1 := two_zpow_pos j
  have hBB : (HasSqrt.sqrt ((-B) * (-B)) : Fl F) = B := by
    refine Fl.ext ?_
    have h2 : F.rnd (-B.1 * -B.1) = B.1 * B.1 := by
      rw [neg_mul_neg]
      refine F.rounds.exact ?_
      show Spec.Representable _ _ ((2 : ℝ) ^ j * 2 ^ j)
      rw [← zpow_add₀ (by norm_num)]
      exact representable_two_pow F.one_lt_prec fun k hk => by have := (hj k hk).2; omega
    show F.rnd (Real.sqrt (F.rnd (-B.1 * -B.1))) = B.1
    rw [h2, Real.sqrt_mul_self hB.le]
    exact F.rounds.exact B.2
  have hAA : A + -A = 0 := by rw [Fl.add_neg_fl, Fl.sub_self_fl]
  have h1' : Tol.isZero (1 : Fl F) Tol.eps = false := h1
  have hpar : closestPointOnLineParameters ![A, 0, 0] ![1, 0, 0] ![B, 0, 0] ![0, 1, 0] (Tol.eps : Fl F) = some ⟨-A, 0⟩ := by
    simp [closestPointOnLineParameters, dot, vsub, Fin.foldl_succ, Fl.one_mul_fl, Fl.mul_one_fl, Fl.zero_mul_fl, Fl.mul_zero_fl, Fl.add_zero_fl, Fl.zero_add_fl,
      Fl.sub_zero_fl, Fl.zero_sub_fl, Fl.div_one_fl, hAB, h1']
  have hlen : length (vsub (vadd ![A, 0, 0] (vscale ![1, 0, 0] (-A))) (vadd ![B, 0, 0] (vscale ![0, 1, 0] 0))) = B := by
    simp [length, dot, vsub, vadd, vscale, Fin.foldl_succ, Fl.one_mul_fl, Fl.zero_mul_fl, Fl.mul_zero_fl, Fl.add_zero_fl, Fl.zero_add_fl,
      Fl.sub_zero_fl, Fl.zero_sub_fl, hAA, hBB]
  have nz : ¬ ((0 : Fl F) < 0) := fun h => lt_irrefl (0 : ℝ) ((Fl.lt_iff _ _).1 h)
  refine ⟨⟨![A, 0, 0], ![1, 0, 0]⟩, ⟨![B, 0, 0], ![0, 1, 0]⟩, ?_, ?_, ?_, ⟨![2 ^ j, 0, 0], ⟨2 ^ j - 2 ^ (j + F.prec + 2), ?_⟩, ⟨0, ?_⟩, ⟨0, le_rfl, ?_⟩⟩, ?_, ?_⟩
  · simp [Spec.norm, Fin.sum_univ_three]
  · simp [Spec.norm, Fin.sum_univ_three]
  · simp [Fin.sum_univ_three]
  · funext i; fin_cases i <;> simp [Spec.pointAt, A]
  · funext i; fin_cases i <;> simp [Spec.pointAt, B]
  · funext i; fin_cases i <;> simp [Spec.pointAt, B]
  · unfold intersectLine3
    simp only [hpar, hlen]
    rw [hz B rfl]
    rfl
  · unfold distLineRay
    simp only [hpar, hlen]
    rw [if_neg nz]
end

section Examples
attribute [local instance] tol64

theorem along64_le : Spec.norm (fun i => (along64 i).1) ≤ 33 / 32 := by
  obtain ⟨-, h⟩ := abs_le.1 along64_unit
  norm_num at h ⊢
  linarith
theorem across64_le : Spec.norm (fun i => (across64 i).1) ≤ 33 / 32 := by
  obtain ⟨-, h⟩ := abs_le.1 across64_unit
  norm_num at h ⊢
  linarith
theorem emin64_root : ∀ k, binary64.emin = some k → 10 * (2 : ℝ) ^ k ≤ (1 / 10 ^ 9) ^ 2 := fun k hk => by
  have := emin64' k hk
  norm_num at this ⊢
  linarith
theorem emin64_mul' {c : ℝ} (hc : c ≤ 100) : ∀ k, binary64.emin = some k → (2 : ℝ) ^ k * c ≤ 1 / 10 ^ 9 := fun k hk => by
  have := emin64_mul hc k hk
  norm_num at this ⊢
  linarith
theorem vals000 : (fun i => ((p64 0 0 0) i).1) = (![0, 0, 0] : Vec ℝ 3) := by simpa using p64_vals 0 0 0 (by norm_num) (by norm_num) (by norm_num)
theorem vals713 : (fun i => ((p64 7 1 3) i).1) = (![7, 1, 3] : Vec ℝ 3) := by simpa using p64_vals 7 1 3 (by norm_num) (by norm_num) (by norm_num)
theorem vals710 : (fun i => ((p64 7 1 0) i).1) = (![7, 1, 0] : Vec ℝ 3) := by simpa using p64_vals 7 1 0 (by norm_num) (by norm_num) (by norm_num)
theorem vals003 : (fun i => ((p64 0 0 3) i).1) = (![0, 0, 3] : Vec ℝ 3) := by simpa using p64_vals 0 0 3 (by norm_num) (by norm_num) (by norm_num)
theorem vals713' : (fun i => ((p64 (-7) (-1) 3) i).1) = (![-7, -1, 3] : Vec ℝ 3) := by simpa using p64_vals (-7) (-1) 3 (by norm_num) (by norm_num) (by norm_num)

theorem norm3_le {a b c r : ℝ} (hr : 0 ≤ r) (h : a ^ 2 + b ^ 2 + c ^ 2 ≤ r ^ 2) : Spec.norm (![a, b, c] : Vec ℝ 3) ≤ r := by
  unfold Spec.norm
  rw [Fin.sum_univ_three]
  exact Real.sqrt_le_iff.2 ⟨hr, h⟩
theorem dist3_le {a b c a' b' c' r : ℝ} (hr : 0 ≤ r) (h : (a - a') ^ 2 + (b - b') ^ 2 + (c - c') ^ 2 ≤ r ^ 2) : Spec.dist (![a, b, c] : Vec ℝ 3) ![a', b', c'] ≤ r := by
  unfold Spec.dist
  rw [Fin.sum_univ_three]
  exact Real.sqrt_le_iff.2 ⟨hr, h⟩

/-- A bound for the errors below. -/
theorem error64 {N M W c c' : ℝ} (hN0 : 0 ≤ N) (hM0 : 0 ≤ M) (hW0 : 0 ≤ W) (hN : N ≤ 8) (hM : M ≤ 8) (hW : W ≤ 8) (hc : c ≤ 500) (hc' : c' ≤ 200) :
    2 * (2 : ℝ)⁻¹ ^ binary64.prec * (N + M) + c * ((2 : ℝ)⁻¹ ^ binary64.prec / (1 / 2) ^ 2 * (W / (1 / 2))) + c' * (1 / 10 ^ 9) ≤ 1 / 10 ^ 6 / 2 := by
  have h4 := unit64'
  have h40 : 0 ≤ (2 : ℝ)⁻¹ ^ binary64.prec := by positivity
  generalize (2 : ℝ)⁻¹ ^ binary64.prec = μ at h4 h40 ⊢
  have k1 := mul_le_mul h4 (show N + M ≤ 16 by linarith) (by linarith) (by norm_num)
  have k2 := mul_le_mul h4 hW hW0 (by norm_num)
  have k3 := mul_le_mul hc k2 (by positivity) (by norm_num)
  norm_num at k1 k2 k3 ⊢
  linarith

/-- The skew lines through (0, 0, 0) and (7, 1, 3) are not reported to meet. -/
example : intersectLine3 ⟨p64 0 0 0, along64⟩ ⟨p64 7 1 3, across64⟩ = none := by
  obtain ⟨P, Q, ⟨t, hP⟩, ⟨s, hQ⟩, -, -, -, h⟩ := C114_line_3d ⟨p64 0 0 0, along64⟩ ⟨p64 7 1 3, across64⟩ Tol.eps (by show 9 ≤ 53; norm_num) min64 along64_le across64_le
    (s := 1 / 2) (ω := 1 / 10 ^ 9) (by norm_num) gram64 (by show 256 * (2 : ℝ)⁻¹ ^ 53 ≤ _; norm_num) (by norm_num) (emin64_mul' (by norm_num)) emin64_root
    (fun x h => isZero64 _ x (by linarith)) rfl
  refine h (1 / 10 ^ 6) (fun x h => decide_eq_false (by rw [not_lt]; exact h.le)) ?_
  have h3 : 3 ≤ Spec.dist P Q := by
    unfold Spec.dist
    refine Real.le_sqrt_of_sq_le ?_
    simp only [vals000, vals713, along64_vals, across64_vals] at hP hQ
    rw [Fin.sum_univ_three, hP, hQ]
    simp only [Spec.pointAt, Matrix.cons_val_zero, Matrix.cons_val_one, Matrix.cons_val, mul_zero, add_zero]
    have k1 := sq_nonneg (0 + t * (644245094 / 2 ^ 30) - (7 + s * (858993459 / 2 ^ 30)) : ℝ)
    have k2 := sq_nonneg (0 + t * (858993459 / 2 ^ 30) - (1 + s * (-644245094 / 2 ^ 30)) : ℝ)
    linarith
  refine lt_of_lt_of_le ?_ h3
  simp only [vals000, vals713]
  have := error64 (norm_nonneg' (![0, 0, 0] : Vec ℝ 3)) (norm_nonneg' (![7, 1, 3] : Vec ℝ 3)) (dist_nonneg' (![0, 0, 0] : Vec ℝ 3) ![7, 1, 3]) (norm3_le (by norm_num) (by norm_num))
    (norm3_le (by norm_num) (by norm_num)) (dist3_le (by norm_num) (by norm_num)) (c := 290) (c' := 92) (by norm_num) (by norm_num)
  refine lt_of_le_of_lt (add_le_add le_rfl this) (by norm_num)

/-- The lines through (0, 0, 0) and (7, 1, 0) meet, near (3, 4, 0). -/
example : ∃ q, intersectLine3 ⟨p64 0 0 0, along64⟩ ⟨p64 7 1 0, across64⟩ = some q ∧ |(q 0).1 - 3| ≤ 1 / 10 ^ 6 := by
  have hx1 : ![(7 * 644245094 + 858993459) * 644245094 / (644245094 ^ 2 + 858993459 ^ 2), (7 * 644245094 + 858993459) * 858993459 / (644245094 ^ 2 + 858993459 ^ 2), 0]
      ∈ Spec.line (fun i => ((p64 0 0 0) i).1) (fun i => (along64 i).1) := by
    rw [vals000, along64_vals]
    refine ⟨(7 * 644245094 + 858993459) / (644245094 ^ 2 + 858993459 ^ 2) * 2 ^ 30, ?_⟩
    funext i; fin_cases i <;> (simp [Spec.pointAt]; try norm_num)
  have hx2 : ![(7 * 644245094 + 858993459) * 644245094 / (644245094 ^ 2 + 858993459 ^ 2), (7 * 644245094 + 858993459) * 858993459 / (644245094 ^ 2 + 858993459 ^ 2), 0]
      ∈ Spec.line (fun i => ((p64 7 1 0) i).1) (fun i => (across64 i).1) := by
    rw [vals710, across64_vals]
    refine ⟨-(7 * 858993459 - 644245094) / (644245094 ^ 2 + 858993459 ^ 2) * 2 ^ 30, ?_⟩
    funext i; fin_cases i <;> (simp [Spec.pointAt]; try norm_num)
  have hE : ∀ {c c' : ℝ}, c ≤ 500 → c' ≤ 200 → _ := fun h1 h2 =>
    error64 (norm_nonneg' (![0, 0, 0] : Vec ℝ 3)) (norm_nonneg' (![7, 1, 0] : Vec ℝ 3)) (dist_nonneg' (![0, 0, 0] : Vec ℝ 3) ![7, 1, 0]) (norm3_le (by norm_num) (by norm_num))
    (norm3_le (by norm_num) (by norm_num)) (dist3_le (by norm_num) (by norm_num)) h1 h2
  obtain ⟨q, h1, h2⟩ := C114_common_point ⟨p64 0 0 0, along64⟩ ⟨p64 7 1 0, across64⟩ Tol.eps (by show 9 ≤ 53; norm_num) min64 along64_le across64_le
    (s := 1 / 2) (ω := 1 / 10 ^ 9) (by norm_num) gram64 (by show 256 * (2 : ℝ)⁻¹ ^ 53 ≤ _; norm_num) (by norm_num) (emin64_mul' (by norm_num)) emin64_root
    (fun x h => isZero64 _ x (by linarith)) hx1 hx2 (fun y hy => by
      simp only [vals000, vals710] at hy
      exact decide_eq_true (lt_of_le_of_lt (hy.trans (hE (by norm_num) (by norm_num))) (by norm_num)))
  refine ⟨q, h1, ?_⟩
  simp only [vals000, vals710] at h2
  have hn0 : 0 ≤ 2 * (2 : ℝ)⁻¹ ^ binary64.prec * (Spec.norm (![0, 0, 0] : Vec ℝ 3) + Spec.norm (![7, 1, 0] : Vec ℝ 3)) := by
    have := norm_nonneg' (![0, 0, 0] : Vec ℝ 3)
    have := norm_nonneg' (![7, 1, 0] : Vec ℝ 3)
    positivity
  have hz : Spec.norm (![0, 0, 0] : Vec ℝ 3) = 0 := norm3 _ _ _ 0 le_rfl (by norm_num)
  have h3 := hE (c := 135) (c' := 43) (by norm_num) (by norm_num)
  have h4 := (coord_le_norm (fun i => (q i).1 - ![(7 * 644245094 + 858993459) * 644245094 / (644245094 ^ 2 + 858993459 ^ 2), (7 * 644245094 + 858993459) * 858993459 / (644245094 ^ 2 + 858993459 ^ 2), 0] i) 0).trans h2
  simp only [Matrix.cons_val_zero] at h4
  rw [hz, mul_zero, zero_add] at h4
  have h5 : |(7 * 644245094 + 858993459) * 644245094 / (644245094 ^ 2 + 858993459 ^ 2) - 3| ≤ (1 / 10 ^ 7 : ℝ) := by
    rw [abs_le]; constructor <;> norm_num
  have h6 := abs_sub_le (q 0).1 ((7 * 644245094 + 858993459) * 644245094 / (644245094 ^ 2 + 858993459 ^ 2)) 3
  refine h6.trans ?_
  norm_num at h3 h4 h5 ⊢
  linarith

/-- The line through (0, 0, 0) and the ray from (-7, -1, 3) have distance 3. -/
example : |(distLineRay ⟨p64 0 0 0, along64⟩ ⟨p64 (-7) (-1) 3, across64⟩).1 - 3| ≤ 1 / 10 ^ 6 := by
  obtain ⟨δ, h1, h2⟩ := C114_line_ray ⟨p64 0 0 0, along64⟩ ⟨p64 (-7) (-1) 3, across64⟩ (by show 9 ≤ 53; norm_num) min64
    (along64_unit.trans (by norm_num)) across64_le (s := 1 / 2) (ω := 1 / 10 ^ 9) (by norm_num) gram64 (by show 256 * (2 : ℝ)⁻¹ ^ 53 ≤ _; norm_num) (by norm_num)
    (emin64_mul' (by norm_num)) emin64_root (fun x h => isZero64 _ x (by linarith))
  simp only [vals000, vals713', along64_vals, across64_vals] at h1 h2
  have hδ : δ = 3 := by
    apply le_antisymm
    · refine h1.2 ⟨_, ⟨-(7 * 644245094 + 858993459) / (644245094 ^ 2 + 858993459 ^ 2) * 2 ^ 30, rfl⟩, _,
        ⟨(7 * 858993459 - 644245094) / (644245094 ^ 2 + 858993459 ^ 2) * 2 ^ 30, by norm_num, rfl⟩, ?_⟩
      unfold Spec.dist
      rw [Fin.sum_univ_three]
      simp only [Spec.pointAt, Matrix.cons_val_zero, Matrix.cons_val_one, Matrix.cons_val]
      rw [eq_comm, Real.sqrt_eq_iff_mul_self_eq (by norm_num) (by norm_num)]
      norm_num
    · obtain ⟨_, ⟨t, rfl⟩, _, ⟨s, -, rfl⟩, h⟩ := h1.1
      rw [h]
      unfold Spec.dist
      refine Real.le_sqrt_of_sq_le ?_
      rw [Fin.sum_univ_three]
      simp only [Spec.pointAt, Matrix.cons_val_zero, Matrix.cons_val_one, Matrix.cons_val, mul_zero, add_zero]
      have k1 := sq_nonneg (0 + t * (644245094 / 2 ^ 30) - (-7 + s * (858993459 / 2 ^ 30)) : ℝ)
      have k2 := sq_nonneg (0 + t * (858993459 / 2 ^ 30) - (-1 + s * (-644245094 / 2 ^ 30)) : ℝ)
      linarith
  rw [hδ] at h2
  refine h2.trans ?_
  refine (error64 (norm_nonneg' (![0, 0, 0] : Vec ℝ 3)) (norm_nonneg' (![-7, -1, 3] : Vec ℝ 3)) (dist_nonneg' (![0, 0, 0] : Vec ℝ 3) ![-7, -1, 3]) (norm3_le (by norm_num) (by norm_num))
    (norm3_le (by norm_num) (by norm_num)) (dist3_le (by norm_num) (by norm_num)) (c := 420) (c' := 130) (by norm_num) (by norm_num)).trans (by norm_num)

/-- A line and a parallel ray at distance 3. -/
example : |(distLineRay ⟨p64 0 0 0, along64⟩ ⟨p64 0 0 3, along64⟩).1 - 3| ≤ 1 / 10 ^ 8 := by
  obtain ⟨δ, h1, h2⟩ := C114_line_ray_parallel ⟨p64 0 0 0, along64⟩ ⟨p64 0 0 3, along64⟩ (by show 9 ≤ 53; norm_num) min64
    (along64_unit.trans (by norm_num)) along64_le (fun i j => mul_comm _ _) (fun x h => by
      have h4 := unit64'
      generalize (2 : ℝ)⁻¹ ^ binary64.prec = μ at h h4
      refine decide_eq_true ?_
      norm_num at h h4 ⊢
      linarith) (ω := 1 / 10 ^ 9) (by norm_num) emin64_root
  simp only [vals000, vals003, along64_vals] at h1 h2
  have hW : Spec.dist (![0, 0, 0] : Vec ℝ 3) ![0, 0, 3] = 3 := dist3 _ _ _ _ _ _ 3 (by norm_num) (by norm_num)
  have hδ : δ = 3 := by
    refine le_antisymm (hW ▸ h1.2 ⟨_, ⟨0, by funext i; simp [Spec.pointAt]⟩, _, ⟨0, le_rfl, by funext i; simp [Spec.pointAt]⟩, rfl⟩) ?_
    obtain ⟨_, ⟨t, rfl⟩, _, ⟨s, -, rfl⟩, h⟩ := h1.1
    rw [h]
    unfold Spec.dist
    refine Real.le_sqrt_of_sq_le ?_
    rw [Fin.sum_univ_three]
    simp only [Spec.pointAt, Matrix.cons_val_zero, Matrix.cons_val_one, Matrix.cons_val, mul_zero, add_zero]
    have k1 := sq_nonneg (0 + t * (644245094 / 2 ^ 30) - (0 + s * (644245094 / 2 ^ 30)) : ℝ)
    have k2 := sq_nonneg (0 + t * (858993459 / 2 ^ 30) - (0 + s * (858993459 / 2 ^ 30)) : ℝ)
    linarith
  rw [hδ, hW] at h2
  refine h2.trans ?_
  have h4 := unit64'
  generalize (2 : ℝ)⁻¹ ^ binary64.prec = μ at h4 ⊢
  norm_num at h4 ⊢
  linarith

/-- Lines meeting in (1, 0, 0), one with the origin 2^55 away. -/
example := C115_counterexample (F := binary64) Tol.eps 0 (fun k hk => by cases hk; norm_num)
  (decide_eq_false (by rw [not_lt]; show _ ≤ |(1 : ℝ)|; norm_num)) (fun x h => isZero64 _ x (by rw [h]; norm_num))
end Examples

end Verif
