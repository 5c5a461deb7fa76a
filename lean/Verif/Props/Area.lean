import Verif.Spec.Area
import Verif.Props.Volume

set_option linter.unusedSectionVars false

/-
C122: the areas of the meshes of the solids.
-/
namespace Verif
open Spec Matrix Real

/-! ### Twice the area of a triangle -/

theorem twiceArea_gram (a b c : Vec ℝ 3) : twiceArea (a, b, c) =
    Real.sqrt (((b - a) ⬝ᵥ (b - a)) * ((c - a) ⬝ᵥ (c - a)) - ((b - a) ⬝ᵥ (c - a)) ^ 2) := by
  have h := cross_dot_cross (b - a) (c - a) (b - a) (c - a)
  unfold twiceArea Spec.norm
  congr 1
  have e : ∀ v : Vec ℝ 3, ∑ i, v i ^ 2 = v ⬝ᵥ v := fun v => by simp [dotProduct, sq]
  rw [e]
  rw [dotProduct_comm (c - a) (b - a)] at h
  rw [h]; ring

theorem twiceArea_swap (a b c : Vec ℝ 3) : twiceArea (a, c, b) = twiceArea (a, b, c) := by
  rw [twiceArea_gram, twiceArea_gram, dotProduct_comm (c - a) (b - a)]
  congr 1; ring

theorem twiceArea_rot (a b c : Vec ℝ 3) : twiceArea (b, c, a) = twiceArea (a, b, c) := by
  rw [twiceArea_gram, twiceArea_gram]
  congr 1
  simp only [dotProduct, Fin.sum_univ_three, Pi.sub_apply]
  ring

theorem twiceArea_reversed (t : Vec ℝ 3 × Vec ℝ 3 × Vec ℝ 3) : twiceArea (reversed t) = twiceArea t := by
  obtain ⟨a, b, c⟩ := t
  show twiceArea (c, b, a) = _
  rw [twiceArea_swap, ← twiceArea_rot]

theorem twiceArea_affine {A : Matrix (Fin 3) (Fin 3) ℝ} (hA : Orthogonal A) (v : Vec ℝ 3) (t : Vec ℝ 3 × Vec ℝ 3 × Vec ℝ 3) :
    twiceArea (mapTriangle (affine A v) t) = twiceArea t := by
  obtain ⟨a, b, c⟩ := t
  have e : ∀ x y : Vec ℝ 3, affine A v x - affine A v y = A *ᵥ (x - y) := by
    intro x y; unfold affine; rw [mulVec_sub]; abel
  show twiceArea (affine A v a, affine A v b, affine A v c) = _
  rw [twiceArea_gram, twiceArea_gram, e, e, hA.dp, hA.dp, hA.dp]

/-- A point on the circle of radius `ρ` at height `z`. -/
noncomputable def ringPt (ρ z α : ℝ) : Vec ℝ 3 := vec3 (ρ * cos α) (ρ * sin α) z

/-- A triangle whose base is a chord of a circle with angle `2δ` and whose third corner is above or below one end of it, on another circle. -/
theorem ring_area (ρ ρ' z z' α δ : ℝ) : twiceArea (ringPt ρ z α, ringPt ρ' z' α, ringPt ρ z (α + 2 * δ)) =
    2 * |ρ * sin δ| * Real.sqrt ((ρ' - ρ) ^ 2 * cos δ ^ 2 + (z' - z) ^ 2) := by
  rw [twiceArea_gram]
  have hab := Real.sin_sq_add_cos_sq α
  have hb := Real.sin_sq_add_cos_sq (α + 2 * δ)
  have hd : cos (α + 2 * δ) * cos α + sin (α + 2 * δ) * sin α = 1 - 2 * sin δ ^ 2 := by
    rw [← Real.cos_sub, show α + 2 * δ - α = 2 * δ by ring, Real.cos_two_mul, Real.cos_sq']; ring
  have h1 : (ringPt ρ' z' α - ringPt ρ z α) ⬝ᵥ (ringPt ρ' z' α - ringPt ρ z α) = (ρ' - ρ) ^ 2 + (z' - z) ^ 2 := by
    simp only [dotProduct, Fin.sum_univ_three, Pi.sub_apply, ringPt, vec3_0, vec3_1, vec3_2]
    linear_combination (ρ' - ρ) ^ 2 * hab
  have h2 : (ringPt ρ z (α + 2 * δ) - ringPt ρ z α) ⬝ᵥ (ringPt ρ z (α + 2 * δ) - ringPt ρ z α) = 4 * ρ ^ 2 * sin δ ^ 2 := by
    simp only [dotProduct, Fin.sum_univ_three, Pi.sub_apply, ringPt, vec3_0, vec3_1, vec3_2]
    linear_combination ρ ^ 2 * hab + ρ ^ 2 * hb - 2 * ρ ^ 2 * hd
  have h3 : (ringPt ρ' z' α - ringPt ρ z α) ⬝ᵥ (ringPt ρ z (α + 2 * δ) - ringPt ρ z α) = -2 * ρ * (ρ' - ρ) * sin δ ^ 2 := by
    simp only [dotProduct, Fin.sum_univ_three, Pi.sub_apply, ringPt, vec3_0, vec3_1, vec3_2]
    linear_combination (ρ' - ρ) * ρ * hd - (ρ' - ρ) * ρ * hab
  rw [h1, h2, h3]
  have e : ((ρ' - ρ) ^ 2 + (z' - z) ^ 2) * (4 * ρ ^ 2 * sin δ ^ 2) - (-2 * ρ * (ρ' - ρ) * sin δ ^ 2) ^ 2 =
      (2 * |ρ * sin δ|) ^ 2 * ((ρ' - ρ) ^ 2 * cos δ ^ 2 + (z' - z) ^ 2) := by
    rw [mul_pow 2 |ρ * sin δ|, sq_abs, Real.cos_sq']; ring
  rw [e, Real.sqrt_mul (sq_nonneg _), Real.sqrt_sq (by positivity)]

theorem ring_area' (ρ ρ' z z' α δ : ℝ) : twiceArea (ringPt ρ z (α + 2 * δ), ringPt ρ' z' (α + 2 * δ), ringPt ρ z α) =
    2 * |ρ * sin δ| * Real.sqrt ((ρ' - ρ) ^ 2 * cos δ ^ 2 + (z' - z) ^ 2) := by
  have h := ring_area ρ ρ' z z' (α + 2 * δ) (-δ)
  rw [show α + 2 * δ + 2 * -δ = α by ring, Real.sin_neg, Real.cos_neg, mul_neg, abs_neg] at h
  exact h

theorem rim_ring (r : ℝ) (n : ℕ) (z : ℝ) (k : ℤ) : rim r n z k = ringPt r z (2 * (k * (π / n))) := by
  unfold rim ringPt; rw [mul_comm r, mul_comm r]

theorem axis_ring (z α : ℝ) : (vec3 0 0 z : Vec ℝ 3) = ringPt 0 z α := by unfold ringPt; rw [zero_mul, zero_mul]

theorem sp_ring (r : ℝ) (p n : ℕ) (a k : ℤ) : sp r p n a k = ringPt (r * sin (a * (π / p))) (r * cos (a * (π / p))) (2 * (k * (π / n))) := rfl

theorem step_angle (n : ℕ) (k : ℤ) : 2 * (((k + 1 : ℤ) : ℝ) * (π / n)) = 2 * (k * (π / n)) + 2 * (π / n) := by push_cast; ring

theorem small_angle {n : ℕ} (hn : 3 ≤ n) : 0 < sin (π / n) ∧ 0 < cos (π / n) ∧ π / n ≤ π := by
  have h3 : (3 : ℝ) ≤ n := by exact_mod_cast hn
  have hpi := Real.pi_pos
  have h0 : 0 < π / n := by positivity
  have h1 : π / n < π / 2 := div_lt_div_of_pos_left hpi (by norm_num) (by linarith)
  exact ⟨Real.sin_pos_of_pos_of_lt_pi h0 (by linarith), Real.cos_pos_of_mem_Ioo ⟨by linarith, h1⟩, by linarith⟩

/-! ### Local triangles -/

theorem cone_tri_area {r : ℝ} (hr : 0 ≤ r) (h : ℝ) {n : ℕ} (hn : 3 ≤ n) {x : Bool × ℕ} (hx : x ∈ coneIds n) :
    twiceArea (mapTriangle (fun i => (conePoints r h n).getD i 0) (coneTri n x)) =
      if x.1 then 2 * r * sin (π / n) * Real.sqrt (r ^ 2 * cos (π / n) ^ 2 + h ^ 2) else r ^ 2 * sin (2 * (π / n)) := by
  obtain ⟨b, i⟩ := x
  obtain ⟨h1, h2⟩ := coneIds_mem.1 hx
  dsimp only at h1 h2
  obtain ⟨hs, hc, _⟩ := small_angle hn
  rw [← twiceArea_reversed]
  cases b
  · have e : reversed (mapTriangle (fun i => (conePoints r h n).getD i 0) (coneTri n (false, i))) =
        (rim r n 0 ((i - 1 : ℤ) + 1), rim r n 0 (i - 1 : ℤ), vec3 0 0 0) := by
      show ((conePoints r h n).getD (nxt 1 n i) 0, (conePoints r h n).getD i 0, (conePoints r h n).getD 0 0) = _
      rw [conePoints_nxt r h h1 h2, conePoints_rim r h n h1 h2]; rfl
    rw [e, twiceArea_swap, rim_ring, rim_ring, step_angle, axis_ring, ring_area', abs_of_nonneg (by positivity), Real.sin_two_mul]
    rw [show (0 - r) ^ 2 * cos (π / n) ^ 2 + (0 - 0) ^ 2 = (r * cos (π / n)) ^ 2 by ring, Real.sqrt_sq (by positivity)]
    simp only [Bool.false_eq_true, if_false]
    ring
  · have e : reversed (mapTriangle (fun i => (conePoints r h n).getD i 0) (coneTri n (true, i))) =
        (rim r n 0 (i - 1 : ℤ), rim r n 0 ((i - 1 : ℤ) + 1), vec3 0 0 h) := by
      show ((conePoints r h n).getD i 0, (conePoints r h n).getD (nxt 1 n i) 0, (conePoints r h n).getD (n + 1) 0) = _
      rw [conePoints_nxt r h h1 h2, conePoints_rim r h n h1 h2, conePoints_apex]
    rw [e, twiceArea_swap, rim_ring, rim_ring, step_angle, axis_ring, ring_area, abs_of_nonneg (by positivity)]
    rw [show (0 - r) ^ 2 * cos (π / n) ^ 2 + (h - 0) ^ 2 = r ^ 2 * cos (π / n) ^ 2 + h ^ 2 by ring]
    simp only [if_true]
    ring

theorem cyl_tri_area {r : ℝ} (hr : 0 ≤ r) {h : ℝ} (hh : 0 ≤ h) {n : ℕ} (hn : 3 ≤ n) {x : Fin 4 × ℕ} (hx : x ∈ cylIds n) :
    twiceArea (mapTriangle (fun i => (cylPoints r h n).getD i 0) (cylTri n x)) =
      if x.1 = 0 ∨ x.1 = 1 then r ^ 2 * sin (2 * (π / n)) else 2 * r * h * sin (π / n) := by
  obtain ⟨b, i⟩ := x
  obtain ⟨h1, h2⟩ := cylIds_mem.1 hx
  dsimp only at h1 h2
  obtain ⟨hs, hc, _⟩ := small_angle hn
  rw [← twiceArea_reversed]
  fin_cases b
  · have e : reversed (mapTriangle (fun i => (cylPoints r h n).getD i 0) (cylTri n (0, i))) =
        (rim r n 0 ((i - 1 : ℤ) + 1), rim r n 0 (i - 1 : ℤ), vec3 0 0 0) := by
      show ((cylPoints r h n).getD (nxt 1 n i) 0, (cylPoints r h n).getD i 0, (cylPoints r h n).getD 0 0) = _
      rw [cylPoints_nxt r h h1 h2, cylPoints_bottom r h n h1 h2]; rfl
    show twiceArea (reversed (mapTriangle _ (cylTri n (0, i)))) = r ^ 2 * sin (2 * (π / n))
    rw [e, twiceArea_swap, rim_ring, rim_ring, step_angle, axis_ring, ring_area', abs_of_nonneg (by positivity), Real.sin_two_mul]
    rw [show (0 - r) ^ 2 * cos (π / n) ^ 2 + (0 - 0) ^ 2 = (r * cos (π / n)) ^ 2 by ring, Real.sqrt_sq (by positivity)]
    ring
  · have e : reversed (mapTriangle (fun i => (cylPoints r h n).getD i 0) (cylTri n (1, i))) =
        (rim r n h (-i : ℤ), rim r n h ((-i : ℤ) + 1), vec3 0 0 h) := by
      show ((cylPoints r h n).getD (nxt (n + 2) (2 * n + 1) (n + 1 + i)) 0, (cylPoints r h n).getD (n + 1 + i) 0,
        (cylPoints r h n).getD (n + 1) 0) = _
      rw [cylPoints_top_nxt r h h1 h2, cylPoints_top r h n h1 h2, cylPoints_center, show (-i : ℤ) + 1 = 1 - i by ring]
    show twiceArea (reversed (mapTriangle _ (cylTri n (1, i)))) = r ^ 2 * sin (2 * (π / n))
    rw [e, twiceArea_swap, rim_ring, rim_ring, step_angle, axis_ring, ring_area, abs_of_nonneg (by positivity), Real.sin_two_mul]
    rw [show (0 - r) ^ 2 * cos (π / n) ^ 2 + (h - h) ^ 2 = (r * cos (π / n)) ^ 2 by ring, Real.sqrt_sq (by positivity)]
    ring
  · have e : reversed (mapTriangle (fun i => (cylPoints r h n).getD i 0) (cylTri n (2, i))) =
        (rim r n 0 ((i - 1 : ℤ) + 1), rim r n h (i - 1 : ℤ), rim r n 0 (i - 1 : ℤ)) := by
      show ((cylPoints r h n).getD (nxt 1 n i) 0, (cylPoints r h n).getD (topOf n i) 0, (cylPoints r h n).getD i 0) = _
      rw [cylPoints_nxt r h h1 h2, cylPoints_topOf r h h1 h2, cylPoints_bottom r h n h1 h2]
    show twiceArea (reversed (mapTriangle _ (cylTri n (2, i)))) = 2 * r * h * sin (π / n)
    rw [e, ← twiceArea_reversed]
    show twiceArea (rim r n 0 (i - 1 : ℤ), rim r n h (i - 1 : ℤ), rim r n 0 ((i - 1 : ℤ) + 1)) = _
    rw [rim_ring, rim_ring, rim_ring, step_angle, ring_area, abs_of_nonneg (by positivity)]
    rw [show (r - r) ^ 2 * cos (π / n) ^ 2 + (h - 0) ^ 2 = h ^ 2 by ring, Real.sqrt_sq hh]
    ring
  · have e : reversed (mapTriangle (fun i => (cylPoints r h n).getD i 0) (cylTri n (3, i))) =
        (rim r n 0 ((i - 1 : ℤ) + 1), rim r n h ((i - 1 : ℤ) + 1), rim r n h (i - 1 : ℤ)) := by
      show ((cylPoints r h n).getD (nxt 1 n i) 0, (cylPoints r h n).getD (topOf n (nxt 1 n i)) 0,
        (cylPoints r h n).getD (topOf n i) 0) = _
      rw [cylPoints_nxt r h h1 h2, cylPoints_topOf r h h1 h2, cylPoints_topOf_nxt r h h1 h2]
    show twiceArea (reversed (mapTriangle _ (cylTri n (3, i)))) = 2 * r * h * sin (π / n)
    rw [e, ← twiceArea_rot, twiceArea_swap, rim_ring, rim_ring, rim_ring, step_angle, ring_area', abs_of_nonneg (by positivity)]
    rw [show (r - r) ^ 2 * cos (π / n) ^ 2 + (0 - h) ^ 2 = h ^ 2 by ring, Real.sqrt_sq hh]
    ring

/-- Twice the area of a triangle of the sphere mesh with its base on row `a` and its tip on row `a'` next to it. -/
theorem band_bounds {r : ℝ} (hr : 0 ≤ r) {p n : ℕ} (hp : 2 ≤ p) (hn : 3 ≤ n) (a a' : ℤ) (h0 : 0 ≤ sin (a * (π / p))) (haa : a' = a + 1 ∨ a = a' + 1) :
    2 * |r * sin (a * (π / p)) * sin (π / n)| * Real.sqrt ((r * sin (a' * (π / p)) - r * sin (a * (π / p))) ^ 2 * cos (π / n) ^ 2 +
      (r * cos (a' * (π / p)) - r * cos (a * (π / p))) ^ 2) ≤ 4 * r ^ 2 * sin (π / n) * sin (π / (2 * p)) * sin (a * (π / p)) ∧
    4 * r ^ 2 * sin (π / n) * sin (π / (2 * p)) * sin (a * (π / p)) * cos (π / n) ≤
    2 * |r * sin (a * (π / p)) * sin (π / n)| * Real.sqrt ((r * sin (a' * (π / p)) - r * sin (a * (π / p))) ^ 2 * cos (π / n) ^ 2 +
      (r * cos (a' * (π / p)) - r * cos (a * (π / p))) ^ 2) := by
  obtain ⟨hs, hc, _⟩ := small_angle hn
  have hp' : (2 : ℝ) ≤ p := by exact_mod_cast hp
  have hpi := Real.pi_pos
  have hs2 : 0 ≤ sin (π / (2 * p)) := Real.sin_nonneg_of_nonneg_of_le_pi (by positivity) (by
    rw [div_le_iff₀ (by linarith)]; nlinarith)
  have hcos : cos (a' * (π / p)) * cos (a * (π / p)) + sin (a' * (π / p)) * sin (a * (π / p)) = 1 - 2 * sin (π / (2 * p)) ^ 2 := by
    rw [← Real.cos_sub]
    have : cos (a' * (π / p) - a * (π / p)) = cos (2 * (π / (2 * p))) := by
      rcases haa with rfl | rfl
      · congr 1; push_cast; field_simp; ring
      · rw [← Real.cos_neg]; congr 1; push_cast; field_simp; ring
    rw [this, Real.cos_two_mul, Real.cos_sq']; ring
  have e1 := Real.sin_sq_add_cos_sq (a * (π / p))
  have e2 := Real.sin_sq_add_cos_sq (a' * (π / p))
  have hsq : (r * sin (a' * (π / p)) - r * sin (a * (π / p))) ^ 2 + (r * cos (a' * (π / p)) - r * cos (a * (π / p))) ^ 2 =
      (2 * r * sin (π / (2 * p))) ^ 2 := by
    linear_combination r ^ 2 * e1 + r ^ 2 * e2 - 2 * r ^ 2 * hcos
  set D := (r * sin (a' * (π / p)) - r * sin (a * (π / p))) ^ 2
  set E := (r * cos (a' * (π / p)) - r * cos (a * (π / p))) ^ 2
  have hD : 0 ≤ D := sq_nonneg _
  have hE : 0 ≤ E := sq_nonneg _
  have hc1 : cos (π / n) ^ 2 ≤ 1 := Real.cos_sq_le_one _
  rw [abs_of_nonneg (by positivity)]
  have hb : 0 ≤ 2 * (r * sin (a * (π / p)) * sin (π / n)) := by positivity
  have hup : Real.sqrt (D * cos (π / n) ^ 2 + E) ≤ 2 * r * sin (π / (2 * p)) := by
    apply Real.sqrt_le_iff.2 ⟨by positivity, ?_⟩
    rw [← hsq]; nlinarith
  have hlo : cos (π / n) * (2 * r * sin (π / (2 * p))) ≤ Real.sqrt (D * cos (π / n) ^ 2 + E) := by
    apply Real.le_sqrt_of_sq_le
    rw [mul_pow, ← hsq]; nlinarith
  constructor
  · calc _ ≤ _ := mul_le_mul_of_nonneg_left hup hb
      _ = _ := by ring
  · calc _ = 2 * (r * sin (a * (π / p)) * sin (π / n)) * (cos (π / n) * (2 * r * sin (π / (2 * p)))) := by ring
      _ ≤ _ := mul_le_mul_of_nonneg_left hlo hb

theorem quad_a_area (r : ℝ) (p n : ℕ) (a k : ℤ) : twiceArea (sp r p n a (k - 1), sp r p n (a + 1) (k - 1), sp r p n a k) =
    2 * |r * sin (a * (π / p)) * sin (π / n)| * Real.sqrt ((r * sin (((a + 1 : ℤ) : ℝ) * (π / p)) - r * sin (a * (π / p))) ^ 2 * cos (π / n) ^ 2 +
      (r * cos (((a + 1 : ℤ) : ℝ) * (π / p)) - r * cos (a * (π / p))) ^ 2) := by
  have e := step_angle n (k - 1)
  rw [sub_add_cancel] at e
  rw [sp_ring, sp_ring, sp_ring, e, ring_area]

theorem quad_b_area (r : ℝ) (p n : ℕ) (a k : ℤ) : twiceArea (sp r p n (a + 1) k, sp r p n a k, sp r p n (a + 1) (k - 1)) =
    2 * |r * sin (((a + 1 : ℤ) : ℝ) * (π / p)) * sin (π / n)| * Real.sqrt ((r * sin (a * (π / p)) - r * sin (((a + 1 : ℤ) : ℝ) * (π / p))) ^ 2 * cos (π / n) ^ 2 +
      (r * cos (a * (π / p)) - r * cos (((a + 1 : ℤ) : ℝ) * (π / p))) ^ 2) := by
  have e := step_angle n (k - 1)
  rw [sub_add_cancel] at e
  rw [sp_ring, sp_ring, sp_ring, e, ring_area']

theorem row_sin_nonneg {p : ℕ} (hp : 2 ≤ p) {a : ℤ} (h0 : 0 ≤ a) (h1 : a ≤ p) : 0 ≤ sin (a * (π / p)) := by
  have hp' : (2 : ℝ) ≤ p := by exact_mod_cast hp
  have hpi := Real.pi_pos
  have h0' : (0 : ℝ) ≤ a := by exact_mod_cast h0
  have h1' : (a : ℝ) ≤ p := by exact_mod_cast h1
  apply Real.sin_nonneg_of_nonneg_of_le_pi (by positivity)
  rw [← mul_div_assoc, div_le_iff₀ (by linarith)]
  nlinarith

/-- The two bounds for twice the area of a triangle of the sphere. -/
def InBand (r : ℝ) (p n : ℕ) (a : ℤ) (A : ℝ) : Prop :=
  A ≤ 4 * r ^ 2 * sin (π / n) * sin (π / (2 * p)) * sin (a * (π / p)) ∧
    4 * r ^ 2 * sin (π / n) * sin (π / (2 * p)) * sin (a * (π / p)) * cos (π / n) ≤ A

theorem quad_a_band {r : ℝ} (hr : 0 ≤ r) {p n : ℕ} (hp : 2 ≤ p) (hn : 3 ≤ n) {a : ℤ} (h0 : 0 ≤ a) (h1 : a ≤ p) (k : ℤ) :
    InBand r p n a (twiceArea (sp r p n a (k - 1), sp r p n (a + 1) (k - 1), sp r p n a k)) := by
  rw [quad_a_area]
  exact band_bounds hr hp hn a (a + 1) (row_sin_nonneg hp h0 h1) (Or.inl rfl)

theorem quad_b_band {r : ℝ} (hr : 0 ≤ r) {p n : ℕ} (hp : 2 ≤ p) (hn : 3 ≤ n) {a : ℤ} (h0 : 0 ≤ a + 1) (h1 : a + 1 ≤ p) (k : ℤ) :
    InBand r p n (a + 1) (twiceArea (sp r p n (a + 1) k, sp r p n a k, sp r p n (a + 1) (k - 1))) := by
  rw [quad_b_area]
  exact band_bounds hr hp hn (a + 1) a (row_sin_nonneg hp h0 h1) (Or.inr rfl)

theorem sphTriU_area {r : ℝ} (hr : 0 ≤ r) {p n : ℕ} (hp : 2 ≤ p) (hn : 3 ≤ n) {x : Fin 4 × ℕ × ℕ} (hx : x ∈ sphIds p n) :
    InBand r p n (sphRow p x) (twiceArea (mapTriangle (sphPt r p n) (reversed (sphTriU p n x)))) := by
  obtain ⟨b, i, j⟩ := x
  obtain ⟨hj, hx⟩ := (sphIds_mem (by omega)).1 hx
  dsimp only at hj hx
  fin_cases b
  · show InBand r p n 1 (twiceArea (sphPt r p n (.g 0 (pv n j)), sphPt r p n (.g 0 j), sphPt r p n .top))
    have := quad_b_band hr hp hn (a := 0) (by omega) (by omega) j
    rw [sphPt_pv r p 0 hj, sphPt_g, sphPt_top r p n j]
    rw [twiceArea_rot] at this
    exact this
  · show InBand r p n (p - 1) (twiceArea (sphPt r p n (.g (p - 2) (pv n j)), sphPt r p n .bot, sphPt r p n (.g (p - 2) j)))
    have := quad_a_band hr hp hn (a := p - 1) (by omega) (by omega) j
    rw [sphPt_pv r p _ hj, sphPt_g, sphPt_bot r (by omega) n (j - 1)]
    have e : ((p - 2 : ℕ) : ℤ) + 1 = p - 1 := by omega
    have e' : (p : ℤ) - 1 + 1 = p := by omega
    rw [e]; rw [e'] at this
    exact this
  · have hx : 1 ≤ i ∧ i ≤ p - 2 := by simpa using hx
    show InBand r p n i (twiceArea (sphPt r p n (.g (i - 1) (pv n j)), sphPt r p n (.g i (pv n j)), sphPt r p n (.g (i - 1) j)))
    have := quad_a_band hr hp hn (a := i) (by omega) (by omega) j
    rw [sphPt_pv r p _ hj, sphPt_pv r p _ hj, sphPt_g]
    have e : ((i - 1 : ℕ) : ℤ) + 1 = i := by omega
    rw [e]
    exact this
  · have hx : 1 ≤ i ∧ i ≤ p - 2 := by simpa using hx
    show InBand r p n (i + 1) (twiceArea (sphPt r p n (.g i j), sphPt r p n (.g (i - 1) j), sphPt r p n (.g i (pv n j))))
    have := quad_b_band hr hp hn (a := i) (by omega) (by omega) j
    rw [sphPt_pv r p _ hj, sphPt_g, sphPt_g]
    have e : ((i - 1 : ℕ) : ℤ) + 1 = i := by omega
    rw [e]
    exact this

theorem sphTriV_area {r : ℝ} (hr : 0 ≤ r) {p n : ℕ} (hp : 2 ≤ p) (hn : 3 ≤ n) {x : Fin 4 × ℕ × ℕ} (hx : x ∈ sphIds p n) :
    InBand r p n (sphRow p x) (twiceArea (mapTriangle (sphPt r p n) (sphTriV p n x))) := by
  have h := sphTriU_area hr hp hn hx
  have hrev : ∀ t : SphV × SphV × SphV, twiceArea (mapTriangle (sphPt r p n) (reversed t)) = twiceArea (mapTriangle (sphPt r p n) t) :=
    fun t => twiceArea_reversed (mapTriangle (sphPt r p n) t)
  rw [hrev] at h
  convert h using 1
  obtain ⟨b, i, j⟩ := x
  by_cases hj : j = 0
  · subst hj
    fin_cases b
    · exact (twiceArea_rot _ _ _).symm
    · rfl
    · exact twiceArea_rot _ _ _
    · exact (twiceArea_rot _ _ _).symm
  · have e : pv n j = j - 1 := by rcases pv_spec n j with h | h <;> omega
    unfold sphTriU sphTriV
    dsimp only
    rw [if_neg hj, e]

/-! ### Sums -/

theorem cone_area_sum {r : ℝ} (hr : 0 ≤ r) (h : ℝ) {n : ℕ} (hn : 3 ≤ n) :
    ((triples (coneIdx n)).map fun t => twiceArea (mapTriangle (fun i => (conePoints r h n).getD i 0) t) / 2).sum =
      n * sin (2 * (π / n)) * r ^ 2 / 2 + n * sin (π / n) * r * Real.sqrt (r ^ 2 * cos (π / n) ^ 2 + h ^ 2) := by
  rw [coneIdx_triples, List.map_map, Function.comp_def, List.map_congr_left (g := fun x : Bool × ℕ =>
    (if x.1 then 2 * r * sin (π / n) * Real.sqrt (r ^ 2 * cos (π / n) ^ 2 + h ^ 2) else r ^ 2 * sin (2 * (π / n))) / 2)
    (fun x hx => by rw [cone_tri_area hr h hn hx])]
  simp [coneIds, Function.comp_def]
  ring

theorem cyl_area_sum {r : ℝ} (hr : 0 ≤ r) {h : ℝ} (hh : 0 ≤ h) {n : ℕ} (hn : 3 ≤ n) :
    ((triples (cylIdx n)).map fun t => twiceArea (mapTriangle (fun i => (cylPoints r h n).getD i 0) t) / 2).sum =
      n * sin (2 * (π / n)) * r ^ 2 + 2 * (n * sin (π / n)) * r * h := by
  rw [cylIdx_triples, List.map_map, Function.comp_def, List.map_congr_left (g := fun x : Fin 4 × ℕ =>
    (if x.1 = 0 ∨ x.1 = 1 then r ^ 2 * sin (2 * (π / n)) else 2 * r * h * sin (π / n)) / 2)
    (fun x hx => by rw [cyl_tri_area hr hh hn hx])]
  have hf : ∀ l : List ℕ, ∀ y z : ℝ, ((l.flatMap fun i => [((2 : Fin 4), i), (3, i)]).map fun x => (if x.1 = 0 ∨ x.1 = 1 then z else y) / 2).sum =
      l.length * y := by
    intro l y z
    induction l with
    | nil => simp
    | cons a l ih => rw [List.flatMap_cons, List.map_append, List.sum_append, ih]; simp; ring
  rw [cylIds, List.map_append, List.sum_append, hf]
  simp [Function.comp_def]
  ring

theorem sph_row_sum {p n : ℕ} (hp : 2 ≤ p) (hn : 3 ≤ n) :
    sin (π / (2 * p)) * ((sphIds p n).map fun x => sin (sphRow p x * (π / p))).sum = 2 * n * cos (π / (2 * p)) := by
  have h := sph_sum 1 hp hn
  rw [List.map_congr_left (g := fun x => -(sin (2 * (π / n)) * sin (π / p)) * sin (sphRow p x * (π / p)))
    (fun x hx => by rw [sphTriV_side 1 hp hn hx]; ring), List.sum_map_mul_left] at h
  obtain ⟨hs, hc, _⟩ := small_angle hn
  have hp' : (2 : ℝ) ≤ p := by exact_mod_cast hp
  have hpi := Real.pi_pos
  have hh : 0 < π / (2 * p) := by positivity
  have hh' : π / (2 * p) < π / 2 := div_lt_div_of_pos_left hpi (by norm_num) (by linarith)
  have hs2 : 0 < sin (π / (2 * p)) := Real.sin_pos_of_pos_of_lt_pi hh (by linarith)
  have hc2 : 0 < cos (π / (2 * p)) := Real.cos_pos_of_mem_Ioo ⟨by linarith, hh'⟩
  have e : sin (π / p) = 2 * sin (π / (2 * p)) * cos (π / (2 * p)) := by rw [← Real.sin_two_mul]; congr 1; field_simp
  have e2 : sin (2 * (π / n)) = 2 * sin (π / n) * cos (π / n) := Real.sin_two_mul _
  rw [e, e2] at h
  set S := ((sphIds p n).map fun x => sin (sphRow p x * (π / p))).sum
  have hk : 2 * sin (π / n) * cos (π / n) * (2 * cos (π / (2 * p))) ≠ 0 := by positivity
  apply mul_left_cancel₀ hk
  linear_combination -h

theorem sph_area_sum {r : ℝ} (hr : 0 ≤ r) {p n : ℕ} (hp : 2 ≤ p) (hn : 3 ≤ n) :
    ((sphIds p n).map fun x => twiceArea (mapTriangle (sphPt r p n) (sphTriV p n x)) / 2).sum ≤ 4 * r ^ 2 * (n * sin (π / n)) * cos (π / (2 * p)) ∧
    2 * r ^ 2 * (n * sin (2 * (π / n))) * cos (π / (2 * p)) ≤
      ((sphIds p n).map fun x => twiceArea (mapTriangle (sphPt r p n) (sphTriV p n x)) / 2).sum := by
  have h := sph_row_sum hp hn
  constructor
  · calc _ ≤ ((sphIds p n).map fun x => 2 * r ^ 2 * sin (π / n) * sin (π / (2 * p)) * sin (sphRow p x * (π / p))).sum := by
          apply List.sum_le_sum
          intro x hx
          have := (sphTriV_area hr hp hn hx).1
          linarith
      _ = _ := by
          rw [List.sum_map_mul_left]
          linear_combination (2 * r ^ 2 * sin (π / n)) * h
  · calc _ = ((sphIds p n).map fun x => 2 * r ^ 2 * sin (π / n) * sin (π / (2 * p)) * cos (π / n) * sin (sphRow p x * (π / p))).sum := by
          rw [List.sum_map_mul_left, Real.sin_two_mul]
          linear_combination -(2 * r ^ 2 * sin (π / n) * cos (π / n)) * h
      _ ≤ _ := by
          apply List.sum_le_sum
          intro x hx
          have := (sphTriV_area hr hp hn hx).2
          linarith

/-! ### The theorems -/
section
variable [BEq (HMat ℝ)] [LawfulBEq (HMat ℝ)] [BEq (Vec ℝ 3)] [LawfulBEq (Vec ℝ 3)]

theorem area_build (dbg : Bool) (M w : Nat) (trafo : HMat ℝ) (A : Matrix (Fin 3) (Fin 3) ℝ) (b : Vec ℝ 3) (hA : Orthogonal A)
    (htr : ∀ p, transformVec p trafo = affine A b p) (points : List (Vec ℝ 3)) (idx : List Nat) (hM : idx.length < M)
    (m : HalfedgeMesh (Vec ℝ 3)) (hm : buildTriangleHalfedgeMesh dbg M w trafo points idx = .ok m) :
    ∃ ts, Reads m ts ∧ area ts = ((triples idx).map fun t => twiceArea (mapTriangle (fun i => points.getD i 0) t) / 2).sum := by
  rcases build_cases dbg M w trafo points idx (by omega) (by rintro rfl; exact build_debug_pre hm) with ⟨hi, he⟩ | ⟨_, he⟩
  swap
  · rw [he] at hm; simp at hm
  rw [he] at hm
  have hl := bufferTriangles_length trafo points idx
  have hM' : 3 * (bufferTriangles trafo points idx).length < M := by omega
  obtain ⟨m', hm', hb⟩ := C48_build_succeeds dbg M w (bufferTriangles trafo points idx) hM'
  rw [hm, Except.ok.injEq] at hm'
  subst hm'
  refine ⟨_, reads_of_built dbg M _ hM' m hb, ?_⟩
  unfold area bufferTriangles
  rw [List.map_map]
  congr 1
  apply List.map_congr_left
  intro t _
  show twiceArea (reversed (mapTriangle (fun i => transformVec (points.getD i 0) trafo) t)) / 2 = _
  rw [twiceArea_reversed]
  have et : mapTriangle (fun i => transformVec (points.getD i 0) trafo) t = mapTriangle (affine A b) (mapTriangle (fun i => points.getD i 0) t) := by
    simp only [mapTriangle, htr]
  rw [et, twiceArea_affine hA]

theorem chord_bounds {n : ℕ} (hn : 3 ≤ n) : 0 < n * sin (π / n) ∧ n * sin (π / n) ≤ π ∧ π - π ^ 3 / (2 * n ^ 2) ≤ n * sin (π / n) := by
  obtain ⟨hs, _, hle⟩ := small_angle hn
  have hn0 : (0 : ℝ) < n := by exact_mod_cast (show 0 < n by omega)
  have hpi := Real.pi_pos
  have e : (n : ℝ) * (π / n) = π := by field_simp
  refine ⟨by positivity, ?_, ?_⟩
  · have := mul_le_mul_of_nonneg_left (Real.sin_le (show 0 ≤ π / n by positivity)) hn0.le
    linarith
  · have := mul_le_mul_of_nonneg_left (sin_lower (show 0 ≤ π / n by positivity) hle) hn0.le
    have e2 : (n : ℝ) * (π / n - (π / n) ^ 3 / 2) = π - π ^ 3 / (2 * n ^ 2) := by field_simp
    linarith

/-- **C122** (spheres) The area of the mesh is between `cos(π/n)` times and once `4 n sin(π/n) cos(π/2p) r²`, so it is below the area of the
sphere and differs from it by at most `π³ r² (8/n² + 1/(2p²))`. -/
theorem C122_sphere (dbg : Bool) (M w : Nat) (b : SphereBuilder ℝ) (hp : 2 ≤ b.polarCount) (hn : 3 ≤ b.azimuthCount)
    (hM : 6 * b.azimuthCount * (b.polarCount - 1) < M) (hr : 0 ≤ b.theSphere.radius) :
    ∃ m b' ts, b.build dbg M w = .ok (m, b') ∧ Reads m ts ∧
      area ts ≤ 4 * (b.azimuthCount * sin (π / b.azimuthCount)) * cos (π / (2 * b.polarCount)) * b.theSphere.radius ^ 2 ∧
      cos (π / b.azimuthCount) * (4 * (b.azimuthCount * sin (π / b.azimuthCount)) * cos (π / (2 * b.polarCount)) * b.theSphere.radius ^ 2) ≤ area ts ∧
      area ts ≤ 4 * π * b.theSphere.radius ^ 2 ∧
      4 * π * b.theSphere.radius ^ 2 - area ts ≤
        π ^ 3 * b.theSphere.radius ^ 2 * (8 / b.azimuthCount ^ 2 + 1 / (2 * b.polarCount ^ 2)) := by
  obtain ⟨m, b', hm⟩ := C58_in_range dbg M w b hp (by omega) hM
  have hmi := sphere_build_inner dbg M w b hp hn hM hm
  obtain ⟨ts, h1, h2⟩ := area_build dbg M w hmatIdentity 1 0 (by simp [Orthogonal]) (fun p => by rw [C62_identity]; simp [affine])
    (calcSpherePoints b.theSphere b.polarCount b.azimuthCount) (sphIdx b.polarCount b.azimuthCount)
    (by rw [sphIdx_length hp (by omega)]; exact hM) m hmi
  have h3 : area ts = ((sphIds b.polarCount b.azimuthCount).map fun x =>
      twiceArea (mapTriangle (sphPt b.theSphere.radius b.polarCount b.azimuthCount) (sphTriV b.polarCount b.azimuthCount x)) / 2).sum := by
    rw [h2, sphIdx_triples, List.map_map]
    congr 1
    apply List.map_congr_left
    intro x hx
    obtain ⟨o1, o2, o3⟩ := sphTriU_ok hp hx (by omega)
    rw [calcSpherePoints_eq]
    have e : mapTriangle (fun i => ((sphVerts b.polarCount b.azimuthCount).map fun v =>
        sphPt b.theSphere.radius b.polarCount b.azimuthCount v + b.theSphere.origin).getD i 0) (sphTri b.polarCount b.azimuthCount x) =
        mapTriangle (affine 1 b.theSphere.origin) (mapTriangle (sphPt b.theSphere.radius b.polarCount b.azimuthCount)
          (sphTriV b.polarCount b.azimuthCount x)) := by
      simp only [mapTriangle, sphTri, sphVerts_getD _ o1, sphVerts_getD _ o2, sphVerts_getD _ o3, affine, one_mulVec]
    show twiceArea (mapTriangle _ (sphTri b.polarCount b.azimuthCount x)) / 2 = _
    rw [e, twiceArea_affine (by simp [Orthogonal])]
  obtain ⟨u, l⟩ := sph_area_sum hr hp hn
  rw [← h3] at u l
  obtain ⟨c1, c2, c3⟩ := chord_bounds hn
  obtain ⟨p1, p2, p3⟩ := polygon_bounds hn
  have hpi := Real.pi_pos
  have hpp : (2 : ℝ) ≤ b.polarCount := by exact_mod_cast hp
  have hnn : (0 : ℝ) < b.azimuthCount := by exact_mod_cast (show 0 < b.azimuthCount by omega)
  have hY1 : cos (π / (2 * b.polarCount)) ≤ 1 := Real.cos_le_one _
  have hY2 := Real.one_sub_sq_div_two_le_cos (x := π / (2 * b.polarCount))
  have hY0 : 0 ≤ cos (π / (2 * b.polarCount)) := Real.cos_nonneg_of_mem_Icc ⟨by
    have : 0 < π / (2 * b.polarCount) := by positivity
    linarith, div_le_div_of_nonneg_left hpi.le (by norm_num) (by linarith)⟩
  have e2 : sin (2 * (π / b.azimuthCount)) = 2 * sin (π / b.azimuthCount) * cos (π / b.azimuthCount) := Real.sin_two_mul _
  have hr2 : 0 ≤ b.theSphere.radius ^ 2 := sq_nonneg _
  refine ⟨m, b', ts, hm, h1, by linarith, ?_, ?_, ?_⟩
  · rw [e2] at l; linarith
  · refine u.trans ?_
    have h5 : b.azimuthCount * sin (π / b.azimuthCount) * cos (π / (2 * b.polarCount)) ≤ π * 1 := mul_le_mul c2 hY1 hY0 hpi.le
    have := mul_le_mul_of_nonneg_left h5 hr2
    linarith
  · set X : ℝ := b.azimuthCount * sin (2 * (π / b.azimuthCount))
    set Y := cos (π / (2 * b.polarCount))
    have h5 : X * (1 - Y) ≤ 2 * π * ((π / (2 * b.polarCount)) ^ 2 / 2) := mul_le_mul p1 (by linarith) (by linarith) (by linarith)
    have h6 : 2 * π - X * Y ≤ 4 * π ^ 3 / b.azimuthCount ^ 2 + 2 * π * ((π / (2 * b.polarCount)) ^ 2 / 2) := by linarith
    have h7 := mul_le_mul_of_nonneg_left h6 hr2
    have e : π ^ 3 * b.theSphere.radius ^ 2 * (8 / b.azimuthCount ^ 2 + 1 / (2 * b.polarCount ^ 2)) =
        2 * (b.theSphere.radius ^ 2 * (4 * π ^ 3 / b.azimuthCount ^ 2 + 2 * π * ((π / (2 * b.polarCount)) ^ 2 / 2))) := by
      field_simp; ring
    rw [e]
    linarith

/-- **C122** (cones) The area of the mesh is that of the pyramid over the regular polygon with `n` corners; it is below the area of the cone and
differs from it by at most `2π³ r (r + s) / n²`, where `s` is the length of the slanted side. -/
theorem C122_cone [Tol ℝ] [LawfulTol ℝ] (dbg : Bool) (M w : Nat) (rotAlign : Vec ℝ 4 → Vec ℝ 4 → HMat ℝ) (cone : Cone ℝ) (n : Nat)
    (hn : 3 ≤ n) (hM : 6 * n + 1 < M) (hr : 0 ≤ cone.radius) (hseg : cone.segment.source ≠ cone.segment.target)
    (hz : dbg = true → isZero cone.segment.length = false)
    (hrot : RotatesZTo (rotAlign (hvec4 0 0 1 1) (toHvec cone.segment.direction)) cone.segment.direction) :
    ∃ m ts, coneBuild dbg M w rotAlign (some cone) n = .ok (some m) ∧ Reads m ts ∧
      area ts = n * sin (2 * (π / n)) * cone.radius ^ 2 / 2 +
        n * sin (π / n) * cone.radius * Real.sqrt (cone.radius ^ 2 * cos (π / n) ^ 2 + Spec.dist cone.segment.source cone.segment.target ^ 2) ∧
      area ts ≤ π * cone.radius * (cone.radius + Real.sqrt (cone.radius ^ 2 + Spec.dist cone.segment.source cone.segment.target ^ 2)) ∧
      π * cone.radius * (cone.radius + Real.sqrt (cone.radius ^ 2 + Spec.dist cone.segment.source cone.segment.target ^ 2)) - area ts ≤
        2 * π ^ 3 * cone.radius * (cone.radius + Real.sqrt (cone.radius ^ 2 + Spec.dist cone.segment.source cone.segment.target ^ 2)) / n ^ 2 := by
  obtain ⟨A, hA, hdet, hz', htr⟩ := placed hrot
  obtain ⟨m, hm⟩ := C56_in_range dbg M w rotAlign cone n hM hseg hz
  have hm' := hm
  rw [coneBuild_eq dbg M w rotAlign cone n (by omega) hseg hz] at hm
  have hm := of_map_some hm
  obtain ⟨ts, h1, h2⟩ := area_build dbg M w _ A cone.segment.source hA htr _ _ (by rw [coneIdx_length]; omega) m hm
  have hl : cone.segment.length = Spec.dist cone.segment.source cone.segment.target := by
    rw [dist_comm', Segment.length, length_vsub]
  have h2 := h2.trans (cone_area_sum hr cone.segment.length hn)
  rw [hl] at h2
  obtain ⟨hs, hc, _⟩ := small_angle hn
  obtain ⟨c1, c2, c3⟩ := chord_bounds hn
  obtain ⟨p1, p2, p3⟩ := polygon_bounds hn
  have hpi := Real.pi_pos
  set h := Spec.dist cone.segment.source cone.segment.target
  set r := cone.radius
  have hc1 : cos (π / n) ^ 2 ≤ 1 := Real.cos_sq_le_one _
  have hup : Real.sqrt (r ^ 2 * cos (π / n) ^ 2 + h ^ 2) ≤ Real.sqrt (r ^ 2 + h ^ 2) := Real.sqrt_le_sqrt (by nlinarith [sq_nonneg r])
  have hlo : cos (π / n) * Real.sqrt (r ^ 2 + h ^ 2) ≤ Real.sqrt (r ^ 2 * cos (π / n) ^ 2 + h ^ 2) := by
    apply Real.le_sqrt_of_sq_le
    rw [mul_pow, Real.sq_sqrt (by positivity)]
    nlinarith [sq_nonneg h]
  set s' := Real.sqrt (r ^ 2 * cos (π / n) ^ 2 + h ^ 2)
  set s := Real.sqrt (r ^ 2 + h ^ 2)
  have hs0 : 0 ≤ s := Real.sqrt_nonneg _
  have e2 : sin (2 * (π / n)) = 2 * sin (π / n) * cos (π / n) := Real.sin_two_mul _
  refine ⟨m, ts, hm', h1, h2, ?_, ?_⟩
  · rw [h2]
    have h5 : n * sin (π / n) * s' ≤ π * s := mul_le_mul c2 hup (Real.sqrt_nonneg _) hpi.le
    have h6 := mul_le_mul_of_nonneg_left h5 hr
    have h7 := mul_le_mul_of_nonneg_left p1 (sq_nonneg r)
    linarith
  · rw [h2]
    have h5 : n * sin (π / n) * (cos (π / n) * s) ≤ n * sin (π / n) * s' := mul_le_mul_of_nonneg_left hlo c1.le
    have h6 := mul_le_mul_of_nonneg_left h5 hr
    have h7 := mul_le_mul_of_nonneg_left p2 (mul_nonneg hr (add_nonneg hr hs0))
    have e3 : (n : ℝ) * sin (π / n) * (cos (π / n) * s) = n * sin (2 * (π / n)) * s / 2 := by rw [e2]; ring
    rw [e3] at h6
    have e4 : 2 * π ^ 3 * r * (r + s) / n ^ 2 = r * (r + s) * (4 * π ^ 3 / n ^ 2) / 2 := by ring
    rw [e4]
    linarith

/-- **C122** (cylinders) The area of the mesh is that of the prism over the regular polygon with `n` corners; it is below the area of the cylinder
and differs from it by at most `π³ r (4r + h) / n²`. -/
theorem C122_cylinder (dbg : Bool) (M w : Nat) (rotAlign : Vec ℝ 4 → Vec ℝ 4 → HMat ℝ) (cyl : Cylinder ℝ) (n : Nat)
    (hn : 3 ≤ n) (hM : 12 * n < M) (hr : 0 ≤ cyl.radius)
    (hrot : RotatesZTo (rotAlign (hvec4 0 0 1 1) (toHvec cyl.segment.direction)) cyl.segment.direction) :
    ∃ m ts, cylinderBuild dbg M w rotAlign (some cyl) n = .ok (some m) ∧ Reads m ts ∧
      area ts = n * sin (2 * (π / n)) * cyl.radius ^ 2 +
        2 * (n * sin (π / n)) * cyl.radius * Spec.dist cyl.segment.source cyl.segment.target ∧
      area ts ≤ 2 * π * cyl.radius * (cyl.radius + Spec.dist cyl.segment.source cyl.segment.target) ∧
      2 * π * cyl.radius * (cyl.radius + Spec.dist cyl.segment.source cyl.segment.target) - area ts ≤
        π ^ 3 * cyl.radius * (4 * cyl.radius + Spec.dist cyl.segment.source cyl.segment.target) / n ^ 2 := by
  obtain ⟨A, hA, hdet, hz', htr⟩ := placed hrot
  obtain ⟨m, hm⟩ := C57_in_range_partial dbg M w rotAlign cyl n (by omega) hM
  have hm' := hm
  rw [cylinderBuild_eq dbg M w rotAlign cyl n (by omega) (by omega)] at hm
  have hm := of_map_some hm
  obtain ⟨ts, h1, h2⟩ := area_build dbg M w _ A cyl.segment.source hA htr _ _ (by rw [cylIdx_length]; omega) m hm
  have hl : cyl.segment.length = Spec.dist cyl.segment.source cyl.segment.target := by
    rw [dist_comm', Segment.length, length_vsub]
  have hh : 0 ≤ cyl.segment.length := length_nonneg _
  have h2 := h2.trans (cyl_area_sum hr hh hn)
  rw [hl] at h2 hh
  obtain ⟨c1, c2, c3⟩ := chord_bounds hn
  obtain ⟨p1, p2, p3⟩ := polygon_bounds hn
  set h := Spec.dist cyl.segment.source cyl.segment.target
  set r := cyl.radius
  refine ⟨m, ts, hm', h1, h2, ?_, ?_⟩
  · rw [h2]
    have h6 := mul_le_mul_of_nonneg_left c2 (mul_nonneg hr hh)
    have h7 := mul_le_mul_of_nonneg_left p1 (sq_nonneg r)
    linarith
  · rw [h2]
    have h6 := mul_le_mul_of_nonneg_left c3 (mul_nonneg hr hh)
    have h7 := mul_le_mul_of_nonneg_left p2 (sq_nonneg r)
    have e4 : π ^ 3 * r * (4 * r + h) / n ^ 2 = r ^ 2 * (4 * π ^ 3 / n ^ 2) + 2 * (r * h * (π ^ 3 / (2 * n ^ 2))) := by
      field_simp
    rw [e4]
    linarith

/-- **C122** (cuboids) The area of the mesh is twice the sum of the areas of the three parallelograms spanned by two of the sides. -/
theorem C122_cuboid (dbg : Bool) (M w : Nat) (b : CuboidBuilder ℝ) (hM : 36 < M) (hi : dbg = true → LinearIndependent ℝ b.theCuboid.sides) :
    ∃ m b' ts, b.build dbg M w = .ok (m, b') ∧ Reads m ts ∧
      area ts = 2 * (Spec.norm (b.theCuboid.sides 0 ⨯₃ b.theCuboid.sides 1) + Spec.norm (b.theCuboid.sides 1 ⨯₃ b.theCuboid.sides 2) +
        Spec.norm (b.theCuboid.sides 2 ⨯₃ b.theCuboid.sides 0)) := by
  have hM' : 3 * (cuboidTriangles b.theCuboid).length < M := by rw [cuboidTriangles_length]; omega
  obtain ⟨m, hm, hb, _, _, _, he⟩ := cuboid_build dbg M w b hM
  have h8 : ¬ (dbg = true ∧ m.points.length ≠ 8) := by
    rintro ⟨hd, h8⟩
    obtain ⟨m', b', hm', _⟩ := C59_cuboid dbg M w b hM (hi hd)
    rw [he, if_pos ⟨hd, h8⟩] at hm'
    exact nomatch hm'
  rw [if_neg h8] at he
  refine ⟨m, _, _, he, reads_of_built dbg M _ hM' m hb, ?_⟩
  rw [cuboidTriangles_eq]
  have key : ∀ a b c : Vec ℝ 3, ∀ v : Vec ℝ 3, (∀ i, ((b - a) ⨯₃ (c - a)) i = v i) ∨ (∀ i, ((b - a) ⨯₃ (c - a)) i = -v i) →
      twiceArea (a, b, c) = Spec.norm v := by
    rintro a b c v (h | h)
    · unfold twiceArea; rw [show (b - a) ⨯₃ (c - a) = v from funext h]
    · unfold twiceArea; rw [show (b - a) ⨯₃ (c - a) = -v from funext h]
      unfold Spec.norm; simp
  set o := b.theCuboid.origin
  set s := b.theCuboid.sides
  simp only [area, cubeTris, List.map_cons, List.map_nil, List.sum_cons, List.sum_nil, mapTriangle]
  have t0 : twiceArea (corner o s ![false, false, false], corner o s ![false, false, true], corner o s ![false, true, true]) = Spec.norm (s 1 ⨯₃ s 2) :=
    key _ _ _ _ (Or.inr fun i => by fin_cases i <;> simp [corner, cross_apply, Fin.sum_univ_three] <;> ring)
  have t1 : twiceArea (corner o s ![false, true, true], corner o s ![false, true, false], corner o s ![false, false, false]) = Spec.norm (s 1 ⨯₃ s 2) :=
    key _ _ _ _ (Or.inr fun i => by fin_cases i <;> simp [corner, cross_apply, Fin.sum_univ_three] <;> ring)
  have t2 : twiceArea (corner o s ![true, true, true], corner o s ![true, false, true], corner o s ![true, false, false]) = Spec.norm (s 1 ⨯₃ s 2) :=
    key _ _ _ _ (Or.inl fun i => by fin_cases i <;> simp [corner, cross_apply, Fin.sum_univ_three] <;> ring)
  have t3 : twiceArea (corner o s ![true, false, false], corner o s ![true, true, false], corner o s ![true, true, true]) = Spec.norm (s 1 ⨯₃ s 2) :=
    key _ _ _ _ (Or.inl fun i => by fin_cases i <;> simp [corner, cross_apply, Fin.sum_univ_three] <;> ring)
  have t4 : twiceArea (corner o s ![false, false, false], corner o s ![true, false, false], corner o s ![true, false, true]) = Spec.norm (s 2 ⨯₃ s 0) :=
    key _ _ _ _ (Or.inr fun i => by fin_cases i <;> simp [corner, cross_apply, Fin.sum_univ_three] <;> ring)
  have t5 : twiceArea (corner o s ![true, false, true], corner o s ![false, false, true], corner o s ![false, false, false]) = Spec.norm (s 2 ⨯₃ s 0) :=
    key _ _ _ _ (Or.inr fun i => by fin_cases i <;> simp [corner, cross_apply, Fin.sum_univ_three] <;> ring)
  have t6 : twiceArea (corner o s ![true, true, true], corner o s ![true, true, false], corner o s ![false, true, false]) = Spec.norm (s 2 ⨯₃ s 0) :=
    key _ _ _ _ (Or.inl fun i => by fin_cases i <;> simp [corner, cross_apply, Fin.sum_univ_three] <;> ring)
  have t7 : twiceArea (corner o s ![false, true, false], corner o s ![false, true, true], corner o s ![true, true, true]) = Spec.norm (s 2 ⨯₃ s 0) :=
    key _ _ _ _ (Or.inl fun i => by fin_cases i <;> simp [corner, cross_apply, Fin.sum_univ_three] <;> ring)
  have t8 : twiceArea (corner o s ![false, false, false], corner o s ![false, true, false], corner o s ![true, true, false]) = Spec.norm (s 0 ⨯₃ s 1) :=
    key _ _ _ _ (Or.inr fun i => by fin_cases i <;> simp [corner, cross_apply, Fin.sum_univ_three] <;> ring)
  have t9 : twiceArea (corner o s ![true, true, false], corner o s ![true, false, false], corner o s ![false, false, false]) = Spec.norm (s 0 ⨯₃ s 1) :=
    key _ _ _ _ (Or.inr fun i => by fin_cases i <;> simp [corner, cross_apply, Fin.sum_univ_three] <;> ring)
  have t10 : twiceArea (corner o s ![true, true, true], corner o s ![false, true, true], corner o s ![false, false, true]) = Spec.norm (s 0 ⨯₃ s 1) :=
    key _ _ _ _ (Or.inl fun i => by fin_cases i <;> simp [corner, cross_apply, Fin.sum_univ_three] <;> ring)
  have t11 : twiceArea (corner o s ![false, false, true], corner o s ![true, false, true], corner o s ![true, true, true]) = Spec.norm (s 0 ⨯₃ s 1) :=
    key _ _ _ _ (Or.inl fun i => by fin_cases i <;> simp [corner, cross_apply, Fin.sum_univ_three] <;> ring)
  rw [t0, t1, t2, t3, t4, t5, t6, t7, t8, t9, t10, t11]
  ring
end

section Examples
attribute [local instance] realTol realTol_lawful
open Classical

example : ∃ m b' ts, exSphere.build true 65536 16 = .ok (m, b') ∧ Reads m ts ∧ area ts ≤ 4 * π * 2 ^ 2 := by
  obtain ⟨m, b', ts, h1, h2, _, _, h4, _⟩ :=
    C122_sphere true 65536 16 exSphere (by decide) (by decide) (by decide) (by simp [exSphere, SphereBuilder.theSphere])
  exact ⟨m, b', ts, h1, h2, h4⟩

theorem exSeg_dist : Spec.dist exSeg.source exSeg.target = 5 := by
  rw [dist_comm', ← length_vsub]; exact exSeg_length

example : ∃ m ts, coneBuild true 256 8 rotAlignZ (some ⟨exSeg, 2⟩) 6 = .ok (some m) ∧ Reads m ts ∧
    area ts = (6 : ℕ) * sin (2 * (π / (6 : ℕ))) * 2 ^ 2 / 2 + (6 : ℕ) * sin (π / (6 : ℕ)) * 2 * Real.sqrt (2 ^ 2 * cos (π / (6 : ℕ)) ^ 2 + 5 ^ 2) := by
  obtain ⟨m, ts, h1, h2, h3, _⟩ :=
    C122_cone true 256 8 rotAlignZ ⟨exSeg, 2⟩ 6 (by decide) (by decide) (by norm_num) exSeg_ne (fun _ => exSeg_nonzero) (exSeg_rot _)
  exact ⟨m, ts, h1, h2, by rw [h3, exSeg_dist]⟩

example : ∃ m ts, cylinderBuild true 256 8 rotAlignZ (some ⟨exSeg, 2⟩) 6 = .ok (some m) ∧ Reads m ts ∧
    area ts = (6 : ℕ) * sin (2 * (π / (6 : ℕ))) * 2 ^ 2 + 2 * ((6 : ℕ) * sin (π / (6 : ℕ))) * 2 * 5 := by
  obtain ⟨m, ts, h1, h2, h3, _⟩ :=
    C122_cylinder true 256 8 rotAlignZ ⟨exSeg, 2⟩ 6 (by decide) (by decide) (by norm_num) (exSeg_rot _)
  exact ⟨m, ts, h1, h2, by rw [h3, exSeg_dist]⟩

example : ∃ m b' ts, exBox.build true 256 8 = .ok (m, b') ∧ Reads m ts ∧ area ts = 28 := by
  obtain ⟨m, b', ts, h1, h2, h3⟩ := C122_cuboid true 256 8 exBox (by decide) (fun _ => exBox_independent)
  refine ⟨m, b', ts, h1, h2, ?_⟩
  rw [h3]
  have h := (C68_diagonal (vec3 1 2 3 : Vec ℝ 3) (vec3 2 (-1) 4)).2.1
  rw [show exBox.theCuboid = Cuboid.ofDiagonal (vec3 1 2 3) (vec3 2 (-1) 4) from rfl]
  have q : ∀ x : ℝ, 0 ≤ x → Real.sqrt (x ^ 2) = x := fun x hx => Real.sqrt_sq hx
  have s0 : (Cuboid.ofDiagonal (vec3 1 2 3) (vec3 2 (-1) 4) : Cuboid ℝ).sides 0 = ![2, 0, 0] := by funext j; rw [h]; fin_cases j <;> rfl
  have s1 : (Cuboid.ofDiagonal (vec3 1 2 3) (vec3 2 (-1) 4) : Cuboid ℝ).sides 1 = ![0, -1, 0] := by funext j; rw [h]; fin_cases j <;> rfl
  have s2 : (Cuboid.ofDiagonal (vec3 1 2 3) (vec3 2 (-1) 4) : Cuboid ℝ).sides 2 = ![0, 0, 4] := by funext j; rw [h]; fin_cases j <;> rfl
  rw [s0, s1, s2]
  simp only [Spec.norm, cross_apply, Fin.sum_univ_three, Matrix.cons_val]
  norm_num
  have q2 : Real.sqrt 4 = 2 := by rw [← q 2 (by norm_num)]; norm_num
  have q4 : Real.sqrt 16 = 4 := by rw [← q 4 (by norm_num)]; norm_num
  have q8 : Real.sqrt 64 = 8 := by rw [← q 8 (by norm_num)]; norm_num
  rw [q2, q4, q8]; norm_num
end Examples
end Verif
