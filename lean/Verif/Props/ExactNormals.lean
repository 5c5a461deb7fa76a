import Verif.Proofs.ExactNormals

set_option linter.unusedSectionVars false

/-
C135: the normals of the meshes of cylinders, cones and cuboids, exactly.
-/
namespace Verif
open Spec Matrix Real

/-! ### Circles -/

theorem rim_mul {n : ℕ} (hn : 0 < n) (r z : ℝ) (k q : ℤ) : rim r n z (k + q * n) = rim r n z k := by
  have hn' : (n : ℝ) ≠ 0 := by exact_mod_cast hn.ne'
  have e : 2 * (((k + q * n : ℤ) : ℝ) * (π / n)) = 2 * (k * (π / n)) + q * (2 * π) := by push_cast; field_simp
  unfold rim
  rw [e, Real.cos_add_int_mul_two_pi, Real.sin_add_int_mul_two_pi]

/-- Every side of the polygon is the side that starts at one of the first `n` points. -/
theorem rim_first {n : ℕ} (hn : 0 < n) (i : ℤ) : ∃ k : ℕ, 1 ≤ k ∧ k ≤ n ∧ ∀ r z : ℝ, rim r n z i = rim r n z (k - 1 : ℤ) ∧
    rim r n z (i + 1) = rim r n z ((k - 1 : ℤ) + 1) := by
  have h0 : 0 ≤ i % n := Int.emod_nonneg _ (by omega)
  have h1 : i % n < n := Int.emod_lt_of_pos _ (by omega)
  have h2 : i = i % n + (i / n) * n := by have := Int.emod_add_mul_ediv i n; linarith
  refine ⟨(i % n).toNat + 1, by omega, by omega, fun r z => ?_⟩
  have e : (((i % n).toNat + 1 : ℕ) : ℤ) - 1 = i % n := by push_cast; omega
  rw [e]
  constructor
  · conv_lhs => rw [h2]
    exact rim_mul hn r z _ _
  · conv_lhs => rw [h2, show i % n + i / n * n + 1 = i % n + 1 + i / n * n by ring]
    exact rim_mul hn r z _ _

theorem rim_last {n : ℕ} (hn : 0 < n) (i : ℤ) : ∃ k : ℕ, 1 ≤ k ∧ k ≤ n ∧ ∀ r z : ℝ, rim r n z i = rim r n z (-k : ℤ) ∧
    rim r n z (i + 1) = rim r n z (1 - k : ℤ) := by
  have h0 : 0 ≤ (-i - 1) % n := Int.emod_nonneg _ (by omega)
  have h1 : (-i - 1) % n < n := Int.emod_lt_of_pos _ (by omega)
  have h2 : i = -((-i - 1) % n + 1) + (-((-i - 1) / n)) * n := by have := Int.emod_add_mul_ediv (-i - 1) n; linarith
  refine ⟨((-i - 1) % n).toNat + 1, by omega, by omega, fun r z => ?_⟩
  have e : ((((-i - 1) % n).toNat + 1 : ℕ) : ℤ) = (-i - 1) % n + 1 := by push_cast; omega
  rw [e]
  constructor
  · conv_lhs => rw [h2]
    exact rim_mul hn r z _ _
  · conv_lhs => rw [h2, show -((-i - 1) % n + 1) + (-((-i - 1) / n)) * n + 1 = 1 - ((-i - 1) % n + 1) + (-((-i - 1) / n)) * n by ring]
    exact rim_mul hn r z _ _

/-- The outward unit normal of the `i`-th side of the polygon. -/
noncomputable def mid (r : ℝ) (n : ℕ) (i : ℤ) : Vec ℝ 3 :=
  vec3 (r / |r| * cos ((2 * (i + 1) - 1) * (π / n))) (r / |r| * sin ((2 * (i + 1) - 1) * (π / n))) 0

/-- The direction of `w`, turned about the z-axis by half a step, forwards or backwards. -/
noncomputable def halfTurn (r : ℝ) (n : ℕ) (s : ℝ) (w : Vec ℝ 3) : Vec ℝ 3 :=
  vec3 (|r|⁻¹ * (cos (π / n) * w 0 - s * sin (π / n) * w 1)) (|r|⁻¹ * (s * sin (π / n) * w 0 + cos (π / n) * w 1)) 0

theorem mid_forward (r : ℝ) (n : ℕ) (z : ℝ) (i : ℤ) : mid r n i = halfTurn r n 1 (rim r n z i) := by
  have e : (2 * ((i : ℝ) + 1) - 1) * (π / n) = 2 * (i * (π / n)) + π / n := by ring
  unfold mid halfTurn
  rw [e, Real.cos_add, Real.sin_add]
  simp only [rim, vec3_0, vec3_1]
  congr 1 <;> ring

theorem mid_backward (r : ℝ) (n : ℕ) (z : ℝ) (i : ℤ) : mid r n i = halfTurn r n (-1) (rim r n z (i + 1)) := by
  have e : (2 * ((i : ℝ) + 1) - 1) * (π / n) = 2 * ((i + 1 : ℤ) * (π / n)) - π / n := by push_cast; ring
  unfold mid halfTurn
  rw [e, Real.cos_sub, Real.sin_sub]
  simp only [rim, vec3_0, vec3_1]
  congr 1 <;> ring

theorem sgn_sq {r : ℝ} (hr : r ≠ 0) : (r / |r|) * (r / |r|) = 1 := by
  have := abs_pos.2 hr
  rw [div_mul_div_comm, div_eq_one_iff_eq (by positivity), abs_mul_abs_self]

theorem mid_dp {r : ℝ} (hr : r ≠ 0) (n : ℕ) (i : ℤ) : mid r n i ⬝ᵥ mid r n i = 1 := by
  have h := sgn_sq hr
  have h2 := Real.sin_sq_add_cos_sq ((2 * ((i : ℝ) + 1) - 1) * (π / n))
  simp only [mid, dotProduct, Fin.sum_univ_three, vec3_0, vec3_1, vec3_2]
  linear_combination (sin ((2 * ((i : ℝ) + 1) - 1) * (π / n)) ^ 2 + cos ((2 * ((i : ℝ) + 1) - 1) * (π / n)) ^ 2) * h + h2

theorem halfTurn_sum (r : ℝ) (n : ℕ) (w : Vec ℝ 3) :
    halfTurn r n 1 w + halfTurn r n (-1) w = (2 * cos (π / n) / |r|) • vec3 (w 0) (w 1) 0 := by
  funext j
  fin_cases j <;> simp [halfTurn] <;> ring

theorem halfTurn_ne {r : ℝ} (hr : r ≠ 0) {n : ℕ} (hn : 3 ≤ n) {w : Vec ℝ 3} (hw : w 0 ≠ 0 ∨ w 1 ≠ 0) : halfTurn r n 1 w ≠ halfTurn r n (-1) w := by
  intro h
  have hs := (trig_pos hn).1
  have hr' := inv_pos.2 (abs_pos.2 hr)
  have h0 := congrFun h 0
  have h1 := congrFun h 1
  simp only [halfTurn, vec3_0, vec3_1] at h0 h1
  have h0 := mul_left_cancel₀ hr'.ne' h0
  have h1 := mul_left_cancel₀ hr'.ne' h1
  rcases hw with hw | hw
  · apply hw
    have : sin (π / n) * w 0 = 0 := by linarith
    exact (mul_eq_zero.1 this).resolve_left hs.ne'
  · apply hw
    have : sin (π / n) * w 1 = 0 := by linarith
    exact (mul_eq_zero.1 this).resolve_left hs.ne'

theorem rim_ne {r : ℝ} (hr : r ≠ 0) (n : ℕ) (z : ℝ) (k : ℤ) : rim r n z k 0 ≠ 0 ∨ rim r n z k 1 ≠ 0 := by
  by_contra h
  push Not at h
  have h2 := Real.sin_sq_add_cos_sq (2 * ((k : ℝ) * (π / n)))
  simp only [rim, vec3_0, vec3_1, mul_eq_zero, hr, or_false] at h
  rw [h.1, h.2] at h2
  norm_num at h2

theorem rim_sq (r : ℝ) (n : ℕ) (z : ℝ) (k : ℤ) : rim r n z k 0 ^ 2 + rim r n z k 1 ^ 2 = r ^ 2 := by
  have h2 := Real.sin_sq_add_cos_sq (2 * ((k : ℝ) * (π / n)))
  simp only [rim, vec3_0, vec3_1]
  linear_combination r ^ 2 * h2

/-! ### The planes of the triangles -/

theorem plane_base {r : ℝ} (hr : r ≠ 0) {n : ℕ} (hn : 3 ≤ n) (i : ℤ) : PlaneOf (rim r n 0 (i + 1), rim r n 0 i, vec3 0 0 0) (vec3 0 0 (-1)) := by
  refine ⟨by simp [dotProduct, Fin.sum_univ_three], _, 0, rim_turn hn hr 0 0 i, fun v => ?_⟩
  rw [side_base]
  simp [dotProduct, Fin.sum_univ_three]
  ring

theorem plane_lid {r : ℝ} (hr : r ≠ 0) {n : ℕ} (hn : 3 ≤ n) (h : ℝ) (i : ℤ) :
    PlaneOf (rim r n h i, rim r n h (i + 1), vec3 0 0 h) (vec3 0 0 1) := by
  refine ⟨by simp [dotProduct, Fin.sum_univ_three], _, h, rim_turn hn hr h h i, fun v => ?_⟩
  rw [side_lid]
  simp [dotProduct, Fin.sum_univ_three]

theorem mid_edge {r : ℝ} (hr : r ≠ 0) (n : ℕ) (i : ℤ) (v : Vec ℝ 3) :
    (rim r n 0 (i + 1) 0 - rim r n 0 i 0) * (v 1 - rim r n 0 i 1) - (rim r n 0 (i + 1) 1 - rim r n 0 i 1) * (v 0 - rim r n 0 i 0) =
      -(2 * sin (π / n) * |r|) * (mid r n i ⬝ᵥ v - |r| * cos (π / n)) := by
  rw [rim_edge]
  have := abs_pos.2 hr
  simp only [mid, dotProduct, Fin.sum_univ_three, vec3_0, vec3_1, vec3_2]
  rw [← sq_abs r]
  field_simp
  ring

theorem plane_low {r : ℝ} (hr : r ≠ 0) {n : ℕ} (hn : 3 ≤ n) {h : ℝ} (hh : 0 < h) (i : ℤ) :
    PlaneOf (rim r n 0 (i + 1), rim r n h i, rim r n 0 i) (mid r n i) := by
  have := abs_pos.2 hr
  have := (trig_pos hn).1
  refine ⟨mid_dp hr n i, h * (2 * sin (π / n) * |r|), |r| * cos (π / n), by positivity, fun v => ?_⟩
  rw [side_mantle_low, mid_edge hr]
  ring

theorem plane_high {r : ℝ} (hr : r ≠ 0) {n : ℕ} (hn : 3 ≤ n) {h : ℝ} (hh : 0 < h) (i : ℤ) :
    PlaneOf (rim r n 0 (i + 1), rim r n h (i + 1), rim r n h i) (mid r n i) := by
  have := abs_pos.2 hr
  have := (trig_pos hn).1
  refine ⟨mid_dp hr n i, h * (2 * sin (π / n) * |r|), |r| * cos (π / n), by positivity, fun v => ?_⟩
  rw [side_mantle_high, mid_edge hr]
  ring

theorem PlaneOf.unique {t : Vec ℝ 3 × Vec ℝ 3 × Vec ℝ 3} {l l' : Vec ℝ 3} (h : PlaneOf t l) (h' : PlaneOf t l') : l' = l :=
  (h.isNormal l').1 ((h'.isNormal l').2 rfl)

/-! ### Cylinders -/

/-- The triangles of the cylinder before it is placed. -/
noncomputable def cylUs (r h : ℝ) (n : ℕ) : List (Vec ℝ 3 × Vec ℝ 3 × Vec ℝ 3) :=
  (triples (cylIdx n)).map fun t => mapTriangle (fun i => (cylPoints r h n).getD i 0) (reversed t)

theorem cylUs_mem (r h : ℝ) {n : ℕ} (hn : 0 < n) (t : Vec ℝ 3 × Vec ℝ 3 × Vec ℝ 3) : t ∈ cylUs r h n ↔ ∃ i : ℤ,
    t = (rim r n 0 (i + 1), rim r n 0 i, vec3 0 0 0) ∨ t = (rim r n h i, rim r n h (i + 1), vec3 0 0 h) ∨
    t = (rim r n 0 (i + 1), rim r n h i, rim r n 0 i) ∨ t = (rim r n 0 (i + 1), rim r n h (i + 1), rim r n h i) := by
  unfold cylUs
  rw [List.mem_map]
  constructor
  · rintro ⟨x, hx, rfl⟩
    exact cyl_tris r h x hx
  · rw [cylIdx_triples]
    rintro ⟨i, rfl | rfl | rfl | rfl⟩
    · obtain ⟨k, h1, h2, he⟩ := rim_first hn i
      refine ⟨_, List.mem_map.2 ⟨(0, k), cylIds_mem.2 ⟨h1, h2⟩, rfl⟩, ?_⟩
      show ((cylPoints r h n).getD (nxt 1 n k) 0, (cylPoints r h n).getD k 0, (cylPoints r h n).getD 0 0) = _
      rw [cylPoints_nxt r h h1 h2, cylPoints_bottom r h n h1 h2, (he r 0).1, (he r 0).2]; rfl
    · obtain ⟨k, h1, h2, he⟩ := rim_last hn i
      refine ⟨_, List.mem_map.2 ⟨(1, k), cylIds_mem.2 ⟨h1, h2⟩, rfl⟩, ?_⟩
      show ((cylPoints r h n).getD (nxt (n + 2) (2 * n + 1) (n + 1 + k)) 0, (cylPoints r h n).getD (n + 1 + k) 0,
        (cylPoints r h n).getD (n + 1) 0) = _
      rw [cylPoints_top_nxt r h h1 h2, cylPoints_top r h n h1 h2, cylPoints_center, (he r h).1, (he r h).2]
    · obtain ⟨k, h1, h2, he⟩ := rim_first hn i
      refine ⟨_, List.mem_map.2 ⟨(2, k), cylIds_mem.2 ⟨h1, h2⟩, rfl⟩, ?_⟩
      show ((cylPoints r h n).getD (nxt 1 n k) 0, (cylPoints r h n).getD (topOf n k) 0, (cylPoints r h n).getD k 0) = _
      rw [cylPoints_nxt r h h1 h2, cylPoints_topOf r h h1 h2, cylPoints_bottom r h n h1 h2, (he r 0).1, (he r 0).2, (he r h).1]
    · obtain ⟨k, h1, h2, he⟩ := rim_first hn i
      refine ⟨_, List.mem_map.2 ⟨(3, k), cylIds_mem.2 ⟨h1, h2⟩, rfl⟩, ?_⟩
      show ((cylPoints r h n).getD (nxt 1 n k) 0, (cylPoints r h n).getD (topOf n (nxt 1 n k)) 0, (cylPoints r h n).getD (topOf n k) 0) = _
      rw [cylPoints_nxt r h h1 h2, cylPoints_topOf r h h1 h2, cylPoints_topOf_nxt r h h1 h2, (he r 0).2, (he r h).1, (he r h).2]

theorem sum_one {S : Finset (Vec ℝ 3)} {a : Vec ℝ 3} (h : ∀ n, n ∈ S ↔ n = a) : ∑ n ∈ S, n = a := by
  have : S = {a} := by ext n; rw [h, Finset.mem_singleton]
  rw [this, Finset.sum_singleton]

theorem sum_three {S : Finset (Vec ℝ 3)} {a b c : Vec ℝ 3} (h : ∀ n, n ∈ S ↔ n = a ∨ n = b ∨ n = c) (hab : a ≠ b) (hac : a ≠ c)
    (hbc : b ≠ c) : ∑ n ∈ S, n = a + b + c := by
  classical
  have : S = {a, b, c} := by ext n; simp only [h, Finset.mem_insert, Finset.mem_singleton]
  rw [this, Finset.sum_insert (by simp [hab, hac]), Finset.sum_insert (by simp [hbc]), Finset.sum_singleton, add_assoc]

theorem vec3_ne_height {x y z x' y' z' : ℝ} (h : z ≠ z') : (vec3 x y z : Vec ℝ 3) ≠ vec3 x' y' z' := by
  intro e; exact h (congrFun e 2)

theorem rim_height (r : ℝ) (n : ℕ) (z : ℝ) (k : ℤ) : rim r n z k 2 = z := rfl

theorem rim_ne_axis {r : ℝ} (hr : r ≠ 0) (n : ℕ) (z z' : ℝ) (k : ℤ) : rim r n z k ≠ vec3 0 0 z' := by
  intro e
  rcases rim_ne hr n z k with h | h <;> rw [e] at h <;> exact h rfl

theorem rim_ne_rim {z z' : ℝ} (hz : z ≠ z') (r : ℝ) (n : ℕ) (k k' : ℤ) : rim r n z k ≠ rim r n z' k' := fun e => hz (congrFun e 2)

section
variable {r : ℝ} (hr : r ≠ 0) {n : ℕ} (hn : 3 ≤ n) {h : ℝ} (hh : 0 < h)
include hr hn hh

theorem cyl_planes : ∀ t ∈ cylUs r h n, ∃ l, PlaneOf t l := by
  intro t ht
  obtain ⟨i, rfl | rfl | rfl | rfl⟩ := (cylUs_mem r h (by omega) t).1 ht
  · exact ⟨_, plane_base hr hn i⟩
  · exact ⟨_, plane_lid hr hn h i⟩
  · exact ⟨_, plane_low hr hn hh i⟩
  · exact ⟨_, plane_high hr hn hh i⟩

theorem cyl_at_center (S : Finset (Vec ℝ 3)) (hS : ∀ l, l ∈ S ↔ ∃ t ∈ cylUs r h n, vec3 0 0 0 ∈ [t.1, t.2.1, t.2.2] ∧ PlaneOf t l) :
    ∑ l ∈ S, l = vec3 0 0 (-1) := by
  apply sum_one
  intro l
  rw [hS]
  constructor
  · rintro ⟨t, ht, hv, hl⟩
    obtain ⟨i, rfl | rfl | rfl | rfl⟩ := (cylUs_mem r h (by omega) t).1 ht
    · exact (plane_base hr hn i).unique hl
    · simp only [List.mem_cons, List.not_mem_nil, or_false] at hv
      rcases hv with e | e | e
      · exact absurd e.symm (rim_ne_axis hr _ _ _ _)
      · exact absurd e.symm (rim_ne_axis hr _ _ _ _)
      · exact absurd e (vec3_ne_height hh.ne)
    · simp only [List.mem_cons, List.not_mem_nil, or_false] at hv
      rcases hv with e | e | e <;> exact absurd e.symm (rim_ne_axis hr _ _ _ _)
    · simp only [List.mem_cons, List.not_mem_nil, or_false] at hv
      rcases hv with e | e | e <;> exact absurd e.symm (rim_ne_axis hr _ _ _ _)
  · rintro rfl
    exact ⟨_, (cylUs_mem r h (by omega) _).2 ⟨0, .inl rfl⟩, by simp, plane_base hr hn 0⟩

theorem cyl_at_top (S : Finset (Vec ℝ 3)) (hS : ∀ l, l ∈ S ↔ ∃ t ∈ cylUs r h n, vec3 0 0 h ∈ [t.1, t.2.1, t.2.2] ∧ PlaneOf t l) :
    ∑ l ∈ S, l = vec3 0 0 1 := by
  apply sum_one
  intro l
  rw [hS]
  constructor
  · rintro ⟨t, ht, hv, hl⟩
    obtain ⟨i, rfl | rfl | rfl | rfl⟩ := (cylUs_mem r h (by omega) t).1 ht
    · simp only [List.mem_cons, List.not_mem_nil, or_false] at hv
      rcases hv with e | e | e
      · exact absurd e.symm (rim_ne_axis hr _ _ _ _)
      · exact absurd e.symm (rim_ne_axis hr _ _ _ _)
      · exact absurd e (vec3_ne_height hh.ne')
    · exact (plane_lid hr hn h i).unique hl
    · simp only [List.mem_cons, List.not_mem_nil, or_false] at hv
      rcases hv with e | e | e <;> exact absurd e.symm (rim_ne_axis hr _ _ _ _)
    · simp only [List.mem_cons, List.not_mem_nil, or_false] at hv
      rcases hv with e | e | e <;> exact absurd e.symm (rim_ne_axis hr _ _ _ _)
  · rintro rfl
    exact ⟨_, (cylUs_mem r h (by omega) _).2 ⟨0, .inr (.inl rfl)⟩, by simp, plane_lid hr hn h 0⟩

theorem cyl_at_bottom_rim (k : ℤ) (S : Finset (Vec ℝ 3))
    (hS : ∀ l, l ∈ S ↔ ∃ t ∈ cylUs r h n, rim r n 0 k ∈ [t.1, t.2.1, t.2.2] ∧ PlaneOf t l) :
    ∑ l ∈ S, l = vec3 0 0 (-1) + (2 * cos (π / n) / |r|) • rim r n 0 k := by
  have e : (rim r n 0 k : Vec ℝ 3) = vec3 (rim r n 0 k 0) (rim r n 0 k 1) 0 := rfl
  conv_rhs => rw [e]
  rw [← halfTurn_sum, ← add_assoc]
  apply sum_three
  · intro l
    rw [hS]
    constructor
    · rintro ⟨t, ht, hv, hl⟩
      obtain ⟨i, rfl | rfl | rfl | rfl⟩ := (cylUs_mem r h (by omega) t).1 ht
      · exact .inl ((plane_base hr hn i).unique hl)
      · simp only [List.mem_cons, List.not_mem_nil, or_false] at hv
        rcases hv with e | e | e
        · exact absurd e (rim_ne_rim hh.ne _ _ _ _)
        · exact absurd e (rim_ne_rim hh.ne _ _ _ _)
        · exact absurd e (rim_ne_axis hr _ _ _ _)
      · simp only [List.mem_cons, List.not_mem_nil, or_false] at hv
        rw [(plane_low hr hn hh i).unique hl]
        rcases hv with e | e | e
        · right; right; rw [e]; exact mid_backward r n 0 i
        · exact absurd e (rim_ne_rim hh.ne _ _ _ _)
        · right; left; rw [e]; exact mid_forward r n 0 i
      · simp only [List.mem_cons, List.not_mem_nil, or_false] at hv
        rw [(plane_high hr hn hh i).unique hl]
        rcases hv with e | e | e
        · right; right; rw [e]; exact mid_backward r n 0 i
        · exact absurd e (rim_ne_rim hh.ne _ _ _ _)
        · exact absurd e (rim_ne_rim hh.ne _ _ _ _)
    · rintro (rfl | rfl | rfl)
      · exact ⟨_, (cylUs_mem r h (by omega) _).2 ⟨k, .inl rfl⟩, by simp, plane_base hr hn k⟩
      · rw [← mid_forward r n 0 k]
        exact ⟨_, (cylUs_mem r h (by omega) _).2 ⟨k, .inr (.inr (.inl rfl))⟩, by simp, plane_low hr hn hh k⟩
      · have := mid_backward r n 0 (k - 1)
        rw [sub_add_cancel] at this
        rw [← this]
        exact ⟨_, (cylUs_mem r h (by omega) _).2 ⟨k - 1, .inr (.inr (.inl rfl))⟩, by simp, plane_low hr hn hh (k - 1)⟩
  · exact vec3_ne_height (by norm_num)
  · exact vec3_ne_height (by norm_num)
  · exact halfTurn_ne hr hn (rim_ne hr n 0 k)

theorem cyl_at_top_rim (k : ℤ) (S : Finset (Vec ℝ 3))
    (hS : ∀ l, l ∈ S ↔ ∃ t ∈ cylUs r h n, rim r n h k ∈ [t.1, t.2.1, t.2.2] ∧ PlaneOf t l) :
    ∑ l ∈ S, l = vec3 0 0 1 + (2 * cos (π / n) / |r|) • rim r n 0 k := by
  have e : (rim r n 0 k : Vec ℝ 3) = vec3 (rim r n h k 0) (rim r n h k 1) 0 := rfl
  conv_rhs => rw [e]
  rw [← halfTurn_sum, ← add_assoc]
  apply sum_three
  · intro l
    rw [hS]
    constructor
    · rintro ⟨t, ht, hv, hl⟩
      obtain ⟨i, rfl | rfl | rfl | rfl⟩ := (cylUs_mem r h (by omega) t).1 ht
      · simp only [List.mem_cons, List.not_mem_nil, or_false] at hv
        rcases hv with e | e | e
        · exact absurd e (rim_ne_rim hh.ne' _ _ _ _)
        · exact absurd e (rim_ne_rim hh.ne' _ _ _ _)
        · exact absurd e (rim_ne_axis hr _ _ _ _)
      · exact .inl ((plane_lid hr hn h i).unique hl)
      · simp only [List.mem_cons, List.not_mem_nil, or_false] at hv
        rw [(plane_low hr hn hh i).unique hl]
        rcases hv with e | e | e
        · exact absurd e (rim_ne_rim hh.ne' _ _ _ _)
        · right; left; rw [e]; exact mid_forward r n h i
        · exact absurd e (rim_ne_rim hh.ne' _ _ _ _)
      · simp only [List.mem_cons, List.not_mem_nil, or_false] at hv
        rw [(plane_high hr hn hh i).unique hl]
        rcases hv with e | e | e
        · exact absurd e (rim_ne_rim hh.ne' _ _ _ _)
        · right; right; rw [e]; exact mid_backward r n h i
        · right; left; rw [e]; exact mid_forward r n h i
    · rintro (rfl | rfl | rfl)
      · exact ⟨_, (cylUs_mem r h (by omega) _).2 ⟨k, .inr (.inl rfl)⟩, by simp, plane_lid hr hn h k⟩
      · rw [← mid_forward r n h k]
        exact ⟨_, (cylUs_mem r h (by omega) _).2 ⟨k, .inr (.inr (.inl rfl))⟩, by simp, plane_low hr hn hh k⟩
      · have := mid_backward r n h (k - 1)
        rw [sub_add_cancel] at this
        rw [← this]
        exact ⟨_, (cylUs_mem r h (by omega) _).2 ⟨k - 1, .inr (.inr (.inr rfl))⟩, by simp, plane_high hr hn hh (k - 1)⟩
  · exact vec3_ne_height (by norm_num)
  · exact vec3_ne_height (by norm_num)
  · exact halfTurn_ne hr hn (rim_ne hr n h k)
end

/-! ### Cones -/

/-- The triangles of the cone before it is placed. -/
noncomputable def coneUs (r h : ℝ) (n : ℕ) : List (Vec ℝ 3 × Vec ℝ 3 × Vec ℝ 3) :=
  (triples (coneIdx n)).map fun t => mapTriangle (fun i => (conePoints r h n).getD i 0) (reversed t)

theorem coneUs_mem (r h : ℝ) {n : ℕ} (hn : 0 < n) (t : Vec ℝ 3 × Vec ℝ 3 × Vec ℝ 3) : t ∈ coneUs r h n ↔ ∃ i : ℤ,
    t = (rim r n 0 (i + 1), rim r n 0 i, vec3 0 0 0) ∨ t = (rim r n 0 i, rim r n 0 (i + 1), vec3 0 0 h) := by
  unfold coneUs
  rw [List.mem_map]
  constructor
  · rintro ⟨x, hx, rfl⟩
    exact cone_tris r h x hx
  · rw [coneIdx_triples]
    rintro ⟨i, rfl | rfl⟩
    · obtain ⟨k, h1, h2, he⟩ := rim_first hn i
      refine ⟨_, List.mem_map.2 ⟨(false, k), coneIds_mem.2 ⟨h1, h2⟩, rfl⟩, ?_⟩
      show ((conePoints r h n).getD (nxt 1 n k) 0, (conePoints r h n).getD k 0, (conePoints r h n).getD 0 0) = _
      rw [conePoints_nxt r h h1 h2, conePoints_rim r h n h1 h2, (he r 0).1, (he r 0).2]; rfl
    · obtain ⟨k, h1, h2, he⟩ := rim_first hn i
      refine ⟨_, List.mem_map.2 ⟨(true, k), coneIds_mem.2 ⟨h1, h2⟩, rfl⟩, ?_⟩
      show ((conePoints r h n).getD k 0, (conePoints r h n).getD (nxt 1 n k) 0, (conePoints r h n).getD (n + 1) 0) = _
      rw [conePoints_nxt r h h1 h2, conePoints_rim r h n h1 h2, conePoints_apex, (he r 0).1, (he r 0).2]

/-- The slant height of the pyramid whose base is the polygon. -/
noncomputable def slant (r h : ℝ) (n : ℕ) : ℝ := √(h ^ 2 + (r * cos (π / n)) ^ 2)

/-- The unit normal of a side of that pyramid, from the unit normal of the side of the polygon. -/
noncomputable def slope (r h : ℝ) (n : ℕ) (e : Vec ℝ 3) : Vec ℝ 3 := (slant r h n)⁻¹ • (h • e + (|r| * cos (π / n)) • vec3 0 0 1)

theorem slant_sq (r h : ℝ) (n : ℕ) : slant r h n ^ 2 = h ^ 2 + (r * cos (π / n)) ^ 2 := Real.sq_sqrt (by positivity)

theorem slant_pos (r : ℝ) {h : ℝ} (hh : 0 < h) (n : ℕ) : 0 < slant r h n := Real.sqrt_pos.2 (by positivity)

theorem slope_unit {r : ℝ} {h : ℝ} (hh : 0 < h) (n : ℕ) {e : Vec ℝ 3} (he : e ⬝ᵥ e = 1) (h2 : e 2 = 0) :
    slope r h n e ⬝ᵥ slope r h n e = 1 := by
  have hs := slant_pos r hh n
  have h3 := slant_sq r h n
  have e1 : (h • e + (|r| * cos (π / n)) • vec3 0 0 1) ⬝ᵥ (h • e + (|r| * cos (π / n)) • vec3 0 0 1) = slant r h n ^ 2 := by
    simp only [dotProduct, Fin.sum_univ_three] at he
    rw [h2] at he
    rw [h3, mul_pow, ← sq_abs r]
    simp only [dotProduct, Fin.sum_univ_three, Pi.add_apply, Pi.smul_apply, smul_eq_mul, vec3_0, vec3_1, vec3_2, h2]
    linear_combination h ^ 2 * he
  unfold slope
  rw [smul_dotProduct, dotProduct_smul, e1]
  simp only [smul_eq_mul]
  field_simp

theorem plane_mantle {r : ℝ} (hr : r ≠ 0) {n : ℕ} (hn : 3 ≤ n) {h : ℝ} (hh : 0 < h) (i : ℤ) :
    PlaneOf (rim r n 0 i, rim r n 0 (i + 1), vec3 0 0 h) (slope r h n (mid r n i)) := by
  have hp := abs_pos.2 hr
  have := (trig_pos hn).1
  have hs := slant_pos r hh n
  refine ⟨slope_unit hh n (mid_dp hr n i) rfl, 2 * sin (π / n) * |r| * slant r h n, h * |r| * cos (π / n) / slant r h n, by positivity, fun v => ?_⟩
  rw [side_cone_mantle, mid_edge hr, rim_turn_eq]
  have e : slope r h n (mid r n i) ⬝ᵥ v = (slant r h n)⁻¹ * (h * (mid r n i ⬝ᵥ v) + |r| * cos (π / n) * v 2) := by
    unfold slope
    rw [smul_dotProduct, add_dotProduct, smul_dotProduct, smul_dotProduct]
    simp only [smul_eq_mul]
    congr 2
    simp [dotProduct, Fin.sum_univ_three]
  rw [e, ← sq_abs r]
  field_simp
  ring

/-- A turn about the z-axis by one step. -/
noncomputable def stepTurn (n : ℕ) (v : Vec ℝ 3) : Vec ℝ 3 :=
  vec3 (cos (2 * (π / n)) * v 0 - sin (2 * (π / n)) * v 1) (sin (2 * (π / n)) * v 0 + cos (2 * (π / n)) * v 1) (v 2)

theorem stepTurn_mid (r : ℝ) (n : ℕ) (i : ℤ) : stepTurn n (mid r n i) = mid r n (i + 1) := by
  have e : (2 * (((i + 1 : ℤ) : ℝ) + 1) - 1) * (π / n) = 2 * (π / n) + (2 * ((i : ℝ) + 1) - 1) * (π / n) := by push_cast; ring
  unfold stepTurn mid
  rw [e, Real.cos_add, Real.sin_add]
  simp only [vec3_0, vec3_1, vec3_2]
  congr 1 <;> ring

theorem stepTurn_slope (r h : ℝ) (n : ℕ) (i : ℤ) : stepTurn n (slope r h n (mid r n i)) = slope r h n (mid r n (i + 1)) := by
  rw [← stepTurn_mid]
  generalize mid r n i = e
  funext j
  fin_cases j <;> simp [stepTurn, slope] <;> ring

theorem stepTurn_sum (n : ℕ) (S : Finset (Vec ℝ 3)) : stepTurn n (∑ x ∈ S, x) = ∑ x ∈ S, stepTurn n x := by
  funext j
  rw [Finset.sum_apply]
  fin_cases j
  · simp only [stepTurn, Fin.zero_eta, vec3_0, Finset.sum_apply, Finset.mul_sum, Finset.sum_sub_distrib]
  · simp only [stepTurn, Fin.mk_one, vec3_1, Finset.sum_apply, Finset.mul_sum, Finset.sum_add_distrib]
  · simp only [stepTurn, Fin.reduceFinMk, vec3_2, Finset.sum_apply]

theorem stepTurn_injective (n : ℕ) : Function.Injective (stepTurn n) := by
  intro u v e
  have h2 := Real.sin_sq_add_cos_sq (2 * (π / (n : ℝ)))
  have e0 := congrFun e 0
  have e1 := congrFun e 1
  have e2 := congrFun e 2
  simp only [stepTurn, vec3_0, vec3_1, vec3_2] at e0 e1 e2
  generalize sin (2 * (π / (n : ℝ))) = s at *
  generalize cos (2 * (π / (n : ℝ))) = c at *
  funext j
  fin_cases j
  · show u 0 = v 0
    linear_combination c * e0 + s * e1 - (u 0 - v 0) * h2
  · show u 1 = v 1
    linear_combination c * e1 - s * e0 - (u 1 - v 1) * h2
  · exact e2

theorem stepTurn_fixed {n : ℕ} (hn : 3 ≤ n) {v : Vec ℝ 3} (h : stepTurn n v = v) : v = v 2 • vec3 0 0 1 := by
  obtain ⟨hs, hc⟩ := trig_pos hn
  have e0 := congrFun h 0
  have e1 := congrFun h 1
  simp only [stepTurn, vec3_0, vec3_1] at e0 e1
  have hp : 0 < sin (2 * (π / n)) := by rw [Real.sin_two_mul]; positivity
  generalize sin (2 * (π / (n : ℝ))) = s at *
  generalize cos (2 * (π / (n : ℝ))) = c at *
  have hD : 0 < (c - 1) ^ 2 + s ^ 2 := by positivity
  have h0 : ((c - 1) ^ 2 + s ^ 2) * v 0 = 0 := by linear_combination (c - 1) * e0 + s * e1
  have h1 : ((c - 1) ^ 2 + s ^ 2) * v 1 = 0 := by linear_combination (c - 1) * e1 - s * e0
  have h0 := (mul_eq_zero.1 h0).resolve_left hD.ne'
  have h1 := (mul_eq_zero.1 h1).resolve_left hD.ne'
  funext j
  fin_cases j <;> simp [h0, h1]

section
variable {r : ℝ} (hr : r ≠ 0) {n : ℕ} (hn : 3 ≤ n) {h : ℝ} (hh : 0 < h)
include hr hn hh

theorem cone_planes : ∀ t ∈ coneUs r h n, ∃ l, PlaneOf t l := by
  intro t ht
  obtain ⟨i, rfl | rfl⟩ := (coneUs_mem r h (by omega) t).1 ht
  · exact ⟨_, plane_base hr hn i⟩
  · exact ⟨_, plane_mantle hr hn hh i⟩

theorem cone_at_center (S : Finset (Vec ℝ 3)) (hS : ∀ l, l ∈ S ↔ ∃ t ∈ coneUs r h n, vec3 0 0 0 ∈ [t.1, t.2.1, t.2.2] ∧ PlaneOf t l) :
    ∑ l ∈ S, l = vec3 0 0 (-1) := by
  apply sum_one
  intro l
  rw [hS]
  constructor
  · rintro ⟨t, ht, hv, hl⟩
    obtain ⟨i, rfl | rfl⟩ := (coneUs_mem r h (by omega) t).1 ht
    · exact (plane_base hr hn i).unique hl
    · simp only [List.mem_cons, List.not_mem_nil, or_false] at hv
      rcases hv with e | e | e
      · exact absurd e.symm (rim_ne_axis hr _ _ _ _)
      · exact absurd e.symm (rim_ne_axis hr _ _ _ _)
      · exact absurd e (vec3_ne_height hh.ne)
  · rintro rfl
    exact ⟨_, (coneUs_mem r h (by omega) _).2 ⟨0, .inl rfl⟩, by simp, plane_base hr hn 0⟩

theorem slope_height (e : Vec ℝ 3) (he : e 2 = 0) : slope r h n e 2 = |r| * cos (π / n) / slant r h n ∧ 0 < slope r h n e 2 := by
  have e1 : slope r h n e 2 = |r| * cos (π / n) / slant r h n := by
    simp [slope, he]; ring
  have := (trig_pos hn).2
  have := abs_pos.2 hr
  have := slant_pos r hh n
  exact ⟨e1, by rw [e1]; positivity⟩

theorem cone_at_apex (S : Finset (Vec ℝ 3)) (hS : ∀ l, l ∈ S ↔ ∃ t ∈ coneUs r h n, vec3 0 0 h ∈ [t.1, t.2.1, t.2.2] ∧ PlaneOf t l) :
    ∃ c : ℝ, 0 < c ∧ ∑ l ∈ S, l = c • vec3 0 0 1 := by
  have hS' : ∀ l, l ∈ S ↔ ∃ i : ℤ, l = slope r h n (mid r n i) := by
    intro l
    rw [hS]
    constructor
    · rintro ⟨t, ht, hv, hl⟩
      obtain ⟨i, rfl | rfl⟩ := (coneUs_mem r h (by omega) t).1 ht
      · simp only [List.mem_cons, List.not_mem_nil, or_false] at hv
        rcases hv with e | e | e
        · exact absurd e.symm (rim_ne_axis hr _ _ _ _)
        · exact absurd e.symm (rim_ne_axis hr _ _ _ _)
        · exact absurd e (vec3_ne_height hh.ne')
      · exact ⟨i, (plane_mantle hr hn hh i).unique hl⟩
    · rintro ⟨i, rfl⟩
      exact ⟨_, (coneUs_mem r h (by omega) _).2 ⟨i, .inr rfl⟩, by simp, plane_mantle hr hn hh i⟩
  classical
  have himg : S.image (stepTurn n) = S := by
    ext l
    rw [Finset.mem_image]
    constructor
    · rintro ⟨x, hx, rfl⟩
      obtain ⟨i, rfl⟩ := (hS' x).1 hx
      exact (hS' _).2 ⟨i + 1, stepTurn_slope r h n i⟩
    · intro hl
      obtain ⟨i, rfl⟩ := (hS' l).1 hl
      exact ⟨_, (hS' _).2 ⟨i - 1, rfl⟩, by rw [stepTurn_slope, sub_add_cancel]⟩
  have hfix : stepTurn n (∑ x ∈ S, x) = ∑ x ∈ S, x := by
    rw [stepTurn_sum]
    conv_rhs => rw [← himg]
    rw [Finset.sum_image fun x _ y _ e => stepTurn_injective n e]
  refine ⟨_, ?_, stepTurn_fixed hn hfix⟩
  rw [Finset.sum_apply]
  apply Finset.sum_pos
  · intro x hx
    obtain ⟨i, rfl⟩ := (hS' x).1 hx
    exact (slope_height hr hn hh _ rfl).2
  · exact ⟨_, (hS' _).2 ⟨0, rfl⟩⟩

theorem cone_at_rim (k : ℤ) (S : Finset (Vec ℝ 3))
    (hS : ∀ l, l ∈ S ↔ ∃ t ∈ coneUs r h n, rim r n 0 k ∈ [t.1, t.2.1, t.2.2] ∧ PlaneOf t l) :
    ∑ l ∈ S, l = vec3 0 0 (-1) + (2 * cos (π / n) / slant r h n) • (h • (|r|⁻¹ • rim r n 0 k) + |r| • vec3 0 0 1) := by
  have hs := slant_pos r hh n
  have e : vec3 0 0 (-1) + (2 * cos (π / n) / slant r h n) • (h • (|r|⁻¹ • rim r n 0 k) + |r| • vec3 0 0 1) =
      vec3 0 0 (-1) + slope r h n (halfTurn r n 1 (rim r n 0 k)) + slope r h n (halfTurn r n (-1) (rim r n 0 k)) := by
    have h1 := halfTurn_sum r n (rim r n 0 k)
    have h2 : (rim r n 0 k : Vec ℝ 3) = vec3 (rim r n 0 k 0) (rim r n 0 k 1) 0 := rfl
    rw [← h2] at h1
    have h3 : slope r h n (halfTurn r n 1 (rim r n 0 k)) + slope r h n (halfTurn r n (-1) (rim r n 0 k)) =
        (slant r h n)⁻¹ • (h • (halfTurn r n 1 (rim r n 0 k) + halfTurn r n (-1) (rim r n 0 k)) + (2 * (|r| * cos (π / n))) • vec3 0 0 1) := by
      unfold slope; module
    rw [add_assoc, h3, h1]
    congr 1
    funext j
    simp only [Pi.add_apply, Pi.smul_apply, smul_eq_mul]
    ring
  rw [e]
  apply sum_three
  · intro l
    rw [hS]
    constructor
    · rintro ⟨t, ht, hv, hl⟩
      obtain ⟨i, rfl | rfl⟩ := (coneUs_mem r h (by omega) t).1 ht
      · exact .inl ((plane_base hr hn i).unique hl)
      · simp only [List.mem_cons, List.not_mem_nil, or_false] at hv
        rw [(plane_mantle hr hn hh i).unique hl]
        rcases hv with e | e | e
        · right; left; rw [e, ← mid_forward r n 0 i]
        · right; right; rw [e, ← mid_backward r n 0 i]
        · exact absurd e (rim_ne_axis hr _ _ _ _)
    · rintro (rfl | rfl | rfl)
      · exact ⟨_, (coneUs_mem r h (by omega) _).2 ⟨k, .inl rfl⟩, by simp, plane_base hr hn k⟩
      · rw [← mid_forward r n 0 k]
        exact ⟨_, (coneUs_mem r h (by omega) _).2 ⟨k, .inr rfl⟩, by simp, plane_mantle hr hn hh k⟩
      · have := mid_backward r n 0 (k - 1)
        rw [sub_add_cancel] at this
        rw [← this]
        exact ⟨_, (coneUs_mem r h (by omega) _).2 ⟨k - 1, .inr rfl⟩, by simp, plane_mantle hr hn hh (k - 1)⟩
  · intro e
    have h1 := (slope_height hr hn hh (halfTurn r n 1 (rim r n 0 k)) rfl).2
    rw [← e, vec3_2] at h1
    linarith
  · intro e
    have h1 := (slope_height hr hn hh (halfTurn r n (-1) (rim r n 0 k)) rfl).2
    rw [← e, vec3_2] at h1
    linarith
  · intro e
    apply halfTurn_ne hr hn (rim_ne hr n 0 k)
    unfold slope at e
    have e := smul_right_injective _ (inv_pos.2 hs).ne' e
    exact smul_right_injective _ hh.ne' (add_right_cancel e)
end

theorem unit_along_unique {s u v : Vec ℝ 3} (hu : IsUnitAlong s u) (hv : IsUnitAlong s v) : u = v := by
  obtain ⟨h1, c, hc, e⟩ := hu
  obtain ⟨h2, d, hd, e'⟩ := hv
  have h3 : c • u = d • v := by rw [← e, e']
  have h4 := congrArg (fun x => x ⬝ᵥ x) h3
  simp only [smul_dotProduct, dotProduct_smul, dp_unit h1, dp_unit h2, smul_eq_mul, mul_one] at h4
  have h5 : c = d := by nlinarith
  subst h5
  exact smul_right_injective _ hc.ne' h3

theorem unit_along_self {u v : Vec ℝ 3} (hu : u ⬝ᵥ u = 1) (hv : IsUnitAlong u v) : v = u :=
  unit_along_unique hv ⟨norm_of_dp hu, 1, one_pos, (one_smul _ _).symm⟩

theorem axis_eq {seg : Segment ℝ 3} (hseg : seg.source ≠ seg.target) {a : Vec ℝ 3} (ha : IsUnitAlong (seg.target - seg.source) a) :
    a = seg.direction := by
  apply unit_along_unique ha
  refine ⟨by rw [spec_norm_eq]; exact segment_dir_unit hseg, seg.length, segment_length_pos hseg, ?_⟩
  rw [← segment_target hseg, add_sub_cancel_right]

/-- What the placement does with the axis. -/
structure AxisFacts (A : Matrix (Fin 3) (Fin 3) ℝ) (seg : Segment ℝ 3) : Prop where
  up : A *ᵥ vec3 0 0 1 = seg.direction
  down : A *ᵥ vec3 0 0 (-1) = -seg.direction
  tgt : affine A seg.source (vec3 0 0 seg.length) = seg.target
  src : affine A seg.source (vec3 0 0 0) = seg.source
  sub : ∀ x, affine A seg.source x - seg.source = A *ᵥ x
  dp : ∀ x, seg.direction ⬝ᵥ (A *ᵥ x) = x 2
  unit : seg.direction ⬝ᵥ seg.direction = 1
  top : ∀ x, affine A seg.source x - seg.target = A *ᵥ (x - vec3 0 0 seg.length)

theorem axisFacts {A : Matrix (Fin 3) (Fin 3) ℝ} {seg : Segment ℝ 3} (hA : Orthogonal A) (hz : A *ᵥ ![0, 0, 1] = seg.direction)
    (hseg : seg.source ≠ seg.target) : AxisFacts A seg := by
  have hz1 : A *ᵥ vec3 0 0 1 = seg.direction := hz
  have htgt : affine A seg.source (vec3 0 0 seg.length) = seg.target := by
    have : (vec3 0 0 seg.length : Vec ℝ 3) = seg.length • vec3 0 0 1 := by funext j; fin_cases j <;> simp
    rw [affine, this, mulVec_smul, hz1, segment_target hseg]
  refine ⟨hz1, ?_, htgt, ?_, ?_, ?_, ?_, ?_⟩
  · rw [← hz1, ← mulVec_neg]; congr 1; funext j; fin_cases j <;> simp
  · have : (vec3 0 0 0 : Vec ℝ 3) = 0 := by funext j; fin_cases j <;> simp
    rw [affine, this, mulVec_zero, zero_add]
  · intro x; rw [affine, add_sub_cancel_right]
  · intro x; rw [← hz1, orth_dp hA]; simp [dotProduct, Fin.sum_univ_three]
  · rw [← hz1, orth_dp hA]; simp [dotProduct, Fin.sum_univ_three]
  · intro x
    rw [← htgt, affine, affine, add_sub_add_right_eq_sub, ← mulVec_sub]

theorem mid_rim {r : ℝ} (hr : r ≠ 0) {n : ℕ} (hn : 3 ≤ n) (z : ℝ) (i : ℤ) :
    mid r n i ⬝ᵥ rim r n z i = |r| * cos (π / n) ∧ mid r n i ⬝ᵥ rim r n z (i + 1) = |r| * cos (π / n) := by
  have := abs_pos.2 hr
  have := (trig_pos hn).1
  have hK : -(2 * sin (π / n) * |r|) ≠ 0 := neg_ne_zero.2 (by positivity)
  have e0 := mid_edge hr n i (rim r n z i)
  have e1 := mid_edge hr n i (rim r n z (i + 1))
  have c0 : ∀ k, rim r n z k 0 = rim r n 0 k 0 := fun k => rfl
  have c1 : ∀ k, rim r n z k 1 = rim r n 0 k 1 := fun k => rfl
  rw [c0, c1] at e0 e1
  constructor
  · have : -(2 * sin (π / n) * |r|) * (mid r n i ⬝ᵥ rim r n z i - |r| * cos (π / n)) = 0 := by rw [← e0]; ring
    linarith [(mul_eq_zero.1 this).resolve_left hK]
  · have : -(2 * sin (π / n) * |r|) * (mid r n i ⬝ᵥ rim r n z (i + 1) - |r| * cos (π / n)) = 0 := by rw [← e1]; ring
    linarith [(mul_eq_zero.1 this).resolve_left hK]

/-- The radial direction at a vertex on a circle. -/
theorem radial {A : Matrix (Fin 3) (Fin 3) ℝ} {seg : Segment ℝ 3} (hA : Orthogonal A) (hF : AxisFacts A seg) {r : ℝ} (hr : r ≠ 0) (n : ℕ)
    (k : ℤ) : ∃ u : Vec ℝ 3, u ⬝ᵥ seg.direction = 0 ∧ Spec.norm u = 1 ∧ A *ᵥ rim r n 0 k = |r| • u ∧
      affine A seg.source (rim r n 0 k) = seg.source + |r| • u ∧
      affine A seg.source (rim r n seg.length k) = seg.target + |r| • u := by
  have hp := abs_pos.2 hr
  have e : A *ᵥ rim r n 0 k = |r| • (|r|⁻¹ • (A *ᵥ rim r n 0 k)) := by rw [smul_smul, mul_inv_cancel₀ hp.ne', one_smul]
  refine ⟨|r|⁻¹ • (A *ᵥ rim r n 0 k), ?_, ?_, e, ?_, ?_⟩
  · rw [smul_dotProduct, dotProduct_comm, hF.dp, rim_height, smul_zero]
  · apply norm_of_dp
    rw [smul_dotProduct, dotProduct_smul, orth_dp hA]
    have := rim_sq r n 0 k
    have e2 : rim r n 0 k ⬝ᵥ rim r n 0 k = |r| ^ 2 := by
      rw [sq_abs, ← this]; simp only [dotProduct, Fin.sum_univ_three, rim_height]; ring
    rw [e2]
    simp only [smul_eq_mul]
    field_simp
  · rw [← e, affine, add_comm]
  · rw [← e]
    have := hF.top (rim r n seg.length k)
    rw [sub_eq_iff_eq_add] at this
    rw [this, add_comm]
    congr 2
    funext j
    fin_cases j <;> simp [rim]

section
variable [BEq (HMat ℝ)] [LawfulBEq (HMat ℝ)] [BEq (Vec ℝ 3)] [LawfulBEq (Vec ℝ 3)]

/-- **C135** (cylinders) The normals of the facets of the bottom and the lid are the directions of the axis; the normal of a facet of the
mantle is perpendicular to the axis and deviates by the angle `π/n` from the radial direction at its corners. The normals of the two
centres are the directions of the axis; the normal of a vertex on a circle is the direction of the sum of the outward direction of the axis
and the radial direction stretched by `2 cos(π/n)`. -/
theorem C135_cylinder (dbg : Bool) (M w : Nat) (rotAlign : Vec ℝ 4 → Vec ℝ 4 → HMat ℝ) (cyl : Cylinder ℝ) (n : Nat)
    (hn : 3 ≤ n) (hM : 12 * n < M) (hr : cyl.radius ≠ 0) (hseg : cyl.segment.source ≠ cyl.segment.target)
    (hrot : RotatesZTo (rotAlign (hvec4 0 0 1 1) (toHvec cyl.segment.direction)) cyl.segment.direction)
    (a : Vec ℝ 3) (ha : IsUnitAlong (cyl.segment.target - cyl.segment.source) a) :
    ∃ m, cylinderBuild dbg M w rotAlign (some cyl) n = .ok (some m) ∧
      (∀ f ∈ m.facets, ∃ ν h0 h1 h2 p q s, calcFacetNormal m f = .ok ν ∧ Spec.norm ν = 1 ∧ calcHalfedges m f = .ok [h0, h1, h2] ∧
        m.heVector h0 = .ok p ∧ m.heVector h1 = .ok q ∧ m.heVector h2 = .ok s ∧
        (ν = -a ∧ (∀ x ∈ [p, q, s], a ⬝ᵥ (x - cyl.segment.source) = 0) ∨
         ν = a ∧ (∀ x ∈ [p, q, s], a ⬝ᵥ (x - cyl.segment.target) = 0) ∨
         ν ⬝ᵥ a = 0 ∧ ∀ x ∈ [p, q, s], ν ⬝ᵥ (x - cyl.segment.source) = |cyl.radius| * cos (π / n))) ∧
      ∃ ns, calcVertexNormals m = .ok ns ∧ ns.length = m.points.length ∧ ∀ i (hi : i < m.points.length), ∃ ν, ns[i]? = some ν ∧
        (m.points[i] = cyl.segment.source ∧ ν = -a ∨ m.points[i] = cyl.segment.target ∧ ν = a ∨
          ∃ u, u ⬝ᵥ a = 0 ∧ Spec.norm u = 1 ∧
            (m.points[i] = cyl.segment.source + |cyl.radius| • u ∧ IsUnitAlong (-a + (2 * cos (π / n)) • u) ν ∨
             m.points[i] = cyl.segment.target + |cyl.radius| • u ∧ IsUnitAlong (a + (2 * cos (π / n)) • u) ν)) := by
  obtain ⟨A, hA, hdet, hz', htr⟩ := placed hrot
  obtain rfl := axis_eq hseg ha
  obtain ⟨m, hm⟩ := C57_in_range_partial dbg M w rotAlign cyl n (by omega) hM
  refine ⟨m, hm, ?_⟩
  rw [cylinderBuild_eq dbg M w rotAlign cyl n (by omega) (by omega)] at hm
  have hm := of_map_some hm
  have hl := segment_length_pos hseg
  obtain ⟨hM', hb⟩ := built_placed dbg M w _ A cyl.segment.source htr _ _ (by rw [cylIdx_length]; omega) m hm
  have hpl := cyl_planes hr hn hl
  have hF := axisFacts hA hz' hseg
  refine ⟨?_, ?_⟩
  · intro f hf
    obtain ⟨t, ht, l, hl', hfn, h0, h1, h2, e, e0, e1, e2⟩ := facet_normals_placed dbg M _ hA hdet _ hM' m hb hpl f hf
    refine ⟨_, h0, h1, h2, _, _, _, hfn, norm_of_dp (by rw [orth_dp hA]; exact hl'.1), e, e0, e1, e2, ?_⟩
    simp only [List.forall_mem_cons, List.not_mem_nil, false_imp_iff, implies_true, and_true, hF.sub, hF.top, hF.dp]
    obtain ⟨i, rfl | rfl | rfl | rfl⟩ := (cylUs_mem _ _ (by omega) t).1 ht
    · left
      rw [(plane_base hr hn i).unique hl']
      exact ⟨hF.down, rfl, rfl, rfl⟩
    · right; left
      rw [(plane_lid hr hn _ i).unique hl']
      exact ⟨hF.up, sub_self _, sub_self _, sub_self _⟩
    · right; right
      rw [(plane_low hr hn hl i).unique hl', orth_dp hA, orth_dp hA, orth_dp hA]
      refine ⟨?_, (mid_rim hr hn _ i).2, (mid_rim hr hn _ i).1, (mid_rim hr hn _ i).1⟩
      rw [dotProduct_comm, hF.dp]; rfl
    · right; right
      rw [(plane_high hr hn hl i).unique hl', orth_dp hA, orth_dp hA, orth_dp hA]
      refine ⟨?_, (mid_rim hr hn _ i).2, (mid_rim hr hn _ i).2, (mid_rim hr hn _ i).1⟩
      rw [dotProduct_comm, hF.dp]; rfl
  · obtain ⟨ns, g1, g2, g3⟩ := vertex_normals_placed dbg M _ hA hdet _ hM' m hb hpl
    refine ⟨ns, g1, g2, fun i hi => ?_⟩
    obtain ⟨v, hv, ev, S, hS, hν⟩ := g3 i hi
    have hcase : v = vec3 0 0 0 ∨ v = vec3 0 0 cyl.segment.length ∨ (∃ k, v = rim cyl.radius n 0 k) ∨
        ∃ k, v = rim cyl.radius n cyl.segment.length k := by
      obtain ⟨t, ht, hvt⟩ := List.mem_flatMap.1 hv
      obtain ⟨i, rfl | rfl | rfl | rfl⟩ := (cylUs_mem _ _ (by omega) t).1 ht <;>
        simp only [List.mem_cons, List.not_mem_nil, or_false] at hvt <;> rcases hvt with rfl | rfl | rfl <;>
        first
        | exact .inl rfl
        | exact .inr (.inl rfl)
        | exact .inr (.inr (.inl ⟨_, rfl⟩))
        | exact .inr (.inr (.inr ⟨_, rfl⟩))
    have hne : ∀ x y z : ℝ, z ≠ 0 → (vec3 x y z : Vec ℝ 3) ≠ 0 := fun x y z hz e => hz (congrFun e 2)
    rcases hcase with rfl | rfl | ⟨k, rfl⟩ | ⟨k, rfl⟩
    · rw [cyl_at_center hr hn hl S hS] at hν
      obtain ⟨ν, e1, e2⟩ := hν (hne _ _ _ (by norm_num))
      rw [hF.down] at e2
      refine ⟨ν, e1, .inl ⟨by rw [ev, hF.src], ?_⟩⟩
      exact unit_along_self (by rw [neg_dotProduct_neg]; exact hF.unit) e2
    · rw [cyl_at_top hr hn hl S hS] at hν
      obtain ⟨ν, e1, e2⟩ := hν (hne _ _ _ (by norm_num))
      rw [hF.up] at e2
      exact ⟨ν, e1, .inr (.inl ⟨by rw [ev, hF.tgt], unit_along_self hF.unit e2⟩)⟩
    · rw [cyl_at_bottom_rim hr hn hl k S hS] at hν
      obtain ⟨ν, e1, e2⟩ := hν (by
        intro e; have := congrFun e 2; simp [rim] at this)
      obtain ⟨u, u1, u2, u3, u4, u5⟩ := radial hA hF hr n k
      refine ⟨ν, e1, .inr (.inr ⟨u, u1, u2, .inl ⟨by rw [ev, u4], ?_⟩⟩)⟩
      rw [mulVec_add, mulVec_smul, u3, hF.down, smul_smul, div_mul_cancel₀ _ (abs_pos.2 hr).ne'] at e2
      exact e2
    · rw [cyl_at_top_rim hr hn hl k S hS] at hν
      obtain ⟨ν, e1, e2⟩ := hν (by
        intro e; have := congrFun e 2; simp [rim] at this)
      obtain ⟨u, u1, u2, u3, u4, u5⟩ := radial hA hF hr n k
      refine ⟨ν, e1, .inr (.inr ⟨u, u1, u2, .inr ⟨by rw [ev, u5], ?_⟩⟩)⟩
      rw [mulVec_add, mulVec_smul, u3, hF.up, smul_smul, div_mul_cancel₀ _ (abs_pos.2 hr).ne'] at e2
      exact e2

/-- **C135** (cones) The normals of the facets of the base are the direction from the apex to the base; the plane of a facet of the mantle
goes through the apex, and its normal has the axial component `r cos(π/n) / q`, where `q` is the slant height of the pyramid over the
polygon. The normals of the centre of the base and of the apex are the directions of the axis; the normal of a vertex on the base circle is
the direction of the sum of the base normal and of the normals of the two mantle facets there. -/
theorem C135_cone [Tol ℝ] [LawfulTol ℝ] (dbg : Bool) (M w : Nat) (rotAlign : Vec ℝ 4 → Vec ℝ 4 → HMat ℝ) (cone : Cone ℝ) (n : Nat)
    (hn : 3 ≤ n) (hM : 6 * n + 1 < M) (hr : cone.radius ≠ 0) (hseg : cone.segment.source ≠ cone.segment.target)
    (hz : dbg = true → isZero cone.segment.length = false)
    (hrot : RotatesZTo (rotAlign (hvec4 0 0 1 1) (toHvec cone.segment.direction)) cone.segment.direction)
    (a : Vec ℝ 3) (ha : IsUnitAlong (cone.segment.target - cone.segment.source) a)
    (h q : ℝ) (hh : h = Spec.dist cone.segment.source cone.segment.target) (hq : q = √(h ^ 2 + (cone.radius * cos (π / n)) ^ 2)) :
    ∃ m, coneBuild dbg M w rotAlign (some cone) n = .ok (some m) ∧
      (∀ f ∈ m.facets, ∃ ν h0 h1 h2 p q' s, calcFacetNormal m f = .ok ν ∧ Spec.norm ν = 1 ∧ calcHalfedges m f = .ok [h0, h1, h2] ∧
        m.heVector h0 = .ok p ∧ m.heVector h1 = .ok q' ∧ m.heVector h2 = .ok s ∧
        (ν = -a ∧ (∀ x ∈ [p, q', s], a ⬝ᵥ (x - cone.segment.source) = 0) ∨
         ν ⬝ᵥ a = |cone.radius| * cos (π / n) / q ∧ ∀ x ∈ [p, q', s], ν ⬝ᵥ (x - cone.segment.target) = 0)) ∧
      ∃ ns, calcVertexNormals m = .ok ns ∧ ns.length = m.points.length ∧ ∀ i (hi : i < m.points.length), ∃ ν, ns[i]? = some ν ∧
        (m.points[i] = cone.segment.source ∧ ν = -a ∨ m.points[i] = cone.segment.target ∧ ν = a ∨
          ∃ u, u ⬝ᵥ a = 0 ∧ Spec.norm u = 1 ∧ m.points[i] = cone.segment.source + |cone.radius| • u ∧
            IsUnitAlong (-a + (2 * cos (π / n) / q) • (h • u + |cone.radius| • a)) ν) := by
  obtain ⟨A, hA, hdet, hz', htr⟩ := placed hrot
  obtain rfl := axis_eq hseg ha
  obtain ⟨m, hm⟩ := C56_in_range dbg M w rotAlign cone n hM hseg hz
  refine ⟨m, hm, ?_⟩
  rw [coneBuild_eq dbg M w rotAlign cone n (by omega) hseg hz] at hm
  have hm := of_map_some hm
  have hl := segment_length_pos hseg
  have hlen : h = cone.segment.length := by
    rw [hh, sdist_sq, Segment.length, length_eq, vsub_eq, ← neg_sub, neg_dotProduct_neg]
  obtain rfl := hlen
  have hq : q = slant cone.radius cone.segment.length n := hq
  subst hq
  obtain ⟨hM', hb⟩ := built_placed dbg M w _ A cone.segment.source htr _ _ (by rw [coneIdx_length]; omega) m hm
  have hpl := cone_planes hr hn hl
  have hF := axisFacts hA hz' hseg
  refine ⟨?_, ?_⟩
  · intro f hf
    obtain ⟨t, ht, l, hl', hfn, h0, h1, h2, e, e0, e1, e2⟩ := facet_normals_placed dbg M _ hA hdet _ hM' m hb hpl f hf
    refine ⟨_, h0, h1, h2, _, _, _, hfn, norm_of_dp (by rw [orth_dp hA]; exact hl'.1), e, e0, e1, e2, ?_⟩
    simp only [List.forall_mem_cons, List.not_mem_nil, false_imp_iff, implies_true, and_true, hF.sub, hF.top, hF.dp]
    obtain ⟨i, rfl | rfl⟩ := (coneUs_mem _ _ (by omega) t).1 ht
    · left
      rw [(plane_base hr hn i).unique hl']
      exact ⟨hF.down, rfl, rfl, rfl⟩
    · right
      rw [(plane_mantle hr hn hl i).unique hl', orth_dp hA, orth_dp hA, orth_dp hA]
      have hsl : ∀ v : Vec ℝ 3, slope cone.radius cone.segment.length n (mid cone.radius n i) ⬝ᵥ v =
          (slant cone.radius cone.segment.length n)⁻¹ * (cone.segment.length * (mid cone.radius n i ⬝ᵥ v) + |cone.radius| * cos (π / n) * v 2) := by
        intro v
        unfold slope
        rw [smul_dotProduct, add_dotProduct, smul_dotProduct, smul_dotProduct]
        simp only [smul_eq_mul]
        congr 2
        simp [dotProduct, Fin.sum_univ_three]
      have hax : mid cone.radius n i ⬝ᵥ vec3 0 0 cone.segment.length = 0 := by simp [mid, dotProduct, Fin.sum_univ_three]
      refine ⟨?_, ?_, ?_, ?_⟩
      · rw [dotProduct_comm, hF.dp, (slope_height hr hn hl _ rfl).1]
      · rw [hsl, dotProduct_sub, (mid_rim hr hn 0 i).1, hax]
        simp only [Pi.sub_apply, rim_height, vec3_2]; ring
      · rw [hsl, dotProduct_sub, (mid_rim hr hn 0 i).2, hax]
        simp only [Pi.sub_apply, rim_height, vec3_2]; ring
      · rw [sub_self, dotProduct_zero]
  · obtain ⟨ns, g1, g2, g3⟩ := vertex_normals_placed dbg M _ hA hdet _ hM' m hb hpl
    refine ⟨ns, g1, g2, fun i hi => ?_⟩
    obtain ⟨v, hv, ev, S, hS, hν⟩ := g3 i hi
    have hcase : v = vec3 0 0 0 ∨ v = vec3 0 0 cone.segment.length ∨ ∃ k, v = rim cone.radius n 0 k := by
      obtain ⟨t, ht, hvt⟩ := List.mem_flatMap.1 hv
      obtain ⟨i, rfl | rfl⟩ := (coneUs_mem _ _ (by omega) t).1 ht <;>
        simp only [List.mem_cons, List.not_mem_nil, or_false] at hvt <;> rcases hvt with rfl | rfl | rfl <;>
        first
        | exact .inl rfl
        | exact .inr (.inl rfl)
        | exact .inr (.inr ⟨_, rfl⟩)
    have hne : ∀ x y z : ℝ, z ≠ 0 → (vec3 x y z : Vec ℝ 3) ≠ 0 := fun x y z hz e => hz (congrFun e 2)
    have hup : ∀ v : Vec ℝ 3, (∃ c : ℝ, 0 < c ∧ v = c • cone.segment.direction) → ∀ ν, IsUnitAlong v ν → ν = cone.segment.direction := by
      rintro v ⟨c, hc, rfl⟩ ν hν
      exact unit_along_unique hν ⟨norm_of_dp hF.unit, c, hc, rfl⟩
    rcases hcase with rfl | rfl | ⟨k, rfl⟩
    · rw [cone_at_center hr hn hl S hS] at hν
      obtain ⟨ν, e1, e2⟩ := hν (hne _ _ _ (by norm_num))
      rw [hF.down] at e2
      refine ⟨ν, e1, .inl ⟨by rw [ev, hF.src], ?_⟩⟩
      exact unit_along_self (by rw [neg_dotProduct_neg]; exact hF.unit) e2
    · obtain ⟨c, hc, ec⟩ := cone_at_apex hr hn hl S hS
      rw [ec] at hν
      obtain ⟨ν, e1, e2⟩ := hν (smul_ne_zero hc.ne' (hne _ _ _ (by norm_num)))
      rw [mulVec_smul, hF.up] at e2
      exact ⟨ν, e1, .inr (.inl ⟨by rw [ev, hF.tgt], hup _ ⟨c, hc, rfl⟩ ν e2⟩)⟩
    · rw [cone_at_rim hr hn hl k S hS] at hν
      have hp := abs_pos.2 hr
      have hne' : vec3 0 0 (-1) + (2 * cos (π / n) / slant cone.radius cone.segment.length n) •
          (cone.segment.length • (|cone.radius|⁻¹ • rim cone.radius n 0 k) + |cone.radius| • vec3 0 0 1) ≠ (0 : Vec ℝ 3) := by
        intro e
        have hc := (trig_pos hn).2
        have hs := slant_pos cone.radius hl n
        have h0 := congrFun e 0
        have h1 := congrFun e 1
        simp only [Pi.add_apply, Pi.smul_apply, smul_eq_mul, vec3_0, vec3_1, Pi.zero_apply, mul_zero, add_zero, zero_add] at h0 h1
        have hK : 0 < 2 * cos (π / n) / slant cone.radius cone.segment.length n := by positivity
        have hi := inv_pos.2 hp
        rcases rim_ne hr n 0 k with hx | hx
        · exact (mul_ne_zero hK.ne' (mul_ne_zero hl.ne' (mul_ne_zero hi.ne' hx))) h0
        · exact (mul_ne_zero hK.ne' (mul_ne_zero hl.ne' (mul_ne_zero hi.ne' hx))) h1
      obtain ⟨ν, e1, e2⟩ := hν hne'
      obtain ⟨u, u1, u2, u3, u4, u5⟩ := radial hA hF hr n k
      refine ⟨ν, e1, .inr (.inr ⟨u, u1, u2, by rw [ev, u4], ?_⟩)⟩
      rw [mulVec_add, mulVec_smul, mulVec_add, mulVec_smul, mulVec_smul, mulVec_smul, u3, hF.down, hF.up, smul_smul |cone.radius|⁻¹,
        inv_mul_cancel₀ hp.ne', one_smul] at e2
      exact e2

/-! ### Cuboids -/

/-- The corner triangles lie in the face `i`. -/
def InFace (t : (Fin 3 → Bool) × (Fin 3 → Bool) × (Fin 3 → Bool)) (i : Fin 3) : Prop := t.1 i = t.2.1 i ∧ t.2.1 i = t.2.2 i

theorem cube_face : ∀ t ∈ cubeTris, ∃ i, InFace t i := cubeTris_face

theorem cube_cover (u : Fin 3 → Bool) (i : Fin 3) : ∃ t ∈ cubeTris, u ∈ [t.1, t.2.1, t.2.2] ∧ InFace t i := by
  unfold InFace
  revert u i
  decide +kernel

/-- The sign of a side of the cuboid. -/
def faceSign (b : Bool) : ℝ := if b then 1 else -1

theorem unit_side (t : (Fin 3 → Bool) × (Fin 3 → Bool) × (Fin 3 → Bool)) (ht : t ∈ cubeTris) (i : Fin 3) (hi : InFace t i) (c : Vec ℝ 3) :
    side (mapTriangle unitCorner t) c = faceSign (t.1 i) * (c i - if t.1 i then 1 else 0) := by
  have c0 : ∀ a b c : Bool, (![a, b, c] : Fin 3 → Bool) 0 = a := fun _ _ _ => rfl
  have c1 : ∀ a b c : Bool, (![a, b, c] : Fin 3 → Bool) 1 = b := fun _ _ _ => rfl
  have c2 : ∀ a b c : Bool, (![a, b, c] : Fin 3 → Bool) 2 = c := fun _ _ _ => rfl
  simp only [cubeTris, List.mem_cons, List.not_mem_nil, or_false] at ht
  rcases ht with rfl | rfl | rfl | rfl | rfl | rfl | rfl | rfl | rfl | rfl | rfl | rfl <;> fin_cases i <;>
    first
    | (exfalso; revert hi; unfold InFace; decide)
    | (simp [mapTriangle, side_eq, unitCorner, c0, c1, c2, faceSign])

section
variable {o : Vec ℝ 3} {s N : Fin 3 → Vec ℝ 3} {σ : ℝ} (hσ : σ = 1 ∧ 0 < det (Matrix.of s) ∨ σ = -1 ∧ det (Matrix.of s) < 0)
  (hN : ∀ j, Spec.norm (N j) = 1 ∧ 0 < N j ⬝ᵥ s j ∧ ∀ i, i ≠ j → N j ⬝ᵥ s i = 0)
include hσ hN

theorem plane_face (t : (Fin 3 → Bool) × (Fin 3 → Bool) × (Fin 3 → Bool)) (ht : t ∈ cubeTris) (i : Fin 3) (hi : InFace t i) :
    PlaneOf (mapTriangle (corner o s) t) ((σ * faceSign (t.1 i)) • N i) := by
  obtain ⟨h1, h2, h3⟩ := hN i
  have hd : det (Matrix.of s) ≠ 0 := by rcases hσ with ⟨_, h⟩ | ⟨_, h⟩ <;> [exact h.ne'; exact h.ne]
  have hσd : 0 < σ * det (Matrix.of s) := by rcases hσ with ⟨rfl, h⟩ | ⟨rfl, h⟩ <;> linarith
  have hσ2 : σ * σ = 1 := by rcases hσ with ⟨rfl, h⟩ | ⟨rfl, h⟩ <;> norm_num
  have hf2 : faceSign (t.1 i) * faceSign (t.1 i) = 1 := by unfold faceSign; split <;> norm_num
  refine ⟨?_, σ * det (Matrix.of s) / (N i ⬝ᵥ s i),
    σ * faceSign (t.1 i) * (N i ⬝ᵥ o + N i ⬝ᵥ s i * if t.1 i then 1 else 0), by positivity, fun x => ?_⟩
  · rw [smul_dotProduct, dotProduct_smul, dp_unit h1]
    simp only [smul_eq_mul]
    linear_combination (faceSign (t.1 i) * faceSign (t.1 i)) * hσ2 + hf2
  · have hdT : IsUnit (det (Matrix.of s)ᵀ) := by rw [det_transpose]; exact isUnit_iff_ne_zero.2 hd
    obtain ⟨c, rfl⟩ : ∃ c, x = affine (Matrix.of s)ᵀ o c :=
      ⟨((Matrix.of s)ᵀ)⁻¹ *ᵥ (x - o), by rw [affine, mulVec_mulVec, mul_nonsing_inv _ hdT, one_mulVec, sub_add_cancel]⟩
    have et : mapTriangle (corner o s) t = mapTriangle (affine (Matrix.of s)ᵀ o) (mapTriangle unitCorner t) := by
      simp only [mapTriangle, corner_affine]
    have hc : N i ⬝ᵥ ((Matrix.of s)ᵀ *ᵥ c) = c i * (N i ⬝ᵥ s i) := by
      have e : (Matrix.of s)ᵀ *ᵥ c = ∑ j, c j • s j := by
        funext k; simp only [mulVec, dotProduct, transpose_apply, of_apply, Finset.sum_apply, Pi.smul_apply, smul_eq_mul]
        exact Finset.sum_congr rfl fun j _ => mul_comm _ _
      rw [e, dotProduct_sum, Finset.sum_eq_single i]
      · rw [dotProduct_smul, smul_eq_mul]
      · intro j _ hj
        rw [dotProduct_smul, h3 j hj, smul_zero]
      · intro h; exact absurd (Finset.mem_univ i) h
    rw [et, side_affine, det_transpose, unit_side t ht i hi, smul_dotProduct, affine, dotProduct_add, hc]
    simp only [smul_eq_mul]
    field_simp
    linear_combination (-(faceSign (t.1 i) * (c i - if t.1 i then 1 else 0) * (N i ⬝ᵥ s i))) * hσ2

theorem cuboid_planes : ∀ t ∈ cubeTris.map (mapTriangle (corner o s)), ∃ l, PlaneOf t l := by
  intro t ht
  obtain ⟨u, hu, rfl⟩ := List.mem_map.1 ht
  obtain ⟨i, hi⟩ := cube_face u hu
  exact ⟨_, plane_face hσ hN u hu i hi⟩

theorem corner_inj : Function.Injective (corner o s) := by
  intro u v e
  have hd : det (Matrix.of s) ≠ 0 := by rcases hσ with ⟨_, h⟩ | ⟨_, h⟩ <;> [exact h.ne'; exact h.ne]
  have hdT : IsUnit (det (Matrix.of s)ᵀ) := by rw [det_transpose]; exact isUnit_iff_ne_zero.2 hd
  rw [corner_affine, corner_affine] at e
  have := congrArg (((Matrix.of s)ᵀ)⁻¹ *ᵥ ·) (add_right_cancel e : (Matrix.of s)ᵀ *ᵥ unitCorner u = (Matrix.of s)ᵀ *ᵥ unitCorner v)
  simp only [mulVec_mulVec, nonsing_inv_mul _ hdT, one_mulVec] at this
  funext j
  have hj := congrFun this j
  unfold unitCorner at hj
  cases hu : u j <;> cases hv : v j <;> simp [hu, hv] at hj ⊢

theorem cuboid_at (u : Fin 3 → Bool) (S : Finset (Vec ℝ 3))
    (hS : ∀ l, l ∈ S ↔ ∃ t ∈ cubeTris.map (mapTriangle (corner o s)), corner o s u ∈ [t.1, t.2.1, t.2.2] ∧ PlaneOf t l) :
    ∑ l ∈ S, l = ∑ j, (σ * faceSign (u j)) • N j := by
  have hσ0 : σ ≠ 0 := by rcases hσ with ⟨rfl, h⟩ | ⟨rfl, h⟩ <;> norm_num
  have hf0 : ∀ b, faceSign b ≠ 0 := by intro b; unfold faceSign; split <;> norm_num
  have hinj := corner_inj hσ hN (o := o)
  have hmem : ∀ t : (Fin 3 → Bool) × (Fin 3 → Bool) × (Fin 3 → Bool), corner o s u ∈ [(mapTriangle (corner o s) t).1,
      (mapTriangle (corner o s) t).2.1, (mapTriangle (corner o s) t).2.2] ↔ u ∈ [t.1, t.2.1, t.2.2] := by
    intro t
    simp only [mapTriangle, List.mem_cons, List.not_mem_nil, or_false, hinj.eq_iff]
  have hface : ∀ t : (Fin 3 → Bool) × (Fin 3 → Bool) × (Fin 3 → Bool), u ∈ [t.1, t.2.1, t.2.2] → ∀ i, InFace t i → t.1 i = u i := by
    intro t hu i hi
    simp only [List.mem_cons, List.not_mem_nil, or_false] at hu
    rcases hu with rfl | rfl | rfl
    · rfl
    · exact hi.1
    · exact hi.1.trans hi.2
  have hS' : ∀ l, l ∈ S ↔ ∃ j, l = (σ * faceSign (u j)) • N j := by
    intro l
    rw [hS]
    constructor
    · rintro ⟨t, ht, hv, hl⟩
      obtain ⟨t, ht', rfl⟩ := List.mem_map.1 ht
      obtain ⟨i, hi⟩ := cube_face t ht'
      refine ⟨i, ?_⟩
      rw [(plane_face hσ hN t ht' i hi).unique hl, hface t ((hmem t).1 hv) i hi]
    · rintro ⟨j, rfl⟩
      obtain ⟨t, ht, hu, hi⟩ := cube_cover u j
      refine ⟨_, List.mem_map.2 ⟨t, ht, rfl⟩, (hmem t).2 hu, ?_⟩
      rw [← hface t hu j hi]
      exact plane_face hσ hN t ht j hi
  have hne : ∀ i j, i ≠ j → (σ * faceSign (u i)) • N i ≠ (σ * faceSign (u j)) • N j := by
    intro i j hij e
    have := congrArg (· ⬝ᵥ s i) e
    simp only [smul_dotProduct, (hN j).2.2 i hij, smul_eq_mul, mul_zero] at this
    exact mul_ne_zero (mul_ne_zero hσ0 (hf0 _)) (hN i).2.1.ne' this
  rw [Fin.sum_univ_three]
  apply sum_three
  · intro l
    rw [hS']
    constructor
    · rintro ⟨j, rfl⟩
      fin_cases j
      · exact .inl rfl
      · exact .inr (.inl rfl)
      · exact .inr (.inr rfl)
    · rintro (rfl | rfl | rfl) <;> exact ⟨_, rfl⟩
  · exact hne 0 1 (by decide)
  · exact hne 0 2 (by decide)
  · exact hne 1 2 (by decide)
end

/-- **C135** (cuboids) Let `N j` be the unit vector perpendicular to the two other sides on the side of `s j`. The facets in the faces through
the origin have the normals `- N j`, those in the opposite faces `N j`; the normal of the corner `o + Σ uⱼ sⱼ` is the direction of the sum
of the normals of its three faces, although the corner has up to two triangles in a face. For left-handed sides all normals are reversed. -/
theorem C135_cuboid (dbg : Bool) (M w : Nat) (b : CuboidBuilder ℝ) (hM : 36 < M) (N : Fin 3 → Vec ℝ 3) (σ : ℝ)
    (hσ : σ = 1 ∧ 0 < det (Matrix.of b.theCuboid.sides) ∨ σ = -1 ∧ det (Matrix.of b.theCuboid.sides) < 0)
    (hN : ∀ j, Spec.norm (N j) = 1 ∧ 0 < N j ⬝ᵥ b.theCuboid.sides j ∧ ∀ i, i ≠ j → N j ⬝ᵥ b.theCuboid.sides i = 0) :
    ∃ m b', b.build dbg M w = .ok (m, b') ∧
      (∀ f ∈ m.facets, ∃ j h0 h1 h2 p q s, calcHalfedges m f = .ok [h0, h1, h2] ∧
        m.heVector h0 = .ok p ∧ m.heVector h1 = .ok q ∧ m.heVector h2 = .ok s ∧
        (calcFacetNormal m f = .ok (-(σ • N j)) ∧ (∀ x ∈ [p, q, s], N j ⬝ᵥ (x - b.theCuboid.origin) = 0) ∨
         calcFacetNormal m f = .ok (σ • N j) ∧ (∀ x ∈ [p, q, s], N j ⬝ᵥ (x - b.theCuboid.origin) = N j ⬝ᵥ b.theCuboid.sides j))) ∧
      ∃ ns, calcVertexNormals m = .ok ns ∧ ns.length = m.points.length ∧ ∀ i (hi : i < m.points.length),
        ∃ ν u, ns[i]? = some ν ∧ m.points[i] = corner b.theCuboid.origin b.theCuboid.sides u ∧
          IsUnitAlong (σ • ∑ j, (if u j then N j else -N j)) ν := by
  have hd : det (Matrix.of b.theCuboid.sides) ≠ 0 := by rcases hσ with ⟨_, h⟩ | ⟨_, h⟩ <;> [exact h.ne'; exact h.ne]
  have hi : LinearIndependent ℝ b.theCuboid.sides := Matrix.linearIndependent_rows_of_det_ne_zero hd
  obtain ⟨m, b', hm, _⟩ := C59_cuboid dbg M w b hM hi
  refine ⟨m, b', hm, ?_⟩
  obtain ⟨m', hm', hb, _, _, _, he⟩ := cuboid_build dbg M w b hM
  have : m' = m := by
    rw [hm] at he
    split at he
    · exact nomatch he
    · exact (Prod.mk.inj (Except.ok.inj he)).1.symm
  subst this
  have hM' : 3 * (cuboidTriangles b.theCuboid).length < M := by rw [cuboidTriangles_length]; omega
  rw [cuboidTriangles_eq] at hb hM'
  have hone : ∀ ts : List (Vec ℝ 3 × Vec ℝ 3 × Vec ℝ 3), ts.map (mapTriangle (affine 1 0)) = ts := by
    intro ts
    conv_rhs => rw [← List.map_id ts]
    apply List.map_congr_left
    intro t _
    simp [mapTriangle, affine]
  have hA : Orthogonal (1 : Matrix (Fin 3) (Fin 3) ℝ) := by unfold Orthogonal; simp
  rw [← hone (cubeTris.map _)] at hb hM'
  have hpl := cuboid_planes (o := b.theCuboid.origin) hσ hN
  have hcp : ∀ (j : Fin 3) (u : Fin 3 → Bool), N j ⬝ᵥ (corner b.theCuboid.origin b.theCuboid.sides u - b.theCuboid.origin) =
      (if u j then 1 else 0) * (N j ⬝ᵥ b.theCuboid.sides j) := by
    intro j u
    rw [corner_eq, add_sub_cancel_left, dotProduct_sum, Finset.sum_eq_single j]
    · rw [dotProduct_smul, smul_eq_mul]
    · intro i _ hij
      rw [dotProduct_smul, (hN j).2.2 i hij, smul_zero]
    · intro h; exact absurd (Finset.mem_univ j) h
  refine ⟨?_, ?_⟩
  · intro f hf
    obtain ⟨t, ht, l, hl', hfn, h0, h1, h2, e, e0, e1, e2⟩ := facet_normals_placed dbg M _ hA (by simp) 0 hM' m' hb hpl f hf
    obtain ⟨t, ht', rfl⟩ := List.mem_map.1 ht
    obtain ⟨j, hj⟩ := cube_face t ht'
    have ea : ∀ v : Vec ℝ 3, affine 1 0 v = v := by intro v; simp [affine]
    rw [ea] at e0 e1 e2
    rw [one_mulVec, (plane_face hσ hN t ht' j hj).unique hl'] at hfn
    refine ⟨j, h0, h1, h2, _, _, _, e, e0, e1, e2, ?_⟩
    simp only [List.forall_mem_cons, List.not_mem_nil, false_imp_iff, implies_true, and_true, mapTriangle, hcp]
    rw [← hj.2, ← hj.1]
    cases hb : t.1 j
    · left
      rw [hb] at hfn
      refine ⟨?_, by simp⟩
      rw [hfn]; simp [faceSign]
    · right
      rw [hb] at hfn
      refine ⟨?_, by simp⟩
      rw [hfn]; simp [faceSign]
  · obtain ⟨ns, g1, g2, g3⟩ := vertex_normals_placed dbg M _ hA (by simp) 0 hM' m' hb hpl
    refine ⟨ns, g1, g2, fun i hi => ?_⟩
    obtain ⟨v, hv, ev, S, hS, hν⟩ := g3 i hi
    obtain ⟨u, rfl⟩ : ∃ u, v = corner b.theCuboid.origin b.theCuboid.sides u := by
      obtain ⟨t, ht, hvt⟩ := List.mem_flatMap.1 hv
      obtain ⟨t, ht, rfl⟩ := List.mem_map.1 ht
      simp only [mapTriangle, List.mem_cons, List.not_mem_nil, or_false] at hvt
      rcases hvt with rfl | rfl | rfl <;> exact ⟨_, rfl⟩
    rw [cuboid_at hσ hN u S hS] at hν
    have e : ∑ j, (σ * faceSign (u j)) • N j = σ • ∑ j, (if u j then N j else -N j) := by
      rw [Finset.smul_sum]
      refine Finset.sum_congr rfl fun j _ => ?_
      cases u j <;> simp [faceSign]
    have hσ0 : σ ≠ 0 := by rcases hσ with ⟨rfl, h⟩ | ⟨rfl, h⟩ <;> norm_num
    have hne : ∑ j, (σ * faceSign (u j)) • N j ≠ 0 := by
      intro h
      have := congrArg (· ⬝ᵥ b.theCuboid.sides 0) h
      simp only [Fin.sum_univ_three, add_dotProduct, smul_dotProduct, (hN 1).2.2 0 (by decide), (hN 2).2.2 0 (by decide), smul_eq_mul,
        mul_zero, add_zero, zero_dotProduct] at this
      have hf0 : faceSign (u 0) ≠ 0 := by unfold faceSign; split <;> norm_num
      exact mul_ne_zero (mul_ne_zero hσ0 hf0) (hN 0).2.1.ne' this
    obtain ⟨ν, e1, e2⟩ := hν hne
    rw [e, one_mulVec] at e2
    refine ⟨ν, u, e1, ?_, e2⟩
    rw [ev]; simp [affine]
end

section Examples
attribute [local instance] realTol realTol_lawful
open Classical

theorem exSeg_axis : IsUnitAlong (exSeg.target - exSeg.source) exSeg.direction :=
  ⟨by rw [spec_norm_eq]; exact segment_dir_unit exSeg_ne, exSeg.length, segment_length_pos exSeg_ne, by
    rw [← segment_target exSeg_ne, add_sub_cancel_right]⟩

example := C135_cylinder true 256 8 rotAlignZ ⟨exSeg, 2⟩ 5 (by decide) (by decide) (by norm_num) exSeg_ne (exSeg_rot _) _ exSeg_axis

example := C135_cone true 256 8 rotAlignZ ⟨exSeg, 2⟩ 5 (by decide) (by decide) (by norm_num) exSeg_ne (fun _ => exSeg_nonzero) (exSeg_rot _) _
  exSeg_axis _ _ rfl rfl

example := C135_cuboid true 65536 16 exBoxR (by decide) ![vec3 1 0 0, vec3 0 1 0, vec3 0 0 1] 1 (.inl ⟨rfl, exBoxR_det⟩) (by
  intro j
  have h : exBoxR.theCuboid.sides = ![vec3 2 0 0, vec3 0 1 0, vec3 0 0 4] := by
    show (Cuboid.ofDiagonal (vec3 1 2 3) (vec3 2 1 4) : Cuboid ℝ).sides = _
    have h := (C68_diagonal (vec3 1 2 3 : Vec ℝ 3) (vec3 2 1 4)).2.1
    funext a c
    rw [h]
    fin_cases a <;> fin_cases c <;> simp [vec3]
  rw [h]
  refine ⟨?_, ?_, ?_⟩
  · apply norm_of_dp; fin_cases j <;> simp [dotProduct, Fin.sum_univ_three]
  · fin_cases j <;> simp [dotProduct, Fin.sum_univ_three]
  · intro i hij
    fin_cases i <;> fin_cases j <;> first | exact absurd rfl hij | simp [dotProduct, Fin.sum_univ_three])
end Examples
end Verif
