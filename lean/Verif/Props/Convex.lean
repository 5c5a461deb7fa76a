import Verif.Proofs.Convex
import Verif.Props.Facade

set_option linter.unusedSectionVars false

/-
C81: the meshes of the solids are convex and oriented outward.
-/
namespace Verif
open Spec Matrix Real

/-- The `k`-th point of the circle with `n` points at height `z`. -/
noncomputable def rim (r : ℝ) (n : ℕ) (z : ℝ) (k : ℤ) : Vec ℝ 3 :=
  vec3 (cos (2 * (k * (π / n))) * r) (sin (2 * (k * (π / n))) * r) z

theorem rim_ccw (r : ℝ) (n : ℕ) (z : ℝ) (i : ℕ) : vec3 0 0 z + circlePt r n 1 i = rim r n z i := by
  have e : azimuth n 1 i = 2 * (((i : ℤ) : ℝ) * (π / n)) := by unfold azimuth; push_cast; ring
  funext j
  fin_cases j <;> simp [rim, circlePt, e]

theorem rim_cw (r : ℝ) (n : ℕ) (z : ℝ) (i : ℕ) : vec3 0 0 z + circlePt r n (-1) i = rim r n z (-i) := by
  have e : azimuth n (-1) i = 2 * (((-i : ℤ) : ℝ) * (π / n)) := by unfold azimuth; push_cast; ring
  funext j
  fin_cases j <;> simp only [rim, circlePt, e] <;> simp

theorem rim_period {n : ℕ} (hn : 0 < n) (r z : ℝ) (k : ℤ) : rim r n z (k + n) = rim r n z k := by
  have hn' : (n : ℝ) ≠ 0 := by exact_mod_cast hn.ne'
  have e : 2 * (((k + n : ℤ) : ℝ) * (π / n)) = 2 * (k * (π / n)) + 2 * π := by push_cast; field_simp
  unfold rim
  rw [e, cos_add_two_pi, sin_add_two_pi]

theorem rim_cross {n : ℕ} (hn : 0 < n) (r z z' z'' : ℝ) (i k : ℤ) :
    0 ≤ (rim r n z' (i + 1) 0 - rim r n z i 0) * (rim r n z'' k 1 - rim r n z i 1) -
      (rim r n z' (i + 1) 1 - rim r n z i 1) * (rim r n z'' k 0 - rim r n z i 0) := by
  have h := chord_cross (i * (π / n)) (π / n) ((k - i) * (π / n))
  have e1 : 2 * (i * (π / n)) + 2 * (π / n) = 2 * (((i + 1 : ℤ) : ℝ) * (π / n)) := by push_cast; ring
  have e2 : 2 * (i * (π / n)) + 2 * ((k - i) * (π / n)) = 2 * (k * (π / n)) := by ring
  have e3 : ((k : ℝ) - i) * (π / n) - π / n = (((k - i : ℤ) : ℝ) - 1) * (π / n) := by push_cast; ring
  have e4 : ((k : ℝ) - i) * (π / n) = ((k - i : ℤ) : ℝ) * (π / n) := by push_cast; ring
  rw [e1, e2, e3, e4] at h
  have h0 := sin_mul_sin_nonneg hn (k - i)
  have hu : 0 ≤ sin (π / n) := by
    have h1 : (1 : ℝ) ≤ n := by exact_mod_cast hn
    apply Real.sin_nonneg_of_nonneg_of_le_pi (by positivity)
    exact div_le_self Real.pi_pos.le h1
  simp only [rim, vec3_0, vec3_1]
  nlinarith [mul_nonneg (mul_nonneg hu h0) (sq_nonneg r)]

theorem rim_turn {n : ℕ} (hn : 3 ≤ n) {r : ℝ} (hr : r ≠ 0) (z z' : ℝ) (i : ℤ) :
    0 < rim r n z i 0 * rim r n z' (i + 1) 1 - rim r n z i 1 * rim r n z' (i + 1) 0 := by
  have h3 : (3 : ℝ) ≤ n := by exact_mod_cast hn
  have hpi := Real.pi_pos
  have e1 : 2 * (((i + 1 : ℤ) : ℝ) * (π / n)) - 2 * (i * (π / n)) = 2 * (π / n) := by push_cast; ring
  have hs : 0 < sin (2 * (π / n)) := by
    apply Real.sin_pos_of_pos_of_lt_pi (by positivity)
    rw [← mul_div_assoc, div_lt_iff₀ (by positivity)]
    nlinarith
  rw [← e1, Real.sin_sub] at hs
  have hr2 : 0 < r ^ 2 := by positivity
  simp only [rim, vec3_0, vec3_1]
  nlinarith [mul_pos hr2 hs]

theorem vec3_eta (v : Vec ℝ 3) : vec3 (v 0) (v 1) (v 2) = v := by funext j; fin_cases j <;> rfl

/-! ### Cones -/

theorem side_base (r : ℝ) (n : ℕ) (i : ℤ) (v : Vec ℝ 3) : side (rim r n 0 (i + 1), rim r n 0 i, vec3 0 0 0) v =
    -(rim r n 0 i 0 * rim r n 0 (i + 1) 1 - rim r n 0 i 1 * rim r n 0 (i + 1) 0) * v 2 := by
  rw [side_eq]
  simp only [rim, vec3_0, vec3_1, vec3_2]
  ring

theorem side_lid (r : ℝ) (n : ℕ) (h : ℝ) (i : ℤ) (v : Vec ℝ 3) : side (rim r n h i, rim r n h (i + 1), vec3 0 0 h) v =
    (rim r n h i 0 * rim r n h (i + 1) 1 - rim r n h i 1 * rim r n h (i + 1) 0) * (v 2 - h) := by
  rw [side_eq]
  simp only [rim, vec3_0, vec3_1, vec3_2]
  ring

theorem side_cone_mantle (r : ℝ) (n : ℕ) (h : ℝ) (i : ℤ) (v : Vec ℝ 3) : side (rim r n 0 i, rim r n 0 (i + 1), vec3 0 0 h) v =
    -h * ((rim r n 0 (i + 1) 0 - rim r n 0 i 0) * (v 1 - rim r n 0 i 1) - (rim r n 0 (i + 1) 1 - rim r n 0 i 1) * (v 0 - rim r n 0 i 0)) +
    v 2 * (rim r n 0 i 0 * rim r n 0 (i + 1) 1 - rim r n 0 i 1 * rim r n 0 (i + 1) 0) := by
  rw [side_eq]
  simp only [rim, vec3_0, vec3_1, vec3_2]
  ring

theorem side_mantle_low (r : ℝ) (n : ℕ) (h : ℝ) (i : ℤ) (v : Vec ℝ 3) : side (rim r n 0 (i + 1), rim r n h i, rim r n 0 i) v =
    -h * ((rim r n 0 (i + 1) 0 - rim r n 0 i 0) * (v 1 - rim r n 0 i 1) - (rim r n 0 (i + 1) 1 - rim r n 0 i 1) * (v 0 - rim r n 0 i 0)) := by
  rw [side_eq]
  simp only [rim, vec3_0, vec3_1, vec3_2]
  ring

theorem side_mantle_high (r : ℝ) (n : ℕ) (h : ℝ) (i : ℤ) (v : Vec ℝ 3) : side (rim r n 0 (i + 1), rim r n h (i + 1), rim r n h i) v =
    -h * ((rim r n 0 (i + 1) 0 - rim r n 0 i 0) * (v 1 - rim r n 0 i 1) - (rim r n 0 (i + 1) 1 - rim r n 0 i 1) * (v 0 - rim r n 0 i 0)) := by
  rw [side_eq]
  simp only [rim, vec3_0, vec3_1, vec3_2]
  ring

theorem conePoints_rim (r h : ℝ) (n : ℕ) {i : ℕ} (h1 : 1 ≤ i) (h2 : i ≤ n) : (conePoints r h n).getD i 0 = rim r n 0 (i - 1 : ℤ) := by
  obtain ⟨k, rfl⟩ : ∃ k, i = k + 1 := ⟨i - 1, by omega⟩
  have hk : k < n := by omega
  rw [conePoints, discretizeCircle_eq, List.getD_eq_getElem?_getD, List.cons_append, List.getElem?_cons_succ,
    List.getElem?_append_left (by simpa using hk), List.getElem?_map, List.getElem?_range hk]
  simp only [Option.map_some, Option.getD_some]
  rw [show dirSign .ccw = 1 from rfl, rim_ccw]
  congr 1
  push_cast; ring

theorem conePoints_nxt (r h : ℝ) {n : ℕ} {i : ℕ} (h1 : 1 ≤ i) (h2 : i ≤ n) :
    (conePoints r h n).getD (nxt 1 n i) 0 = rim r n 0 ((i - 1 : ℤ) + 1) := by
  rcases nxt_spec 1 n i with ⟨e1, e2⟩ | ⟨e1, e2⟩
  · rw [e2, conePoints_rim r h n le_rfl (by omega), ← rim_period (show 0 < n by omega)]
    congr 1
    subst e1; push_cast; ring
  · rw [e2, conePoints_rim r h n (by omega) (by omega)]
    congr 1
    push_cast; ring

theorem conePoints_apex (r h : ℝ) (n : ℕ) : (conePoints r h n).getD (n + 1) 0 = vec3 0 0 h := by
  rw [conePoints, discretizeCircle_eq, List.getD_eq_getElem?_getD, List.cons_append, List.getElem?_cons_succ,
    List.getElem?_append_right (by simp)]
  simp

theorem conePoints_mem {r h : ℝ} {n : ℕ} {v : Vec ℝ 3} (hv : v ∈ conePoints r h n) :
    v = vec3 0 0 0 ∨ v = vec3 0 0 h ∨ ∃ k : ℤ, v = rim r n 0 k := by
  simp only [conePoints, List.cons_append, List.mem_cons, List.mem_append, List.not_mem_nil, or_false] at hv
  rcases hv with rfl | hv | rfl
  · exact .inl rfl
  · rw [discretizeCircle_eq] at hv
    obtain ⟨i, _, rfl⟩ := List.mem_map.1 hv
    exact .inr (.inr ⟨i, by rw [show dirSign .ccw = 1 from rfl, rim_ccw]⟩)
  · exact .inr (.inl rfl)

theorem cone_outward {r h : ℝ} (hr : r ≠ 0) (hh : 0 < h) {n : ℕ} (hn : 3 ≤ n) :
    ∀ t ∈ triples (coneIdx n), side (mapTriangle (fun i => (conePoints r h n).getD i 0) (reversed t)) (vec3 0 0 (h / 2)) < 0 ∧
      ∀ p ∈ conePoints r h n, side (mapTriangle (fun i => (conePoints r h n).getD i 0) (reversed t)) p ≤ 0 := by
  intro t ht
  rw [coneIdx_triples, List.mem_map] at ht
  obtain ⟨⟨b, i⟩, hi, rfl⟩ := ht
  obtain ⟨h1, h2⟩ := coneIds_mem.1 hi
  dsimp only at h1 h2
  have hS := rim_turn hn hr 0 0 (i - 1 : ℤ)
  have hC := fun k => rim_cross (show 0 < n by omega) r 0 0 0 (i - 1 : ℤ) k
  cases b
  · have e : mapTriangle (fun i => (conePoints r h n).getD i 0) (reversed (coneTri n (false, i))) =
        (rim r n 0 ((i - 1 : ℤ) + 1), rim r n 0 (i - 1 : ℤ), vec3 0 0 0) := by
      show ((conePoints r h n).getD (nxt 1 n i) 0, (conePoints r h n).getD i 0, (conePoints r h n).getD 0 0) = _
      rw [conePoints_nxt r h h1 h2, conePoints_rim r h n h1 h2]; rfl
    rw [e]
    refine ⟨?_, fun v hv => ?_⟩
    · rw [side_base, vec3_2]; nlinarith
    · rw [side_base]
      rcases conePoints_mem hv with rfl | rfl | ⟨k, rfl⟩
      · simp
      · rw [vec3_2]; nlinarith
      · simp [rim]
  · have e : mapTriangle (fun i => (conePoints r h n).getD i 0) (reversed (coneTri n (true, i))) =
        (rim r n 0 (i - 1 : ℤ), rim r n 0 ((i - 1 : ℤ) + 1), vec3 0 0 h) := by
      show ((conePoints r h n).getD i 0, (conePoints r h n).getD (nxt 1 n i) 0, (conePoints r h n).getD (n + 1) 0) = _
      rw [conePoints_nxt r h h1 h2, conePoints_rim r h n h1 h2, conePoints_apex]
    rw [e]
    refine ⟨?_, fun v hv => ?_⟩
    · rw [side_cone_mantle]; simp only [vec3_0, vec3_1, vec3_2]; nlinarith
    · rw [side_cone_mantle]
      rcases conePoints_mem hv with rfl | rfl | ⟨k, rfl⟩
      · simp only [vec3_0, vec3_1, vec3_2]; nlinarith
      · simp only [vec3_0, vec3_1, vec3_2]; nlinarith
      · have := hC k
        rw [show rim r n 0 k 2 = 0 from rfl, zero_mul, add_zero]
        nlinarith

/-! ### Cylinders -/

theorem cylPoints_bottom (r h : ℝ) (n : ℕ) {i : ℕ} (h1 : 1 ≤ i) (h2 : i ≤ n) : (cylPoints r h n).getD i 0 = rim r n 0 (i - 1 : ℤ) := by
  obtain ⟨k, rfl⟩ : ∃ k, i = k + 1 := ⟨i - 1, by omega⟩
  have hk : k < n := by omega
  rw [cylPoints, discretizeCircle_eq, List.getD_eq_getElem?_getD, List.cons_append, List.getElem?_cons_succ,
    List.getElem?_append_left (by simpa using hk), List.getElem?_map, List.getElem?_range hk]
  simp only [Option.map_some, Option.getD_some]
  rw [show dirSign .ccw = 1 from rfl, rim_ccw]
  congr 1
  push_cast; ring

theorem cylPoints_nxt (r h : ℝ) {n : ℕ} {i : ℕ} (h1 : 1 ≤ i) (h2 : i ≤ n) :
    (cylPoints r h n).getD (nxt 1 n i) 0 = rim r n 0 ((i - 1 : ℤ) + 1) := by
  rcases nxt_spec 1 n i with ⟨e1, e2⟩ | ⟨e1, e2⟩
  · rw [e2, cylPoints_bottom r h n le_rfl (by omega), ← rim_period (show 0 < n by omega)]
    congr 1
    subst e1; push_cast; ring
  · rw [e2, cylPoints_bottom r h n (by omega) (by omega)]
    congr 1
    push_cast; ring

theorem cylPoints_center (r h : ℝ) (n : ℕ) : (cylPoints r h n).getD (n + 1) 0 = vec3 0 0 h := by
  rw [cylPoints, discretizeCircle_eq, List.getD_eq_getElem?_getD, List.cons_append, List.getElem?_cons_succ,
    List.getElem?_append_right (by simp)]
  simp

theorem cylPoints_top (r h : ℝ) (n : ℕ) {i : ℕ} (h1 : 1 ≤ i) (h2 : i ≤ n) :
    (cylPoints r h n).getD (n + 1 + i) 0 = rim r n h (1 - i : ℤ) := by
  obtain ⟨k, rfl⟩ : ∃ k, i = k + 1 := ⟨i - 1, by omega⟩
  have hk : k < n := by omega
  rw [cylPoints, discretizeCircle_eq, discretizeCircle_eq, List.getD_eq_getElem?_getD, List.getElem?_append_right (by simp)]
  rw [show n + 1 + (k + 1) - (vec3 0 0 0 :: (List.range n).map fun i => vec3 0 0 0 + circlePt r n (dirSign .ccw) i : List (Vec ℝ 3)).length
    = k + 1 by simp, List.getElem?_cons_succ, List.getElem?_map, List.getElem?_range hk]
  simp only [Option.map_some, Option.getD_some]
  rw [show dirSign .cw = -1 from rfl, rim_cw]
  congr 1
  push_cast; ring

theorem cylPoints_topOf (r h : ℝ) {n : ℕ} {i : ℕ} (h1 : 1 ≤ i) (h2 : i ≤ n) :
    (cylPoints r h n).getD (topOf n i) 0 = rim r n h (i - 1 : ℤ) := by
  rcases topOf_spec n i with ⟨e1, e2⟩ | ⟨e1, e2⟩
  · rw [e2, show n + 2 = n + 1 + 1 from rfl, cylPoints_top r h n le_rfl (by omega), e1]
    rfl
  · rw [e2, show 2 * n + 3 - i = n + 1 + (n + 2 - i) by omega, cylPoints_top r h n (by omega) (by omega),
      ← rim_period (show 0 < n by omega)]
    congr 1
    push_cast [Nat.cast_sub (show i ≤ n + 2 by omega)]
    ring

theorem cylPoints_topOf_nxt (r h : ℝ) {n : ℕ} {i : ℕ} (h1 : 1 ≤ i) (h2 : i ≤ n) :
    (cylPoints r h n).getD (topOf n (nxt 1 n i)) 0 = rim r n h ((i - 1 : ℤ) + 1) := by
  rcases nxt_spec 1 n i with ⟨e1, e2⟩ | ⟨e1, e2⟩
  · rw [e2, cylPoints_topOf r h le_rfl (by omega), ← rim_period (show 0 < n by omega)]
    congr 1
    subst e1; push_cast; ring
  · rw [e2, cylPoints_topOf r h (by omega) (by omega)]
    congr 1
    push_cast; ring

theorem cylPoints_top_nxt (r h : ℝ) {n : ℕ} {i : ℕ} (h1 : 1 ≤ i) (h2 : i ≤ n) :
    (cylPoints r h n).getD (nxt (n + 2) (2 * n + 1) (n + 1 + i)) 0 = rim r n h (-i : ℤ) := by
  rcases nxt_spec (n + 2) (2 * n + 1) (n + 1 + i) with ⟨e1, e2⟩ | ⟨e1, e2⟩
  · rw [e2, show n + 2 = n + 1 + 1 from rfl, cylPoints_top r h n le_rfl (by omega), ← rim_period (show 0 < n by omega) r h (-i)]
    congr 1
    have : i = n := by omega
    subst this; push_cast; ring
  · rw [e2, show n + 1 + i + 1 = n + 1 + (i + 1) by omega, cylPoints_top r h n (by omega) (by omega)]
    congr 1
    push_cast; ring

theorem cylPoints_mem {r h : ℝ} {n : ℕ} {v : Vec ℝ 3} (hv : v ∈ cylPoints r h n) :
    v = vec3 0 0 0 ∨ v = vec3 0 0 h ∨ (∃ k : ℤ, v = rim r n 0 k) ∨ ∃ k : ℤ, v = rim r n h k := by
  simp only [cylPoints, List.cons_append, List.mem_cons, List.mem_append] at hv
  rcases hv with rfl | hv | rfl | hv
  · exact .inl rfl
  · rw [discretizeCircle_eq] at hv
    obtain ⟨i, _, rfl⟩ := List.mem_map.1 hv
    exact .inr (.inr (.inl ⟨i, by rw [show dirSign .ccw = 1 from rfl, rim_ccw]⟩))
  · exact .inr (.inl rfl)
  · rw [discretizeCircle_eq] at hv
    obtain ⟨i, _, rfl⟩ := List.mem_map.1 hv
    exact .inr (.inr (.inr ⟨-i, by rw [show dirSign .cw = -1 from rfl, rim_cw]⟩))

theorem cyl_outward {r h : ℝ} (hr : r ≠ 0) (hh : 0 < h) {n : ℕ} (hn : 3 ≤ n) :
    ∀ t ∈ triples (cylIdx n), side (mapTriangle (fun i => (cylPoints r h n).getD i 0) (reversed t)) (vec3 0 0 (h / 2)) < 0 ∧
      ∀ p ∈ cylPoints r h n, side (mapTriangle (fun i => (cylPoints r h n).getD i 0) (reversed t)) p ≤ 0 := by
  intro t ht
  rw [cylIdx_triples, List.mem_map] at ht
  obtain ⟨⟨b, i⟩, hi, rfl⟩ := ht
  obtain ⟨h1, h2⟩ := cylIds_mem.1 hi
  dsimp only at h1 h2
  have hS := rim_turn hn hr 0 0 (i - 1 : ℤ)
  have hC := fun z k => rim_cross (show 0 < n by omega) r 0 0 z (i - 1 : ℤ) k
  have hmant : ∀ t, (∀ v, side t v = -h * ((rim r n 0 ((i - 1 : ℤ) + 1) 0 - rim r n 0 (i - 1 : ℤ) 0) * (v 1 - rim r n 0 (i - 1 : ℤ) 1) -
      (rim r n 0 ((i - 1 : ℤ) + 1) 1 - rim r n 0 (i - 1 : ℤ) 1) * (v 0 - rim r n 0 (i - 1 : ℤ) 0))) →
      side t (vec3 0 0 (h / 2)) < 0 ∧ ∀ p ∈ cylPoints r h n, side t p ≤ 0 := by
    intro t ht
    refine ⟨?_, fun v hv => ?_⟩
    · rw [ht]; simp only [vec3_0, vec3_1]; nlinarith
    · rw [ht]
      rcases cylPoints_mem hv with rfl | rfl | ⟨k, rfl⟩ | ⟨k, rfl⟩
      · simp only [vec3_0, vec3_1]; nlinarith
      · simp only [vec3_0, vec3_1]; nlinarith
      · nlinarith [hC 0 k]
      · nlinarith [hC h k]
  fin_cases b
  · have e : mapTriangle (fun i => (cylPoints r h n).getD i 0) (reversed (cylTri n (0, i))) =
        (rim r n 0 ((i - 1 : ℤ) + 1), rim r n 0 (i - 1 : ℤ), vec3 0 0 0) := by
      show ((cylPoints r h n).getD (nxt 1 n i) 0, (cylPoints r h n).getD i 0, (cylPoints r h n).getD 0 0) = _
      rw [cylPoints_nxt r h h1 h2, cylPoints_bottom r h n h1 h2]; rfl
    show side (mapTriangle _ (reversed (cylTri n (0, i)))) _ < 0 ∧ ∀ p ∈ _, side (mapTriangle _ (reversed (cylTri n (0, i)))) p ≤ 0
    rw [e]
    refine ⟨?_, fun v hv => ?_⟩
    · rw [side_base, vec3_2]; nlinarith
    · rw [side_base]
      rcases cylPoints_mem hv with rfl | rfl | ⟨k, rfl⟩ | ⟨k, rfl⟩
      · simp
      · rw [vec3_2]; nlinarith
      · simp [rim]
      · rw [show rim r n h k 2 = h from rfl]; nlinarith
  · have e : mapTriangle (fun i => (cylPoints r h n).getD i 0) (reversed (cylTri n (1, i))) =
        (rim r n h (-i : ℤ), rim r n h ((-i : ℤ) + 1), vec3 0 0 h) := by
      show ((cylPoints r h n).getD (nxt (n + 2) (2 * n + 1) (n + 1 + i)) 0, (cylPoints r h n).getD (n + 1 + i) 0,
        (cylPoints r h n).getD (n + 1) 0) = _
      rw [cylPoints_top_nxt r h h1 h2, cylPoints_top r h n h1 h2, cylPoints_center, show (-i : ℤ) + 1 = 1 - i by ring]
    have hS := rim_turn hn hr h h (-i : ℤ)
    show side (mapTriangle _ (reversed (cylTri n (1, i)))) _ < 0 ∧ ∀ p ∈ _, side (mapTriangle _ (reversed (cylTri n (1, i)))) p ≤ 0
    rw [e]
    refine ⟨?_, fun v hv => ?_⟩
    · rw [side_lid, vec3_2]; nlinarith
    · rw [side_lid]
      rcases cylPoints_mem hv with rfl | rfl | ⟨k, rfl⟩ | ⟨k, rfl⟩
      · rw [vec3_2]; nlinarith
      · simp
      · rw [show rim r n 0 k 2 = 0 from rfl]; nlinarith
      · rw [show rim r n h k 2 = h from rfl]; simp
  · have e : mapTriangle (fun i => (cylPoints r h n).getD i 0) (reversed (cylTri n (2, i))) =
        (rim r n 0 ((i - 1 : ℤ) + 1), rim r n h (i - 1 : ℤ), rim r n 0 (i - 1 : ℤ)) := by
      show ((cylPoints r h n).getD (nxt 1 n i) 0, (cylPoints r h n).getD (topOf n i) 0, (cylPoints r h n).getD i 0) = _
      rw [cylPoints_nxt r h h1 h2, cylPoints_topOf r h h1 h2, cylPoints_bottom r h n h1 h2]
    show side (mapTriangle _ (reversed (cylTri n (2, i)))) _ < 0 ∧ ∀ p ∈ _, side (mapTriangle _ (reversed (cylTri n (2, i)))) p ≤ 0
    rw [e]
    exact hmant _ (side_mantle_low r n h _)
  · have e : mapTriangle (fun i => (cylPoints r h n).getD i 0) (reversed (cylTri n (3, i))) =
        (rim r n 0 ((i - 1 : ℤ) + 1), rim r n h ((i - 1 : ℤ) + 1), rim r n h (i - 1 : ℤ)) := by
      show ((cylPoints r h n).getD (nxt 1 n i) 0, (cylPoints r h n).getD (topOf n (nxt 1 n i)) 0,
        (cylPoints r h n).getD (topOf n i) 0) = _
      rw [cylPoints_nxt r h h1 h2, cylPoints_topOf r h h1 h2, cylPoints_topOf_nxt r h h1 h2]
    show side (mapTriangle _ (reversed (cylTri n (3, i)))) _ < 0 ∧ ∀ p ∈ _, side (mapTriangle _ (reversed (cylTri n (3, i)))) p ≤ 0
    rw [e]
    exact hmant _ (side_mantle_high r n h _)

/-! ### Spheres -/

/-- The point of the sphere with radius `r` in row `a` (of `p`) and column `k` (of `n`). -/
noncomputable def sp (r : ℝ) (p n : ℕ) (a k : ℤ) : Vec ℝ 3 :=
  vec3 (r * sin (a * (π / p)) * cos (2 * (k * (π / n)))) (r * sin (a * (π / p)) * sin (2 * (k * (π / n)))) (r * cos (a * (π / p)))

theorem sphPt_g (r : ℝ) (p n i j : ℕ) : sphPt r p n (.g i j) = sp r p n (i + 1) j := by
  have e : azimuth n 1 j = 2 * (((j : ℤ) : ℝ) * (π / n)) := by unfold azimuth; push_cast; ring
  unfold sphPt sp polar
  dsimp only
  rw [e]
  push_cast
  rfl

theorem sphPt_top (r : ℝ) (p n : ℕ) (k : ℤ) : sphPt r p n .top = sp r p n 0 k := by
  unfold sphPt sp; simp

theorem sphPt_bot (r : ℝ) {p : ℕ} (hp : 0 < p) (n : ℕ) (k : ℤ) : sphPt r p n .bot = sp r p n p k := by
  have hp' : (p : ℝ) ≠ 0 := by exact_mod_cast hp.ne'
  have e : ((p : ℤ) : ℝ) * (π / p) = π := by push_cast; field_simp
  unfold sphPt sp
  rw [e]; simp

theorem sp_period {n : ℕ} (hn : 0 < n) (r : ℝ) (p : ℕ) (a k : ℤ) : sp r p n a (k + n) = sp r p n a k := by
  have hn' : (n : ℝ) ≠ 0 := by exact_mod_cast hn.ne'
  have e : 2 * (((k + n : ℤ) : ℝ) * (π / n)) = 2 * (k * (π / n)) + 2 * π := by push_cast; field_simp
  unfold sp
  rw [e, cos_add_two_pi, sin_add_two_pi]

theorem sphPt_pv (r : ℝ) (p : ℕ) {n : ℕ} (i : ℕ) {j : ℕ} (hj : j < n) : sphPt r p n (.g i (pv n j)) = sp r p n (i + 1) (j - 1) := by
  rw [sphPt_g]
  rcases pv_spec n j with ⟨e1, e2⟩ | ⟨e1, e2⟩
  · rw [e2, ← sp_period (show 0 < n by omega) r p _ (j - 1 : ℤ)]
    congr 1
    omega
  · rw [e2]
    congr 1
    omega

/-- The factor common to the sides of all triangles between the rows `a` and `a + 1` and the columns `k - 1` and `k`, at the point of row
`t` and column `l`, scaled by `g` (1 for a vertex, 0 for the centre). -/
noncomputable def sphGap (p n : ℕ) (a k t l : ℤ) (g : ℝ) : ℝ :=
  (cos (a * (π / p)) - cos ((a + 1) * (π / p))) *
    (g * sin (t * (π / p)) * (cos (2 * (l * (π / n))) * cos ((2 * k - 1) * (π / n)) + sin (2 * (l * (π / n))) * sin ((2 * k - 1) * (π / n))) -
      sin (a * (π / p)) * cos (π / n)) +
  (sin ((a + 1) * (π / p)) - sin (a * (π / p))) * cos (π / n) * (g * cos (t * (π / p)) - cos (a * (π / p)))

theorem cos_prev (n : ℕ) (k : ℤ) : cos (2 * (((k - 1 : ℤ) : ℝ) * (π / n))) =
    cos ((2 * k - 1) * (π / n)) * cos (π / n) + sin ((2 * k - 1) * (π / n)) * sin (π / n) := by
  rw [← Real.cos_sub]; congr 1; push_cast; ring
theorem sin_prev (n : ℕ) (k : ℤ) : sin (2 * (((k - 1 : ℤ) : ℝ) * (π / n))) =
    sin ((2 * k - 1) * (π / n)) * cos (π / n) - cos ((2 * k - 1) * (π / n)) * sin (π / n) := by
  rw [← Real.sin_sub]; congr 1; push_cast; ring
theorem cos_this (n : ℕ) (k : ℤ) : cos (2 * ((k : ℝ) * (π / n))) =
    cos ((2 * k - 1) * (π / n)) * cos (π / n) - sin ((2 * k - 1) * (π / n)) * sin (π / n) := by
  rw [← Real.cos_add]; congr 1; ring
theorem sin_this (n : ℕ) (k : ℤ) : sin (2 * ((k : ℝ) * (π / n))) =
    sin ((2 * k - 1) * (π / n)) * cos (π / n) + cos ((2 * k - 1) * (π / n)) * sin (π / n) := by
  rw [← Real.sin_add]; congr 1; ring

theorem side_quad_a (r : ℝ) (p n : ℕ) (a k t l : ℤ) (g : ℝ) :
    side (sp r p n a (k - 1), sp r p n (a + 1) (k - 1), sp r p n a k) (g • sp r p n t l) =
      2 * r ^ 3 * sin (a * (π / p)) * sin (π / n) * sphGap p n a k t l g := by
  have hQ := Real.sin_sq_add_cos_sq ((2 * k - 1) * (π / n))
  rw [side_eq]
  unfold sphGap
  simp only [sp, Pi.smul_apply, smul_eq_mul, vec3_0, vec3_1, vec3_2]
  rw [cos_prev, sin_prev, cos_this n k, sin_this n k]
  push_cast
  generalize sin ((2 * k - 1) * (π / n)) = S at *
  generalize cos ((2 * k - 1) * (π / n)) = C at *
  generalize sin (π / n) = se at *
  generalize cos (π / n) = ce at *
  generalize sin (a * (π / p)) = sa at *
  generalize cos (a * (π / p)) = ca at *
  generalize sin ((a + 1) * (π / p)) = sb at *
  generalize cos ((a + 1) * (π / p)) = cb at *
  generalize sin (t * (π / p)) = st at *
  generalize cos (t * (π / p)) = ct at *
  generalize sin (2 * (l * (π / n))) = Y at *
  generalize cos (2 * (l * (π / n))) = X at *
  linear_combination 2 * r ^ 3 * sa * se * ((sb - sa) * ce * (g * ct - ca) - (ca - cb) * sa * ce) * hQ

theorem side_quad_b (r : ℝ) (p n : ℕ) (a k t l : ℤ) (g : ℝ) :
    side (sp r p n (a + 1) k, sp r p n a k, sp r p n (a + 1) (k - 1)) (g • sp r p n t l) =
      2 * r ^ 3 * sin ((a + 1) * (π / p)) * sin (π / n) * sphGap p n a k t l g := by
  have hQ := Real.sin_sq_add_cos_sq ((2 * k - 1) * (π / n))
  rw [side_eq]
  unfold sphGap
  simp only [sp, Pi.smul_apply, smul_eq_mul, vec3_0, vec3_1, vec3_2]
  rw [cos_prev, sin_prev, cos_this n k, sin_this n k]
  push_cast
  generalize sin ((2 * k - 1) * (π / n)) = S at *
  generalize cos ((2 * k - 1) * (π / n)) = C at *
  generalize sin (π / n) = se at *
  generalize cos (π / n) = ce at *
  generalize sin (a * (π / p)) = sa at *
  generalize cos (a * (π / p)) = ca at *
  generalize sin ((a + 1) * (π / p)) = sb at *
  generalize cos ((a + 1) * (π / p)) = cb at *
  generalize sin (t * (π / p)) = st at *
  generalize cos (t * (π / p)) = ct at *
  generalize sin (2 * (l * (π / n))) = Y at *
  generalize cos (2 * (l * (π / n))) = X at *
  linear_combination 2 * r ^ 3 * sb * se * ((sb - sa) * ce * (g * ct - cb) - (ca - cb) * sb * ce) * hQ

theorem sphGap_nonpos {p n : ℕ} (hp : 0 < p) (hn : 3 ≤ n) {a : ℤ} (ha : 0 ≤ a) (hap : a + 1 ≤ p) (k : ℤ) {t : ℤ} (ht : 0 ≤ t) (htp : t ≤ p)
    (l : ℤ) : sphGap p n a k t l 1 ≤ 0 := by
  have hp' : (0 : ℝ) < p := by exact_mod_cast hp
  have hpi := Real.pi_pos
  have hpd : (p : ℝ) * (π / p) = π := by field_simp
  have hd : 0 < π / p := by positivity
  have hle : ∀ x : ℤ, x ≤ p → (x : ℝ) * (π / p) ≤ π := by
    intro x hx
    have : (x : ℝ) ≤ p := by exact_mod_cast hx
    nlinarith
  have ha' : (0 : ℝ) ≤ a := by exact_mod_cast ha
  have ht' : (0 : ℝ) ≤ t := by exact_mod_cast ht
  have hst : 0 ≤ sin (t * (π / p)) := Real.sin_nonneg_of_nonneg_of_le_pi (by positivity) (hle t htp)
  have hcab : 0 ≤ cos (a * (π / p)) - cos ((a + 1) * (π / p)) := by
    have h1 := hle (a + 1) hap
    push_cast at h1
    have := Real.cos_le_cos_of_nonneg_of_le_pi (show 0 ≤ a * (π / p) by positivity) h1 (by nlinarith)
    linarith
  have hce : 0 ≤ cos (π / n) := by
    have h3 : (3 : ℝ) ≤ n := by exact_mod_cast hn
    apply Real.cos_nonneg_of_mem_Icc
    constructor
    · have : 0 ≤ π / n := by positivity
      linarith
    · rw [div_le_div_iff₀ (by positivity) (by positivity)]; nlinarith
  have hW : cos (2 * (l * (π / n))) * cos ((2 * k - 1) * (π / n)) + sin (2 * (l * (π / n))) * sin ((2 * k - 1) * (π / n)) ≤ cos (π / n) := by
    rw [← Real.cos_sub]
    have := cos_odd_le (show 0 < n by omega) (l - k + 1)
    rw [show 2 * ((l : ℝ) * (π / n)) - (2 * k - 1) * (π / n) = (2 * ((l - k + 1 : ℤ) : ℝ) - 1) * (π / n) by push_cast; ring]
    exact this
  have hch := chord_cross (a * (π / (2 * p : ℕ))) (π / (2 * p : ℕ)) (((t - a : ℤ) : ℝ) * (π / (2 * p : ℕ)))
  have h0 := sin_mul_sin_nonneg (show 0 < 2 * p by omega) (t - a)
  have hu : 0 ≤ sin (π / (2 * p : ℕ)) := by
    apply Real.sin_nonneg_of_nonneg_of_le_pi (by positivity)
    apply div_le_self hpi.le
    push_cast
    have : (1 : ℝ) ≤ p := by exact_mod_cast hp
    linarith
  rw [show (((t - a : ℤ) : ℝ)) * (π / (2 * p : ℕ)) - π / (2 * p : ℕ) = (((t - a : ℤ) : ℝ) - 1) * (π / (2 * p : ℕ)) by ring,
    show 2 * (a * (π / (2 * p : ℕ))) + 2 * (π / (2 * p : ℕ)) = (a + 1) * (π / p) by push_cast; field_simp,
    show 2 * (a * (π / (2 * p : ℕ))) + 2 * (((t - a : ℤ) : ℝ) * (π / (2 * p : ℕ))) = t * (π / p) by push_cast; field_simp; ring,
    show 2 * (a * (π / (2 * p : ℕ))) = a * (π / p) by push_cast; field_simp] at hch
  have hch' : (cos (a * (π / p)) - cos ((a + 1) * (π / p))) * (sin (t * (π / p)) - sin (a * (π / p))) +
      (sin ((a + 1) * (π / p)) - sin (a * (π / p))) * (cos (t * (π / p)) - cos (a * (π / p))) ≤ 0 := by
    nlinarith [mul_nonneg hu h0]
  unfold sphGap
  rw [one_mul, one_mul]
  have h1 := mul_le_mul_of_nonneg_left hW (mul_nonneg hcab hst)
  have h2 := mul_le_mul_of_nonneg_left hch' hce
  nlinarith

theorem sphGap_center {p n : ℕ} (hp : 2 ≤ p) (hn : 3 ≤ n) (a k t l : ℤ) : sphGap p n a k t l 0 < 0 := by
  have hpi := Real.pi_pos
  have hce : 0 < cos (π / n) := by
    have h3 : (3 : ℝ) ≤ n := by exact_mod_cast hn
    apply Real.cos_pos_of_mem_Ioo
    constructor
    · have : 0 ≤ π / n := by positivity
      linarith
    · rw [div_lt_div_iff₀ (by positivity) (by positivity)]; nlinarith
  have hsd : 0 < sin (π / p) := by
    have h2 : (2 : ℝ) ≤ p := by exact_mod_cast hp
    apply Real.sin_pos_of_pos_of_lt_pi (by positivity)
    rw [div_lt_iff₀ (by positivity)]; nlinarith
  have e : sphGap p n a k t l 0 = -(cos (π / n) * sin (π / p)) := by
    have : π / p = (a + 1) * (π / p) - a * (π / p) := by ring
    rw [show sin (π / p) = sin ((a + 1) * (π / p) - a * (π / p)) from congrArg sin this, Real.sin_sub]
    unfold sphGap
    ring
  rw [e]
  have := mul_pos hce hsd
  linarith

/-- The vertices are points of the grid. -/
theorem sphPt_grid (r : ℝ) {p : ℕ} (hp : 0 < p) (n : ℕ) {v : SphV} (hv : SphOk p n v) :
    ∃ t l : ℤ, 0 ≤ t ∧ t ≤ p ∧ sphPt r p n v = sp r p n t l := by
  cases v with
  | top => exact ⟨0, 0, le_rfl, by omega, sphPt_top r p n 0⟩
  | bot => exact ⟨p, 0, by omega, le_rfl, sphPt_bot r hp n 0⟩
  | g i j => exact ⟨i + 1, j, by omega, by have := hv.1; omega, sphPt_g r p n i j⟩

/-- The triangles have the right sides, in whatever order the corners are given. -/
def Good (r : ℝ) (p n : ℕ) (t : Vec ℝ 3 × Vec ℝ 3 × Vec ℝ 3) : Prop :=
  side t 0 < 0 ∧ ∀ v, SphOk p n v → side t (sphPt r p n v) ≤ 0

theorem side_rot (p q r v : Vec ℝ 3) : side (q, r, p) v = side (p, q, r) v := by
  rw [side_eq, side_eq]; ring

theorem Good.rot {r : ℝ} {p n : ℕ} {x y z : Vec ℝ 3} (h : Good r p n (x, y, z)) : Good r p n (y, z, x) := by
  refine ⟨by rw [side_rot]; exact h.1, fun v hv => by rw [side_rot]; exact h.2 v hv⟩

theorem good_of {r : ℝ} (hr : 0 < r) {p n : ℕ} (hp : 2 ≤ p) (hn : 3 ≤ n) {a k : ℤ} (ha : 0 ≤ a) (hap : a + 1 ≤ p) {q : ℝ} (hq : 0 < q)
    {T : Vec ℝ 3 × Vec ℝ 3 × Vec ℝ 3}
    (h : ∀ t l g, side T (g • sp r p n t l) = 2 * r ^ 3 * q * sin (π / n) * sphGap p n a k t l g) : Good r p n T := by
  have hs : 0 < sin (π / n) := by
    have h3 : (3 : ℝ) ≤ n := by exact_mod_cast hn
    have hpi := Real.pi_pos
    apply Real.sin_pos_of_pos_of_lt_pi (by positivity)
    rw [div_lt_iff₀ (by positivity)]; nlinarith
  have hf : 0 < 2 * r ^ 3 * q * sin (π / n) := by positivity
  constructor
  · have := h 0 0 0
    rw [zero_smul] at this
    rw [this]
    have := sphGap_center hp hn a k 0 0
    nlinarith
  · intro v hv
    obtain ⟨t, l, ht, htp, e⟩ := sphPt_grid r (show 0 < p by omega) n hv
    have := h t l 1
    rw [one_smul] at this
    rw [e, this]
    have := sphGap_nonpos (show 0 < p by omega) hn ha hap k ht htp l
    nlinarith

theorem row_pos {p : ℕ} {a : ℤ} (h0 : 0 < a) (h1 : a < p) : 0 < sin (a * (π / p)) := by
  have hp : (0 : ℝ) < p := by
    have : (0 : ℤ) < p := by omega
    exact_mod_cast this
  have hpi := Real.pi_pos
  have ha : (0 : ℝ) < a := by exact_mod_cast h0
  have ha1 : (a : ℝ) < p := by exact_mod_cast h1
  apply Real.sin_pos_of_pos_of_lt_pi (by positivity)
  calc (a : ℝ) * (π / p) < p * (π / p) := mul_lt_mul_of_pos_right ha1 (by positivity)
    _ = π := by field_simp

theorem sphTriU_good {r : ℝ} (hr : 0 < r) {p n : ℕ} (hp : 2 ≤ p) (hn : 3 ≤ n) {x : Fin 4 × ℕ × ℕ} (hx : x ∈ sphIds p n) :
    Good r p n (mapTriangle (sphPt r p n) (reversed (sphTriU p n x))) := by
  obtain ⟨b, i, j⟩ := x
  obtain ⟨hj, hx⟩ := (sphIds_mem (by omega)).1 hx
  dsimp only at hj hx
  fin_cases b
  · show Good r p n (sphPt r p n (.g 0 (pv n j)), sphPt r p n (.g 0 j), sphPt r p n .top)
    apply Good.rot
    apply good_of hr hp hn (a := 0) (k := j) le_rfl (by omega) (q := sin ((0 + 1 : ℝ) * (π / p)))
      (by have := row_pos (p := p) (a := 1) (by omega) (by omega); simpa using this)
    intro t l g
    have := side_quad_b r p n 0 j t l g
    rw [sphPt_pv r p 0 hj, sphPt_g, sphPt_top r p n j, side_rot]
    push_cast at this ⊢
    rw [← this, side_rot]
  · show Good r p n (sphPt r p n (.g (p - 2) (pv n j)), sphPt r p n .bot, sphPt r p n (.g (p - 2) j))
    apply good_of hr hp hn (a := p - 1) (k := j) (by omega) (by omega) (q := sin (((p - 1 : ℤ) : ℝ) * (π / p)))
      (row_pos (by omega) (by omega))
    intro t l g
    have := side_quad_a r p n (p - 1) j t l g
    rw [← this, sphPt_pv r p _ hj, sphPt_g, sphPt_bot r (by omega) n (j - 1)]
    have e : ((p - 2 : ℕ) : ℤ) + 1 = p - 1 := by omega
    have e' : (p : ℤ) - 1 + 1 = p := by omega
    rw [e, e']
  · have hx : 1 ≤ i ∧ i ≤ p - 2 := by simpa using hx
    show Good r p n (sphPt r p n (.g (i - 1) (pv n j)), sphPt r p n (.g i (pv n j)), sphPt r p n (.g (i - 1) j))
    apply good_of hr hp hn (a := i) (k := j) (by omega) (by omega) (q := sin ((i : ℤ) * (π / p))) (row_pos (by omega) (by omega))
    intro t l g
    rw [← side_quad_a r p n i j t l g, sphPt_pv r p _ hj, sphPt_pv r p _ hj, sphPt_g]
    have e : ((i - 1 : ℕ) : ℤ) + 1 = i := by omega
    rw [e]
  · have hx : 1 ≤ i ∧ i ≤ p - 2 := by simpa using hx
    show Good r p n (sphPt r p n (.g i j), sphPt r p n (.g (i - 1) j), sphPt r p n (.g i (pv n j)))
    apply good_of hr hp hn (a := i) (k := j) (by omega) (by omega) (q := sin (((i : ℤ) + 1) * (π / p)))
      (by have := row_pos (p := p) (a := i + 1) (by omega) (by omega); push_cast at this ⊢; exact this)
    intro t l g
    rw [← side_quad_b r p n i j t l g, sphPt_pv r p _ hj, sphPt_g, sphPt_g]
    have e : ((i - 1 : ℕ) : ℤ) + 1 = i := by omega
    rw [e]

theorem sphTriV_good {r : ℝ} (hr : 0 < r) {p n : ℕ} (hp : 2 ≤ p) (hn : 3 ≤ n) {x : Fin 4 × ℕ × ℕ} (hx : x ∈ sphIds p n) :
    Good r p n (mapTriangle (sphPt r p n) (reversed (sphTriV p n x))) := by
  have h := sphTriU_good hr hp hn hx
  obtain ⟨b, i, j⟩ := x
  by_cases hj : j = 0
  · subst hj
    fin_cases b
    · exact h.rot
    · exact h
    · exact h.rot.rot
    · exact h.rot
  · have e : pv n j = j - 1 := by rcases pv_spec n j with h | h <;> omega
    unfold sphTriU at h
    dsimp only at h
    rw [e] at h
    unfold sphTriV
    dsimp only
    rw [if_neg hj]
    exact h

theorem sphVerts_getD (f : SphV → Vec ℝ 3) {p n : ℕ} {v : SphV} (hv : SphOk p n v) : ((sphVerts p n).map f).getD (sphNum p n v) 0 = f v := by
  rw [List.getD_eq_getElem?_getD, List.getElem?_map, sphVerts_getElem? hv]
  rfl

/-! ### The theorems -/
section
variable [BEq (HMat ℝ)] [LawfulBEq (HMat ℝ)] [BEq (Vec ℝ 3)] [LawfulBEq (Vec ℝ 3)]

theorem sphere_build_inner (dbg : Bool) (M w : Nat) (b : SphereBuilder ℝ) (hp : 2 ≤ b.polarCount) (hn : 3 ≤ b.azimuthCount)
    (hM : 6 * b.azimuthCount * (b.polarCount - 1) < M) {m : HalfedgeMesh (Vec ℝ 3)} {b' : SphereBuilder ℝ}
    (hm : b.build dbg M w = .ok (m, b')) :
    buildTriangleHalfedgeMesh dbg M w hmatIdentity
      (calcSpherePoints b.theSphere b.polarCount b.azimuthCount) (sphIdx b.polarCount b.azimuthCount) = .ok m := by
  have hM' : (b.polarCount - 1) * b.azimuthCount + 2 < M := by
    have : 1 ≤ (b.polarCount - 1) * b.azimuthCount := Nat.mul_pos (by omega) (by omega)
    nlinarith
  rw [sphereBuild_eq dbg M w b hp (by omega) hM'] at hm
  have hm : buildTriangleHalfedgeMesh dbg M w hmatIdentity
      (calcSpherePoints b.theSphere b.polarCount b.azimuthCount) (sphIdx b.polarCount b.azimuthCount) = .ok m := by
    cases h : buildTriangleHalfedgeMesh dbg M w hmatIdentity
      (calcSpherePoints b.theSphere b.polarCount b.azimuthCount) (sphIdx b.polarCount b.azimuthCount) with
    | ok x =>
      rw [h] at hm
      have := Except.ok.inj hm
      rw [(Prod.mk.inj this).1]
    | error e => rw [h] at hm; exact nomatch (show (Except.error e : Res _) = .ok (m, b') from hm)
  exact hm

/-- **C81** (spheres) For all counts and all spheres with a positive radius every facet has the centre strictly behind it and no vertex in
front of it. -/
theorem C81_sphere (dbg : Bool) (M w : Nat) (b : SphereBuilder ℝ) (hp : 2 ≤ b.polarCount) (hn : 3 ≤ b.azimuthCount)
    (hM : 6 * b.azimuthCount * (b.polarCount - 1) < M) (hr : 0 < b.theSphere.radius) :
    ∃ m b', b.build dbg M w = .ok (m, b') ∧ OutwardMesh m b.theSphere.origin := by
  obtain ⟨m, b', hm⟩ := C58_in_range dbg M w b hp (by omega) hM
  refine ⟨m, b', hm, ?_⟩
  have hm := sphere_build_inner dbg M w b hp hn hM hm
  have ho := outward_build dbg M w hmatIdentity 1 0 (by simp) (fun p => by rw [C62_identity]; simp [affine])
    (calcSpherePoints b.theSphere b.polarCount b.azimuthCount) (sphIdx b.polarCount b.azimuthCount)
    (by rw [sphIdx_length hp (by omega)]; exact hM) m hm b.theSphere.origin (by
      intro t ht
      rw [sphIdx_triples, List.mem_map] at ht
      obtain ⟨x, hx, rfl⟩ := ht
      obtain ⟨o1, o2, o3⟩ := sphTriU_ok hp hx (by omega)
      obtain ⟨g1, g2⟩ := sphTriV_good hr hp hn hx
      rw [calcSpherePoints_eq]
      have e : mapTriangle (fun i => ((sphVerts b.polarCount b.azimuthCount).map fun v =>
          sphPt b.theSphere.radius b.polarCount b.azimuthCount v + b.theSphere.origin).getD i 0)
          (reversed (sphTri b.polarCount b.azimuthCount x)) =
          (sphPt b.theSphere.radius b.polarCount b.azimuthCount (sphTriV b.polarCount b.azimuthCount x).2.2 + b.theSphere.origin,
           sphPt b.theSphere.radius b.polarCount b.azimuthCount (sphTriV b.polarCount b.azimuthCount x).2.1 + b.theSphere.origin,
           sphPt b.theSphere.radius b.polarCount b.azimuthCount (sphTriV b.polarCount b.azimuthCount x).1 + b.theSphere.origin) := by
        simp only [mapTriangle, reversed, sphTri, sphVerts_getD _ o1, sphVerts_getD _ o2, sphVerts_getD _ o3]
      rw [e]
      constructor
      · have := side_add (sphPt b.theSphere.radius b.polarCount b.azimuthCount (sphTriV b.polarCount b.azimuthCount x).2.2)
          (sphPt b.theSphere.radius b.polarCount b.azimuthCount (sphTriV b.polarCount b.azimuthCount x).2.1)
          (sphPt b.theSphere.radius b.polarCount b.azimuthCount (sphTriV b.polarCount b.azimuthCount x).1) 0 b.theSphere.origin
        rw [zero_add] at this
        rw [this]; exact g1
      · intro p hp
        obtain ⟨v, hv, rfl⟩ := List.mem_map.1 hp
        rw [side_add]
        exact g2 v (sphVerts_ok hv))
  have : affine 1 0 b.theSphere.origin = b.theSphere.origin := by simp [affine]
  rw [this] at ho
  exact ho

/-- **C81** (cones) The point halfway between base and apex is strictly behind every facet, and no vertex is in front of one. -/
theorem C81_cone [Tol ℝ] [LawfulTol ℝ] (dbg : Bool) (M w : Nat) (rotAlign : Vec ℝ 4 → Vec ℝ 4 → HMat ℝ) (cone : Cone ℝ) (n : Nat)
    (hn : 3 ≤ n) (hM : 6 * n + 1 < M) (hr : cone.radius ≠ 0) (hseg : cone.segment.source ≠ cone.segment.target)
    (hz : dbg = true → isZero cone.segment.length = false)
    (hrot : RotatesZTo (rotAlign (hvec4 0 0 1 1) (toHvec cone.segment.direction)) cone.segment.direction) :
    ∃ m, coneBuild dbg M w rotAlign (some cone) n = .ok (some m) ∧
      OutwardMesh m (fun i => (cone.segment.source i + cone.segment.target i) / 2) := by
  obtain ⟨A, hA, hdet, hz', htr⟩ := placed hrot
  obtain ⟨m, hm⟩ := C56_in_range dbg M w rotAlign cone n hM hseg hz
  refine ⟨m, hm, ?_⟩
  rw [coneBuild_eq dbg M w rotAlign cone n (by omega) hseg hz] at hm
  have hm := of_map_some hm
  have ho := outward_build dbg M w _ A cone.segment.source hdet htr _ _ (by rw [coneIdx_length]; omega) m hm _
    (cone_outward hr (segment_length_pos hseg) hn)
  convert ho using 1
  have e : (vec3 0 0 (cone.segment.length / 2) : Vec ℝ 3) = (1 / 2 : ℝ) • cone.segment.length • ![0, 0, 1] := by
    funext j; fin_cases j <;> simp [vec3]; ring
  have ht := segment_target hseg
  rw [affine, e, Matrix.mulVec_smul, Matrix.mulVec_smul, hz']
  funext i
  have := congrFun ht i
  simp only [Pi.add_apply, Pi.smul_apply, smul_eq_mul] at this ⊢
  rw [← this]; ring

/-- **C81** (cylinders) The middle of the axis is strictly behind every facet, and no vertex is in front of one. -/
theorem C81_cylinder (dbg : Bool) (M w : Nat) (rotAlign : Vec ℝ 4 → Vec ℝ 4 → HMat ℝ) (cyl : Cylinder ℝ) (n : Nat)
    (hn : 3 ≤ n) (hM : 12 * n < M) (hr : cyl.radius ≠ 0) (hseg : cyl.segment.source ≠ cyl.segment.target)
    (hrot : RotatesZTo (rotAlign (hvec4 0 0 1 1) (toHvec cyl.segment.direction)) cyl.segment.direction) :
    ∃ m, cylinderBuild dbg M w rotAlign (some cyl) n = .ok (some m) ∧
      OutwardMesh m (fun i => (cyl.segment.source i + cyl.segment.target i) / 2) := by
  obtain ⟨A, hA, hdet, hz', htr⟩ := placed hrot
  obtain ⟨m, hm⟩ := C57_in_range_partial dbg M w rotAlign cyl n (by omega) hM
  refine ⟨m, hm, ?_⟩
  rw [cylinderBuild_eq dbg M w rotAlign cyl n (by omega) (by omega)] at hm
  have hm := of_map_some hm
  have ho := outward_build dbg M w _ A cyl.segment.source hdet htr _ _ (by rw [cylIdx_length]; omega) m hm _
    (cyl_outward hr (segment_length_pos hseg) hn)
  convert ho using 1
  have e : (vec3 0 0 (cyl.segment.length / 2) : Vec ℝ 3) = (1 / 2 : ℝ) • cyl.segment.length • ![0, 0, 1] := by
    funext j; fin_cases j <;> simp [vec3]; ring
  have ht := segment_target hseg
  rw [affine, e, Matrix.mulVec_smul, Matrix.mulVec_smul, hz']
  funext i
  have := congrFun ht i
  simp only [Pi.add_apply, Pi.smul_apply, smul_eq_mul] at this ⊢
  rw [← this]; ring

/-! ### Cuboids -/

/-- A corner of the unit cube. -/
def unitCorner (a : Fin 3 → Bool) : Vec ℝ 3 := fun i => if a i then 1 else 0

theorem corner_affine (o : Vec ℝ 3) (s : Fin 3 → Vec ℝ 3) (a : Fin 3 → Bool) :
    corner o s a = affine (Matrix.of s)ᵀ o (unitCorner a) := by
  funext k
  simp [corner, affine, unitCorner, mulVec, dotProduct, Fin.sum_univ_three]
  split <;> split <;> split <;> ring

theorem unitCube : ∀ t ∈ cubeTris, side (mapTriangle unitCorner t) (fun _ => 1 / 2) < 0 ∧
    ∀ a, side (mapTriangle unitCorner t) (unitCorner a) ≤ 0 := by
  intro t ht
  simp only [cubeTris, List.mem_cons, List.not_mem_nil, or_false] at ht
  have c0 : ∀ a b c : Bool, (![a, b, c] : Fin 3 → Bool) 0 = a := fun _ _ _ => rfl
  have c1 : ∀ a b c : Bool, (![a, b, c] : Fin 3 → Bool) 1 = b := fun _ _ _ => rfl
  have c2 : ∀ a b c : Bool, (![a, b, c] : Fin 3 → Bool) 2 = c := fun _ _ _ => rfl
  rcases ht with rfl | rfl | rfl | rfl | rfl | rfl | rfl | rfl | rfl | rfl | rfl | rfl <;>
  · constructor
    · rw [mapTriangle, side_eq]
      simp only [unitCorner, c0, c1, c2]
      norm_num
    · intro a
      rw [mapTriangle, side_eq]
      simp only [unitCorner, c0, c1, c2]
      cases a 0 <;> cases a 1 <;> cases a 2 <;> norm_num

/-- The centre of a cuboid. -/
noncomputable def cuboidCenter (c : Cuboid ℝ) : Vec ℝ 3 := fun i => c.origin i + (c.sides 0 i + c.sides 1 i + c.sides 2 i) / 2

theorem cuboidCenter_affine (c : Cuboid ℝ) : cuboidCenter c = affine (Matrix.of c.sides)ᵀ c.origin (fun _ => 1 / 2) := by
  funext k
  simp [cuboidCenter, affine, mulVec, dotProduct, Fin.sum_univ_three]
  ring

theorem cuboid_sides (dbg : Bool) (M w : Nat) (b : CuboidBuilder ℝ) (hM : 36 < M) (m : HalfedgeMesh (Vec ℝ 3)) (b' : CuboidBuilder ℝ)
    (hm : b.build dbg M w = .ok (m, b')) :
    ∀ f ∈ m.facets, ∃ h0 h1 h2 p q r, calcHalfedges m f = .ok [h0, h1, h2] ∧ m.heVector h0 = .ok p ∧ m.heVector h1 = .ok q ∧
      m.heVector h2 = .ok r ∧ (∃ x < 0, side (p, q, r) (cuboidCenter b.theCuboid) = det (Matrix.of b.theCuboid.sides) * x) ∧
      ∀ v ∈ m.points, ∃ x ≤ 0, side (p, q, r) v = det (Matrix.of b.theCuboid.sides) * x := by
  have hM' : 3 * (cuboidTriangles b.theCuboid).length < M := by rw [cuboidTriangles_length]; omega
  obtain ⟨m', hm', hb, _, _, _, he⟩ := cuboid_build dbg M w b hM
  have : m' = m := by
    rw [hm] at he
    split at he
    · exact nomatch he
    · exact (Prod.mk.inj (Except.ok.inj he)).1.symm
  subst this
  intro f hf
  obtain ⟨t, ht, h0, h1, h2, e, e0, e1, e2⟩ := facet_corners dbg M _ hM' m' hb f hf
  refine ⟨h0, h1, h2, t.1, t.2.1, t.2.2, e, e0, e1, e2, ?_⟩
  rw [cuboidTriangles_eq, List.mem_map] at ht
  obtain ⟨x, hx, rfl⟩ := ht
  obtain ⟨u1, u2⟩ := unitCube x hx
  have et : mapTriangle (corner b.theCuboid.origin b.theCuboid.sides) x =
      mapTriangle (affine (Matrix.of b.theCuboid.sides)ᵀ b.theCuboid.origin) (mapTriangle unitCorner x) := by
    simp only [mapTriangle, corner_affine]
  constructor
  · refine ⟨_, u1, ?_⟩
    rw [eta3, et, cuboidCenter_affine, side_affine, det_transpose]
  · intro v hv
    rw [(C43_vertices dbg M _ hM' m' hb).1, List.mem_eraseDups, cuboidTriangles_eq, corners_map, List.mem_map] at hv
    obtain ⟨a, _, rfl⟩ := hv
    refine ⟨_, u2 a, ?_⟩
    rw [eta3, et, corner_affine, side_affine, det_transpose]

/-- **C82** A cuboid whose sides form a right-handed system gets a mesh with all facets outward. -/
theorem C82_cuboid_partial (dbg : Bool) (M w : Nat) (b : CuboidBuilder ℝ) (hM : 36 < M) (hd : 0 < det (Matrix.of b.theCuboid.sides)) :
    ∃ m b', b.build dbg M w = .ok (m, b') ∧ OutwardMesh m (cuboidCenter b.theCuboid) := by
  have hi : LinearIndependent ℝ b.theCuboid.sides := by
    have := Matrix.linearIndependent_rows_of_det_ne_zero hd.ne'
    exact this
  obtain ⟨m, b', hm, _⟩ := C59_cuboid dbg M w b hM hi
  refine ⟨m, b', hm, ?_⟩
  intro f hf
  obtain ⟨h0, h1, h2, p, q, r, e, e0, e1, e2, ⟨x, hx, h3⟩, h4⟩ := cuboid_sides dbg M w b hM m b' hm f hf
  refine ⟨h0, h1, h2, p, q, r, e, e0, e1, e2, by rw [h3]; nlinarith, ?_⟩
  intro v hv
  obtain ⟨x, hx, h5⟩ := h4 v hv
  rw [h5]; nlinarith

/-- **C82** False for left-handed sides, for example a diagonal with one negative component: the builder accepts the cuboid and makes a
mesh all of whose facets face inward. -/
theorem C82_cuboid_counterexample (dbg : Bool) (M w : Nat) (b : CuboidBuilder ℝ) (hM : 36 < M) (hd : det (Matrix.of b.theCuboid.sides) < 0) :
    ∃ m b', b.build dbg M w = .ok (m, b') ∧ m.facets.length = 12 ∧
      ∀ f ∈ m.facets, ∃ h0 h1 h2 p q r, calcHalfedges m f = .ok [h0, h1, h2] ∧ m.heVector h0 = .ok p ∧ m.heVector h1 = .ok q ∧
        m.heVector h2 = .ok r ∧ 0 < side (p, q, r) (cuboidCenter b.theCuboid) := by
  have hi : LinearIndependent ℝ b.theCuboid.sides := by
    have := Matrix.linearIndependent_rows_of_det_ne_zero hd.ne
    exact this
  obtain ⟨m, b', hm, _, _, _, hfl, _⟩ := C59_cuboid dbg M w b hM hi
  refine ⟨m, b', hm, hfl, ?_⟩
  intro f hf
  obtain ⟨h0, h1, h2, p, q, r, e, e0, e1, e2, ⟨x, hx, h3⟩, h4⟩ := cuboid_sides dbg M w b hM m b' hm f hf
  exact ⟨h0, h1, h2, p, q, r, e, e0, e1, e2, by rw [h3]; nlinarith⟩
end

section Examples
attribute [local instance] realTol realTol_lawful
open Classical

example : ∃ m b', exSphere.build true 65536 16 = .ok (m, b') ∧ OutwardMesh m exSphere.theSphere.origin :=
  C81_sphere true 65536 16 exSphere (by decide) (by decide) (by decide) (by simp [exSphere, SphereBuilder.theSphere])

example : ∃ m, coneBuild true 256 8 rotAlignZ (some ⟨exSeg, 2⟩) 5 = .ok (some m) ∧
    OutwardMesh m (fun i => (exSeg.source i + exSeg.target i) / 2) :=
  C81_cone true 256 8 rotAlignZ ⟨exSeg, 2⟩ 5 (by decide) (by decide) (by norm_num) exSeg_ne (fun _ => exSeg_nonzero) (exSeg_rot _)

example : ∃ m, cylinderBuild true 256 8 rotAlignZ (some ⟨exSeg, 2⟩) 5 = .ok (some m) ∧
    OutwardMesh m (fun i => (exSeg.source i + exSeg.target i) / 2) :=
  C81_cylinder true 256 8 rotAlignZ ⟨exSeg, 2⟩ 5 (by decide) (by decide) (by norm_num) exSeg_ne (exSeg_rot _)

/-- A cuboid with three positive sides. -/
def exBoxR : CuboidBuilder ℝ := { origin := vec3 1 2 3, diagonal := vec3 2 1 4 }

theorem exBoxR_det : 0 < det (Matrix.of exBoxR.theCuboid.sides) := by
  have h := (C68_diagonal (vec3 1 2 3 : Vec ℝ 3) (vec3 2 1 4)).2.1
  rw [det_fin_three]
  simp only [Matrix.of_apply, show exBoxR.theCuboid = Cuboid.ofDiagonal (vec3 1 2 3) (vec3 2 1 4) from rfl, h]
  simp [vec3]

theorem exBox_det : det (Matrix.of exBox.theCuboid.sides) < 0 := by
  have h := (C68_diagonal (vec3 1 2 3 : Vec ℝ 3) (vec3 2 (-1) 4)).2.1
  rw [det_fin_three]
  simp only [Matrix.of_apply, show exBox.theCuboid = Cuboid.ofDiagonal (vec3 1 2 3) (vec3 2 (-1) 4) from rfl, h]
  simp [vec3]

example : ∃ m b', exBoxR.build true 65536 16 = .ok (m, b') ∧ OutwardMesh m (cuboidCenter exBoxR.theCuboid) :=
  C82_cuboid_partial true 65536 16 exBoxR (by decide) exBoxR_det

example : ∃ m b', exBox.build true 65536 16 = .ok (m, b') ∧ m.facets.length = 12 ∧
    ∀ f ∈ m.facets, ∃ h0 h1 h2 p q r, calcHalfedges m f = .ok [h0, h1, h2] ∧ m.heVector h0 = .ok p ∧ m.heVector h1 = .ok q ∧
      m.heVector h2 = .ok r ∧ 0 < side (p, q, r) (cuboidCenter exBox.theCuboid) :=
  C82_cuboid_counterexample true 65536 16 exBox (by decide) exBox_det
end Examples
end Verif
