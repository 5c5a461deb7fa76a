import Verif.Proofs.Inscribed
import Verif.Props.Volume

set_option linter.unusedSectionVars false

/-
C88: the surfaces of the built meshes compared with the bodies they approximate.
-/
namespace Verif
open Spec Matrix Real

/-! ### Spheres -/

/-- The normal of the plane through the grid points in the rows `a`, `a + 1` and the columns `k - 1`, `k`. -/
noncomputable def quadNormal (p n : ℕ) (a k : ℤ) : Vec ℝ 3 :=
  vec3 (sin ((2 * a + 1) * (π / (2 * p))) * cos ((2 * k - 1) * (π / n))) (sin ((2 * a + 1) * (π / (2 * p))) * sin ((2 * k - 1) * (π / n)))
    (cos ((2 * a + 1) * (π / (2 * p))) * cos (π / n))

theorem quadNormal_le (p n : ℕ) (a k : ℤ) : quadNormal p n a k ⬝ᵥ quadNormal p n a k ≤ 1 ^ 2 := by
  have h1 := Real.sin_sq_add_cos_sq ((2 * a + 1) * (π / (2 * p)))
  have h2 := Real.sin_sq_add_cos_sq ((2 * k - 1) * (π / n))
  have h3 := Real.cos_sq_le_one (π / n)
  have e : quadNormal p n a k ⬝ᵥ quadNormal p n a k = sin ((2 * a + 1) * (π / (2 * p))) ^ 2 *
      (sin ((2 * k - 1) * (π / n)) ^ 2 + cos ((2 * k - 1) * (π / n)) ^ 2) + cos ((2 * a + 1) * (π / (2 * p))) ^ 2 * cos (π / n) ^ 2 := by
    simp only [quadNormal, dotProduct, Fin.sum_univ_three, vec3_0, vec3_1, vec3_2]; ring
  rw [e, h2]
  nlinarith [mul_le_mul_of_nonneg_left h3 (sq_nonneg (cos ((2 * a + 1) * (π / (2 * p)))))]

/-- The inner radius of the shell around the mesh. -/
noncomputable def innerRadius (r : ℝ) (p n : ℕ) : ℝ := r * cos (π / n) * cos (π / (2 * p))

theorem row_low {p : ℕ} (hp : 0 < p) (a : ℤ) : (a : ℝ) * (π / p) = (2 * a + 1) * (π / (2 * p)) - π / (2 * p) := by
  have hp' : (p : ℝ) ≠ 0 := by exact_mod_cast hp.ne'
  field_simp; ring
theorem row_high {p : ℕ} (hp : 0 < p) (a : ℤ) : ((a : ℝ) + 1) * (π / p) = (2 * a + 1) * (π / (2 * p)) + π / (2 * p) := by
  have hp' : (p : ℝ) ≠ 0 := by exact_mod_cast hp.ne'
  field_simp; ring

theorem plane_quad_a {p : ℕ} (hp : 0 < p) (r : ℝ) (n : ℕ) (a k : ℤ) (v : Vec ℝ 3) :
    side (sp r p n a (k - 1), sp r p n (a + 1) (k - 1), sp r p n a k) v =
      4 * r ^ 2 * sin (a * (π / p)) * sin (π / n) * sin (π / (2 * p)) * (quadNormal p n a k ⬝ᵥ v - innerRadius r p n) := by
  have hQ := Real.sin_sq_add_cos_sq ((2 * k - 1) * (π / n))
  have hR := Real.sin_sq_add_cos_sq ((2 * a + 1) * (π / (2 * p)))
  rw [side_eq]
  unfold quadNormal innerRadius
  simp only [sp, vec3_0, vec3_1, vec3_2, dotProduct, Fin.sum_univ_three]
  rw [cos_prev, sin_prev, cos_this n k, sin_this n k]
  push_cast
  rw [row_high hp, row_low hp, Real.sin_add, Real.sin_sub, Real.cos_add, Real.cos_sub]
  generalize sin ((2 * k - 1) * (π / n)) = S at *
  generalize cos ((2 * k - 1) * (π / n)) = C at *
  generalize sin (π / n) = se at *
  generalize cos (π / n) = ce at *
  generalize sin ((2 * a + 1) * (π / (2 * p))) = sm at *
  generalize cos ((2 * a + 1) * (π / (2 * p))) = cm at *
  generalize sin (π / (2 * p)) = sd at *
  generalize cos (π / (2 * p)) = cd at *
  linear_combination 2 * r ^ 2 * (sm * cd - cm * sd) * se * (2 * cm * sd * ce * (v 2 - r * (cm * cd + sm * sd)) - 2 * sm * sd * r * (sm * cd - cm * sd) * ce) * hQ -
    4 * r ^ 3 * (sm * cd - cm * sd) * se * sd * ce * cd * hR

theorem plane_quad_b {p : ℕ} (hp : 0 < p) (r : ℝ) (n : ℕ) (a k : ℤ) (v : Vec ℝ 3) :
    side (sp r p n (a + 1) k, sp r p n a k, sp r p n (a + 1) (k - 1)) v =
      4 * r ^ 2 * sin ((a + 1) * (π / p)) * sin (π / n) * sin (π / (2 * p)) * (quadNormal p n a k ⬝ᵥ v - innerRadius r p n) := by
  have hQ := Real.sin_sq_add_cos_sq ((2 * k - 1) * (π / n))
  have hR := Real.sin_sq_add_cos_sq ((2 * a + 1) * (π / (2 * p)))
  rw [side_eq]
  unfold quadNormal innerRadius
  simp only [sp, vec3_0, vec3_1, vec3_2, dotProduct, Fin.sum_univ_three]
  rw [cos_prev, sin_prev, cos_this n k, sin_this n k]
  push_cast
  rw [row_high hp, row_low hp, Real.sin_add, Real.sin_sub, Real.cos_add, Real.cos_sub]
  generalize sin ((2 * k - 1) * (π / n)) = S at *
  generalize cos ((2 * k - 1) * (π / n)) = C at *
  generalize sin (π / n) = se at *
  generalize cos (π / n) = ce at *
  generalize sin ((2 * a + 1) * (π / (2 * p))) = sm at *
  generalize cos ((2 * a + 1) * (π / (2 * p))) = cm at *
  generalize sin (π / (2 * p)) = sd at *
  generalize cos (π / (2 * p)) = cd at *
  linear_combination 2 * r ^ 2 * (sm * cd + cm * sd) * se * (2 * cm * sd * ce * (v 2 - r * (cm * cd - sm * sd)) - 2 * sm * sd * r * (sm * cd + cm * sd) * ce) * hQ -
    4 * r ^ 3 * (sm * cd + cm * sd) * se * sd * ce * cd * hR

/-- The plane of the triangle has distance at least `d` from the origin, which lies behind it. -/
def FarPlane (d : ℝ) (t : Vec ℝ 3 × Vec ℝ 3 × Vec ℝ 3) : Prop :=
  ∃ (l : Vec ℝ 3) (K : ℝ), 0 < K ∧ l ⬝ᵥ l ≤ 1 ^ 2 ∧ ∀ v, side t v = K * (l ⬝ᵥ v - d)

theorem FarPlane.rot {d : ℝ} {x y z : Vec ℝ 3} (h : FarPlane d (x, y, z)) : FarPlane d (y, z, x) := by
  obtain ⟨l, K, hK, hl, h⟩ := h
  exact ⟨l, K, hK, hl, fun v => by rw [side_rot, h]⟩

theorem far_of {r : ℝ} (hr : 0 < r) {p n : ℕ} (hp : 2 ≤ p) (hn : 3 ≤ n) {a k : ℤ} {q : ℝ} (hq : 0 < q) {T : Vec ℝ 3 × Vec ℝ 3 × Vec ℝ 3}
    (h : ∀ v, side T v = 4 * r ^ 2 * q * sin (π / n) * sin (π / (2 * p)) * (quadNormal p n a k ⬝ᵥ v - innerRadius r p n)) :
    FarPlane (innerRadius r p n) T := by
  have hpi := Real.pi_pos
  have hs : 0 < sin (π / n) := by
    have h3 : (3 : ℝ) ≤ n := by exact_mod_cast hn
    apply Real.sin_pos_of_pos_of_lt_pi (by positivity)
    rw [div_lt_iff₀ (by positivity)]; nlinarith
  have hd : 0 < sin (π / (2 * p)) := by
    have h2 : (2 : ℝ) ≤ p := by exact_mod_cast hp
    apply Real.sin_pos_of_pos_of_lt_pi (by positivity)
    rw [div_lt_iff₀ (by positivity)]; nlinarith
  exact ⟨quadNormal p n a k, _, by positivity, quadNormal_le p n a k, h⟩

theorem sphTriU_far {r : ℝ} (hr : 0 < r) {p n : ℕ} (hp : 2 ≤ p) (hn : 3 ≤ n) {x : Fin 4 × ℕ × ℕ} (hx : x ∈ sphIds p n) :
    FarPlane (innerRadius r p n) (mapTriangle (sphPt r p n) (reversed (sphTriU p n x))) := by
  have hp0 : 0 < p := by omega
  obtain ⟨b, i, j⟩ := x
  obtain ⟨hj, hx⟩ := (sphIds_mem (by omega)).1 hx
  dsimp only at hj hx
  fin_cases b
  · show FarPlane _ (sphPt r p n (.g 0 (pv n j)), sphPt r p n (.g 0 j), sphPt r p n .top)
    apply FarPlane.rot
    apply far_of hr hp hn (a := 0) (k := j) (q := sin ((0 + 1 : ℝ) * (π / p)))
      (by have := row_pos (p := p) (a := 1) (by omega) (by omega); simpa using this)
    intro v
    have := plane_quad_b hp0 r n 0 j v
    rw [sphPt_pv r p 0 hj, sphPt_g, sphPt_top r p n j, side_rot]
    push_cast at this ⊢
    rw [← this, side_rot]
  · show FarPlane _ (sphPt r p n (.g (p - 2) (pv n j)), sphPt r p n .bot, sphPt r p n (.g (p - 2) j))
    apply far_of hr hp hn (a := p - 1) (k := j) (q := sin (((p - 1 : ℤ) : ℝ) * (π / p))) (row_pos (by omega) (by omega))
    intro v
    have := plane_quad_a hp0 r n (p - 1) j v
    rw [← this, sphPt_pv r p _ hj, sphPt_g, sphPt_bot r (by omega) n (j - 1)]
    have e : ((p - 2 : ℕ) : ℤ) + 1 = p - 1 := by omega
    have e' : (p : ℤ) - 1 + 1 = p := by omega
    rw [e, e']
  · have hx : 1 ≤ i ∧ i ≤ p - 2 := by simpa using hx
    show FarPlane _ (sphPt r p n (.g (i - 1) (pv n j)), sphPt r p n (.g i (pv n j)), sphPt r p n (.g (i - 1) j))
    apply far_of hr hp hn (a := i) (k := j) (q := sin ((i : ℤ) * (π / p))) (row_pos (by omega) (by omega))
    intro v
    rw [← plane_quad_a hp0 r n i j v, sphPt_pv r p _ hj, sphPt_pv r p _ hj, sphPt_g]
    have e : ((i - 1 : ℕ) : ℤ) + 1 = i := by omega
    rw [e]
  · have hx : 1 ≤ i ∧ i ≤ p - 2 := by simpa using hx
    show FarPlane _ (sphPt r p n (.g i j), sphPt r p n (.g (i - 1) j), sphPt r p n (.g i (pv n j)))
    apply far_of hr hp hn (a := i) (k := j) (q := sin (((i : ℤ) + 1) * (π / p)))
      (by have := row_pos (p := p) (a := i + 1) (by omega) (by omega); push_cast at this ⊢; exact this)
    intro v
    rw [← plane_quad_b hp0 r n i j v, sphPt_pv r p _ hj, sphPt_g, sphPt_g]
    have e : ((i - 1 : ℕ) : ℤ) + 1 = i := by omega
    rw [e]

theorem sphTriV_far {r : ℝ} (hr : 0 < r) {p n : ℕ} (hp : 2 ≤ p) (hn : 3 ≤ n) {x : Fin 4 × ℕ × ℕ} (hx : x ∈ sphIds p n) :
    FarPlane (innerRadius r p n) (mapTriangle (sphPt r p n) (reversed (sphTriV p n x))) := by
  have h := sphTriU_far hr hp hn hx
  obtain ⟨b, i, j⟩ := x
  by_cases hj : j = 0
  · subst hj
    fin_cases b
    · exact h.rot
    · exact h
    · exact h.rot.rot
    · exact h.rot
  · have e : pv n j = j - 1 := by rcases pv_spec n j with h | h <;> omega
    unfold sphTriU at h
    dsimp only at h
    rw [e] at h
    unfold sphTriV
    dsimp only
    rw [if_neg hj]
    exact h

theorem innerRadius_pos {r : ℝ} (hr : 0 < r) {p n : ℕ} (hp : 2 ≤ p) (hn : 3 ≤ n) : 0 < innerRadius r p n := by
  have hpi := Real.pi_pos
  have h3 : (3 : ℝ) ≤ n := by exact_mod_cast hn
  have h2 : (2 : ℝ) ≤ p := by exact_mod_cast hp
  have hc : ∀ x : ℝ, 1 < x → 0 < cos (π / (2 * x)) := by
    intro x hx
    apply Real.cos_pos_of_mem_Ioo
    constructor
    · have : 0 < π / (2 * x) := by positivity
      linarith
    · rw [div_lt_div_iff₀ (by positivity) (by positivity)]; nlinarith
  have h1 := hc p (by linarith)
  have h4 := hc (n / 2) (by linarith)
  rw [show 2 * ((n : ℝ) / 2) = n by ring] at h4
  unfold innerRadius
  positivity

theorem far_length {d : ℝ} {l x : Vec ℝ 3} (hl : l ⬝ᵥ l ≤ 1 ^ 2) (h : d ≤ l ⬝ᵥ x) : d ≤ √(x ⬝ᵥ x) := by
  have h0 : 0 ≤ x ⬝ᵥ x := Finset.sum_nonneg fun i _ => mul_self_nonneg _
  have := dp_le zero_le_one (Real.sqrt_nonneg (x ⬝ᵥ x)) hl (w := x) (by rw [Real.sq_sqrt h0])
  linarith

theorem side_fst (t : Vec ℝ 3 × Vec ℝ 3 × Vec ℝ 3) : side t t.1 = 0 ∧ side t t.2.1 = 0 ∧ side t t.2.2 = 0 := by
  obtain ⟨p, q, r⟩ := t
  refine ⟨?_, ?_, ?_⟩ <;> rw [side_eq] <;> ring

/-! ### Cones and cylinders -/

theorem cone_tris (r h : ℝ) {n : ℕ} : ∀ t ∈ triples (coneIdx n), ∃ i : ℤ,
    mapTriangle (fun i => (conePoints r h n).getD i 0) (reversed t) = (rim r n 0 (i + 1), rim r n 0 i, vec3 0 0 0) ∨
    mapTriangle (fun i => (conePoints r h n).getD i 0) (reversed t) = (rim r n 0 i, rim r n 0 (i + 1), vec3 0 0 h) := by
  intro t ht
  rw [coneIdx_triples, List.mem_map] at ht
  obtain ⟨⟨b, i⟩, hi, rfl⟩ := ht
  obtain ⟨h1, h2⟩ := coneIds_mem.1 hi
  dsimp only at h1 h2
  refine ⟨(i - 1 : ℤ), ?_⟩
  cases b
  · left
    show ((conePoints r h n).getD (nxt 1 n i) 0, (conePoints r h n).getD i 0, (conePoints r h n).getD 0 0) = _
    rw [conePoints_nxt r h h1 h2, conePoints_rim r h n h1 h2]; rfl
  · right
    show ((conePoints r h n).getD i 0, (conePoints r h n).getD (nxt 1 n i) 0, (conePoints r h n).getD (n + 1) 0) = _
    rw [conePoints_nxt r h h1 h2, conePoints_rim r h n h1 h2, conePoints_apex]

theorem cyl_tris (r h : ℝ) {n : ℕ} : ∀ t ∈ triples (cylIdx n), ∃ i : ℤ,
    mapTriangle (fun i => (cylPoints r h n).getD i 0) (reversed t) = (rim r n 0 (i + 1), rim r n 0 i, vec3 0 0 0) ∨
    mapTriangle (fun i => (cylPoints r h n).getD i 0) (reversed t) = (rim r n h i, rim r n h (i + 1), vec3 0 0 h) ∨
    mapTriangle (fun i => (cylPoints r h n).getD i 0) (reversed t) = (rim r n 0 (i + 1), rim r n h i, rim r n 0 i) ∨
    mapTriangle (fun i => (cylPoints r h n).getD i 0) (reversed t) = (rim r n 0 (i + 1), rim r n h (i + 1), rim r n h i) := by
  intro t ht
  rw [cylIdx_triples, List.mem_map] at ht
  obtain ⟨⟨b, i⟩, hi, rfl⟩ := ht
  obtain ⟨h1, h2⟩ := cylIds_mem.1 hi
  dsimp only at h1 h2
  fin_cases b
  · refine ⟨(i - 1 : ℤ), .inl ?_⟩
    show ((cylPoints r h n).getD (nxt 1 n i) 0, (cylPoints r h n).getD i 0, (cylPoints r h n).getD 0 0) = _
    rw [cylPoints_nxt r h h1 h2, cylPoints_bottom r h n h1 h2]; rfl
  · refine ⟨(-i : ℤ), .inr (.inl ?_)⟩
    show ((cylPoints r h n).getD (nxt (n + 2) (2 * n + 1) (n + 1 + i)) 0, (cylPoints r h n).getD (n + 1 + i) 0,
      (cylPoints r h n).getD (n + 1) 0) = _
    rw [cylPoints_top_nxt r h h1 h2, cylPoints_top r h n h1 h2, cylPoints_center, show (-i : ℤ) + 1 = 1 - i by ring]
  · refine ⟨(i - 1 : ℤ), .inr (.inr (.inl ?_))⟩
    show ((cylPoints r h n).getD (nxt 1 n i) 0, (cylPoints r h n).getD (topOf n i) 0, (cylPoints r h n).getD i 0) = _
    rw [cylPoints_nxt r h h1 h2, cylPoints_topOf r h h1 h2, cylPoints_bottom r h n h1 h2]
  · refine ⟨(i - 1 : ℤ), .inr (.inr (.inr ?_))⟩
    show ((cylPoints r h n).getD (nxt 1 n i) 0, (cylPoints r h n).getD (topOf n (nxt 1 n i)) 0, (cylPoints r h n).getD (topOf n i) 0) = _
    rw [cylPoints_nxt r h h1 h2, cylPoints_topOf r h h1 h2, cylPoints_topOf_nxt r h h1 h2]

/-- The horizontal distance to a side of the polygon. -/
theorem rim_edge (r : ℝ) (n : ℕ) (i : ℤ) (v : Vec ℝ 3) :
    (rim r n 0 (i + 1) 0 - rim r n 0 i 0) * (v 1 - rim r n 0 i 1) - (rim r n 0 (i + 1) 1 - rim r n 0 i 1) * (v 0 - rim r n 0 i 0) =
      2 * sin (π / n) * (r ^ 2 * cos (π / n) - r * (cos ((2 * (i + 1) - 1) * (π / n)) * v 0 + sin ((2 * (i + 1) - 1) * (π / n)) * v 1)) := by
  have hQ := Real.sin_sq_add_cos_sq ((2 * ((i + 1 : ℤ) : ℝ) - 1) * (π / n))
  simp only [rim, vec3_0, vec3_1]
  have h1 := cos_prev n (i + 1)
  have h2 := sin_prev n (i + 1)
  rw [add_sub_cancel_right] at h1 h2
  rw [h1, h2, cos_this n (i + 1), sin_this n (i + 1)]
  push_cast at hQ ⊢
  generalize sin ((2 * ((i : ℝ) + 1) - 1) * (π / n)) = S at *
  generalize cos ((2 * ((i : ℝ) + 1) - 1) * (π / n)) = C at *
  linear_combination 2 * r ^ 2 * sin (π / n) * cos (π / n) * hQ

theorem rim_turn_eq (r : ℝ) (n : ℕ) (z z' : ℝ) (i : ℤ) :
    rim r n z i 0 * rim r n z' (i + 1) 1 - rim r n z i 1 * rim r n z' (i + 1) 0 = 2 * sin (π / n) * (r ^ 2 * cos (π / n)) := by
  have hQ := Real.sin_sq_add_cos_sq ((2 * ((i + 1 : ℤ) : ℝ) - 1) * (π / n))
  simp only [rim, vec3_0, vec3_1]
  have h1 := cos_prev n (i + 1)
  have h2 := sin_prev n (i + 1)
  rw [add_sub_cancel_right] at h1 h2
  rw [h1, h2, cos_this n (i + 1), sin_this n (i + 1)]
  push_cast at hQ ⊢
  generalize sin ((2 * ((i : ℝ) + 1) - 1) * (π / n)) = S at *
  generalize cos ((2 * ((i : ℝ) + 1) - 1) * (π / n)) = C at *
  linear_combination 2 * r ^ 2 * sin (π / n) * cos (π / n) * hQ

/-- A point closer to the axis than the sides of the polygon. -/
theorem inner_lt {r c x y C S : ℝ} {s : ℝ} (hs : 0 ≤ s) (hQ : S ^ 2 + C ^ 2 = 1) (hr : r ≠ 0) (hc : 0 < c)
    (h : x ^ 2 + y ^ 2 < (s * (r * c)) ^ 2) : 0 < s * (r ^ 2 * c) - r * (C * x + S * y) := by
  have h1 : (C * x + S * y) ^ 2 ≤ x ^ 2 + y ^ 2 := by
    have : x ^ 2 + y ^ 2 = (C * x + S * y) ^ 2 + (C * y - S * x) ^ 2 := by linear_combination (-(x ^ 2 + y ^ 2)) * hQ
    nlinarith [sq_nonneg (C * y - S * x)]
  have h2 : (r * (C * x + S * y)) ^ 2 < (s * (r ^ 2 * c)) ^ 2 := by
    have : 0 < r ^ 2 := by positivity
    calc (r * (C * x + S * y)) ^ 2 = r ^ 2 * (C * x + S * y) ^ 2 := by ring
      _ ≤ r ^ 2 * (x ^ 2 + y ^ 2) := by gcongr
      _ < r ^ 2 * (s * (r * c)) ^ 2 := by gcongr
      _ = _ := by ring
  have := abs_lt_of_sq_lt_sq h2 (by positivity)
  linarith [(abs_lt.1 this).2]

theorem trig_pos {n : ℕ} (hn : 3 ≤ n) : 0 < sin (π / n) ∧ 0 < cos (π / n) := by
  have hpi := Real.pi_pos
  have h3 : (3 : ℝ) ≤ n := by exact_mod_cast hn
  constructor
  · apply Real.sin_pos_of_pos_of_lt_pi (by positivity)
    rw [div_lt_iff₀ (by positivity)]; nlinarith
  · apply Real.cos_pos_of_mem_Ioo
    constructor
    · have : 0 < π / n := by positivity
      linarith
    · rw [div_lt_div_iff₀ (by positivity) (by positivity)]; nlinarith

/-- The coordinates of a point relative to the placed segment. -/
theorem place_split {A : Matrix (Fin 3) (Fin 3) ℝ} {seg : Segment ℝ 3} (hA : Orthogonal A) (hz : A *ᵥ ![0, 0, 1] = seg.direction)
    (hseg : seg.source ≠ seg.target) {x y z t : ℝ} (ht : z = t * seg.length) :
    (A *ᵥ vec3 x y 0) ⬝ᵥ (seg.target - seg.source) = 0 ∧ (A *ᵥ vec3 x y 0) ⬝ᵥ (A *ᵥ vec3 x y 0) = x ^ 2 + y ^ 2 ∧
      affine A seg.source (vec3 x y z) = seg.source + t • (seg.target - seg.source) + A *ᵥ vec3 x y 0 := by
  have hst : seg.target - seg.source = seg.length • seg.direction := by rw [← segment_target hseg, add_sub_cancel_right]
  have hdp : ∀ u v : Vec ℝ 3, (A *ᵥ u) ⬝ᵥ (A *ᵥ v) = u ⬝ᵥ v := by
    intro u v
    rw [dotProduct_mulVec, vecMul_mulVec, hA, vecMul_one]
  refine ⟨?_, ?_, ?_⟩
  · rw [hst, ← hz, dotProduct_smul, hdp]
    simp [dotProduct, Fin.sum_univ_three]
  · rw [hdp]
    simp [dotProduct, Fin.sum_univ_three]; ring
  · have : (vec3 x y z : Vec ℝ 3) = z • ![0, 0, 1] + vec3 x y 0 := by
      funext j; fin_cases j <;> simp
    rw [affine, this, mulVec_add, mulVec_smul, hz, hst, smul_smul, ← ht]
    abel

theorem unplace {A : Matrix (Fin 3) (Fin 3) ℝ} {seg : Segment ℝ 3} (hA : Orthogonal A) (hz : A *ᵥ ![0, 0, 1] = seg.direction)
    (hseg : seg.source ≠ seg.target) {t : ℝ} {w : Vec ℝ 3} (hw : w ⬝ᵥ (seg.target - seg.source) = 0) :
    ∃ x y, x ^ 2 + y ^ 2 = w ⬝ᵥ w ∧ seg.source + t • (seg.target - seg.source) + w = affine A seg.source (vec3 x y (t * seg.length)) := by
  have hst : seg.target - seg.source = seg.length • seg.direction := by rw [← segment_target hseg, add_sub_cancel_right]
  have hl := segment_length_pos hseg
  have hA' : A * Aᵀ = 1 := mul_eq_one_comm.1 hA
  set u := Aᵀ *ᵥ w with hu
  have hAu : A *ᵥ u = w := by rw [hu, mulVec_mulVec, hA', one_mulVec]
  have hu2 : u 2 = 0 := by
    rw [hst, dotProduct_smul, smul_eq_mul] at hw
    have hw := (mul_eq_zero.1 hw).resolve_left hl.ne'
    rw [← hz, dotProduct_mulVec, ← mulVec_transpose] at hw
    simpa [dotProduct, Fin.sum_univ_three] using hw
  have hu3 : u = vec3 (u 0) (u 1) 0 := by rw [← hu2, vec3_eta]
  obtain ⟨h1, h2, h3⟩ := place_split hA hz hseg (x := u 0) (y := u 1) (z := t * seg.length) (t := t) rfl
  rw [← hu3, hAu] at h2 h3
  exact ⟨u 0, u 1, h2.symm, h3.symm⟩

section
variable [BEq (HMat ℝ)] [LawfulBEq (HMat ℝ)] [BEq (Vec ℝ 3)] [LawfulBEq (Vec ℝ 3)]

/-- **C88** (spheres) Every point of every facet is within the ball and at least `r cos(π/n) cos(π/(2p))` away from the centre, and every point
closer to the centre than that lies strictly behind every facet. -/
theorem C88_sphere (dbg : Bool) (M w : Nat) (b : SphereBuilder ℝ) (hp : 2 ≤ b.polarCount) (hn : 3 ≤ b.azimuthCount)
    (hM : 6 * b.azimuthCount * (b.polarCount - 1) < M) (hr : 0 < b.theSphere.radius) :
    ∃ m b', b.build dbg M w = .ok (m, b') ∧ FacetsSatisfy m fun p q s =>
      flatTriangle p q s ⊆ shell b.theSphere.origin
        (b.theSphere.radius * cos (π / b.azimuthCount) * cos (π / (2 * b.polarCount))) b.theSphere.radius ∧
      ∀ x, Spec.dist x b.theSphere.origin < b.theSphere.radius * cos (π / b.azimuthCount) * cos (π / (2 * b.polarCount)) →
        side (p, q, s) x < 0 := by
  obtain ⟨m, b', hm⟩ := C58_in_range dbg M w b hp (by omega) hM
  refine ⟨m, b', hm, ?_⟩
  have hm := sphere_build_inner dbg M w b hp hn hM hm
  refine satisfy_build dbg M w hmatIdentity 1 0 (fun p => by rw [C62_identity]; simp [affine])
    (calcSpherePoints b.theSphere b.polarCount b.azimuthCount) (sphIdx b.polarCount b.azimuthCount)
    (by rw [sphIdx_length hp (by omega)]; exact hM) m hm _ ?_
  intro t ht y hy
  rw [sphIdx_triples, List.mem_map] at ht
  obtain ⟨x, hx, rfl⟩ := ht
  obtain ⟨o1, o2, o3⟩ := sphTriU_ok hp hx (by omega)
  obtain ⟨l, K, hK, hl, hside⟩ := sphTriV_far hr hp hn hx
  rw [calcSpherePoints_eq] at hy
  have ea : ∀ v : Vec ℝ 3, affine 1 0 v = v := by intro v; simp [affine]
  rw [ea, ea, ea]
  have e : y = (sphPt b.theSphere.radius b.polarCount b.azimuthCount (sphTriV b.polarCount b.azimuthCount x).2.2 + b.theSphere.origin,
           sphPt b.theSphere.radius b.polarCount b.azimuthCount (sphTriV b.polarCount b.azimuthCount x).2.1 + b.theSphere.origin,
           sphPt b.theSphere.radius b.polarCount b.azimuthCount (sphTriV b.polarCount b.azimuthCount x).1 + b.theSphere.origin) := by
    rw [hy]
    simp only [mapTriangle, reversed, sphTri, sphVerts_getD _ o1, sphVerts_getD _ o2, sphVerts_getD _ o3]
  subst e
  dsimp only
  set P := sphPt b.theSphere.radius b.polarCount b.azimuthCount (sphTriV b.polarCount b.azimuthCount x).2.2 with hP
  set Q := sphPt b.theSphere.radius b.polarCount b.azimuthCount (sphTriV b.polarCount b.azimuthCount x).2.1 with hQ
  set S := sphPt b.theSphere.radius b.polarCount b.azimuthCount (sphTriV b.polarCount b.azimuthCount x).1 with hS
  have hside : ∀ v, side (P, Q, S) v = K * (l ⬝ᵥ v - innerRadius b.theSphere.radius b.polarCount b.azimuthCount) := hside
  have hb : ∀ v, Spec.dist (sphPt b.theSphere.radius b.polarCount b.azimuthCount v + b.theSphere.origin) b.theSphere.origin ≤ b.theSphere.radius := by
    intro v
    rw [sdist_le hr.le, add_sub_cancel_right, sphPt_dp]
  have hfl : ∀ z, side (P, Q, S) z = 0 → l ⬝ᵥ z = innerRadius b.theSphere.radius b.polarCount b.azimuthCount := by
    intro z hz
    rw [hside] at hz
    have := (mul_eq_zero.1 hz).resolve_left hK.ne'
    linarith
  obtain ⟨s1, s2, s3⟩ := side_fst (P, Q, S)
  refine ⟨fun z hz => ⟨?_, flat_ball hr.le (hb _) (hb _) (hb _) hz⟩, fun z hz => ?_⟩
  · obtain ⟨a, b', c, _, _, _, h1, rfl⟩ := hz
    rw [sdist_sq]
    apply far_length hl
    have : a • (P + b.theSphere.origin) + b' • (Q + b.theSphere.origin) + c • (S + b.theSphere.origin) - b.theSphere.origin =
        a • P + b' • Q + c • S := by
      have e : b.theSphere.origin = (a + b' + c) • b.theSphere.origin := by rw [h1, one_smul]
      nth_rw 4 [e]
      module
    rw [this, dotProduct_add, dotProduct_add, dotProduct_smul, dotProduct_smul, dotProduct_smul, hfl _ s1, hfl _ s2, hfl _ s3,
      ← add_smul, ← add_smul, h1, one_smul]
    exact le_rfl
  · have := side_add P Q S (z - b.theSphere.origin) b.theSphere.origin
    rw [sub_add_cancel] at this
    rw [this, hside]
    by_contra hc
    have hc : innerRadius b.theSphere.radius b.polarCount b.azimuthCount ≤ l ⬝ᵥ (z - b.theSphere.origin) := by
      by_contra hlt
      exact hc (mul_neg_of_pos_of_neg hK (by linarith))
    have := far_length hl hc
    rw [sdist_sq] at hz
    exact absurd hz (not_lt.2 this)

/-- **C88** (cylinders) Every point of every facet lies in the solid cylinder, and every inner point of the coaxial cylinder of radius
`r cos(π/n)` lies strictly behind every facet. -/
theorem C88_cylinder (dbg : Bool) (M w : Nat) (rotAlign : Vec ℝ 4 → Vec ℝ 4 → HMat ℝ) (cyl : Cylinder ℝ) (n : Nat)
    (hn : 3 ≤ n) (hM : 12 * n < M) (hr : cyl.radius ≠ 0) (hseg : cyl.segment.source ≠ cyl.segment.target)
    (hrot : RotatesZTo (rotAlign (hvec4 0 0 1 1) (toHvec cyl.segment.direction)) cyl.segment.direction) :
    ∃ m, cylinderBuild dbg M w rotAlign (some cyl) n = .ok (some m) ∧ FacetsSatisfy m fun p q s =>
      flatTriangle p q s ⊆ solidCylinder cyl.segment.source cyl.segment.target cyl.radius ∧
      ∀ x ∈ openCylinder cyl.segment.source cyl.segment.target (cyl.radius * cos (π / n)), side (p, q, s) x < 0 := by
  obtain ⟨A, hA, hdet, hz', htr⟩ := placed hrot
  obtain ⟨m, hm⟩ := C57_in_range_partial dbg M w rotAlign cyl n (by omega) hM
  refine ⟨m, hm, ?_⟩
  rw [cylinderBuild_eq dbg M w rotAlign cyl n (by omega) (by omega)] at hm
  have hm := of_map_some hm
  refine satisfy_build dbg M w _ A cyl.segment.source htr _ _ (by rw [cylIdx_length]; omega) m hm _ ?_
  have hl := segment_length_pos hseg
  obtain ⟨hsn, hcn⟩ := trig_pos hn
  have hin : ∀ t x y, 0 ≤ t → t ≤ 1 → x ^ 2 + y ^ 2 ≤ cyl.radius ^ 2 → affine A cyl.segment.source (vec3 x y (t * cyl.segment.length)) ∈
      solidCylinder cyl.segment.source cyl.segment.target cyl.radius := by
    intro t x y h0 h1 h2
    obtain ⟨g1, g2, g3⟩ := place_split hA hz' hseg (x := x) (y := y) (z := t * cyl.segment.length) (t := t) rfl
    exact ⟨t, _, h0, h1, g1, by rw [g2]; exact h2, g3⟩
  have hz0 : affine A cyl.segment.source (vec3 0 0 0) ∈ solidCylinder cyl.segment.source cyl.segment.target cyl.radius := by
    have := hin 0 0 0 le_rfl zero_le_one (by nlinarith [sq_nonneg cyl.radius]); rwa [zero_mul] at this
  have hzh : affine A cyl.segment.source (vec3 0 0 cyl.segment.length) ∈ solidCylinder cyl.segment.source cyl.segment.target cyl.radius := by
    have := hin 1 0 0 zero_le_one le_rfl (by nlinarith [sq_nonneg cyl.radius]); rwa [one_mul] at this
  have hrim : ∀ t k, 0 ≤ t → t ≤ 1 → affine A cyl.segment.source (rim cyl.radius n (t * cyl.segment.length) k) ∈
      solidCylinder cyl.segment.source cyl.segment.target cyl.radius := by
    intro t k h0 h1
    apply hin t _ _ h0 h1
    have := Real.sin_sq_add_cos_sq (2 * ((k : ℝ) * (π / n)))
    nlinarith
  have hr0 : ∀ k, affine A cyl.segment.source (rim cyl.radius n 0 k) ∈
      solidCylinder cyl.segment.source cyl.segment.target cyl.radius := by
    intro k; have := hrim 0 k le_rfl zero_le_one; rwa [zero_mul] at this
  have hrh : ∀ k, affine A cyl.segment.source (rim cyl.radius n cyl.segment.length k) ∈
      solidCylinder cyl.segment.source cyl.segment.target cyl.radius := by
    intro k; have := hrim 1 k zero_le_one le_rfl; rwa [one_mul] at this
  have hbehind : ∀ T : Vec ℝ 3 × Vec ℝ 3 × Vec ℝ 3, (∀ t x y, 0 < t → t < 1 → x ^ 2 + y ^ 2 < (cyl.radius * cos (π / n)) ^ 2 →
      side T (vec3 x y (t * cyl.segment.length)) < 0) →
      ∀ x ∈ openCylinder cyl.segment.source cyl.segment.target (cyl.radius * cos (π / n)),
        side (affine A cyl.segment.source T.1, affine A cyl.segment.source T.2.1, affine A cyl.segment.source T.2.2) x < 0 := by
    rintro T hT _ ⟨t, w, h0, h1, h2, h3, rfl⟩
    obtain ⟨x, y, hxy, e⟩ := unplace hA hz' hseg (t := t) h2
    rw [e]
    have := side_affine A cyl.segment.source T (vec3 x y (t * cyl.segment.length))
    rw [hdet, one_mul] at this
    unfold mapTriangle at this
    rw [this]
    exact hT t x y h0 h1 (by rw [hxy]; exact h3)
  have hmant : ∀ (i : ℤ) (t x y : ℝ), x ^ 2 + y ^ 2 < (cyl.radius * cos (π / n)) ^ 2 →
      0 < (rim cyl.radius n 0 (i + 1) 0 - rim cyl.radius n 0 i 0) * ((vec3 x y (t * cyl.segment.length) : Vec ℝ 3) 1 - rim cyl.radius n 0 i 1) -
      (rim cyl.radius n 0 (i + 1) 1 - rim cyl.radius n 0 i 1) * ((vec3 x y (t * cyl.segment.length) : Vec ℝ 3) 0 - rim cyl.radius n 0 i 0) := by
    intro i t x y h
    rw [rim_edge, vec3_0, vec3_1]
    have := inner_lt (s := 1) zero_le_one (Real.sin_sq_add_cos_sq ((2 * ((i : ℝ) + 1) - 1) * (π / n))) hr hcn (by rw [one_mul]; exact h)
    rw [one_mul] at this
    positivity
  intro t ht y hy
  obtain ⟨i, hi⟩ := cyl_tris cyl.radius cyl.segment.length t ht
  rw [← hy] at hi
  have hS := rim_turn hn hr 0 0 i
  have hS' := rim_turn hn hr cyl.segment.length cyl.segment.length i
  rcases hi with rfl | rfl | rfl | rfl
  · refine ⟨fun z hz => flat_cylinder (hr0 _) (hr0 _) hz0 hz, hbehind _ ?_⟩
    intro t x y h0 h1 h2
    rw [side_base, vec3_2]
    have := mul_pos h0 hl
    nlinarith [mul_pos hS this]
  · refine ⟨fun z hz => flat_cylinder (hrh _) (hrh _) hzh hz, hbehind _ ?_⟩
    intro t x y h0 h1 h2
    rw [side_lid, vec3_2]
    exact mul_neg_of_pos_of_neg hS' (by nlinarith)
  · refine ⟨fun z hz => flat_cylinder (hr0 _) (hrh _) (hr0 _) hz, hbehind _ ?_⟩
    intro t x y h0 h1 h2
    rw [side_mantle_low]
    have := mul_pos hl (hmant i t x y h2)
    linarith
  · refine ⟨fun z hz => flat_cylinder (hr0 _) (hrh _) (hrh _) hz, hbehind _ ?_⟩
    intro t x y h0 h1 h2
    rw [side_mantle_high]
    have := mul_pos hl (hmant i t x y h2)
    linarith

/-- **C88** (cones) Every point of every facet lies in the solid cone, and every inner point of the cone with the same axis whose base has the
radius `r cos(π/n)` lies strictly behind every facet. -/
theorem C88_cone [Tol ℝ] [LawfulTol ℝ] (dbg : Bool) (M w : Nat) (rotAlign : Vec ℝ 4 → Vec ℝ 4 → HMat ℝ) (cone : Cone ℝ) (n : Nat)
    (hn : 3 ≤ n) (hM : 6 * n + 1 < M) (hr : cone.radius ≠ 0) (hseg : cone.segment.source ≠ cone.segment.target)
    (hz : dbg = true → isZero cone.segment.length = false)
    (hrot : RotatesZTo (rotAlign (hvec4 0 0 1 1) (toHvec cone.segment.direction)) cone.segment.direction) :
    ∃ m, coneBuild dbg M w rotAlign (some cone) n = .ok (some m) ∧ FacetsSatisfy m fun p q s =>
      flatTriangle p q s ⊆ solidCone cone.segment.source cone.segment.target cone.radius ∧
      ∀ x ∈ openCone cone.segment.source cone.segment.target (cone.radius * cos (π / n)), side (p, q, s) x < 0 := by
  obtain ⟨A, hA, hdet, hz', htr⟩ := placed hrot
  obtain ⟨m, hm⟩ := C56_in_range dbg M w rotAlign cone n hM hseg hz
  refine ⟨m, hm, ?_⟩
  rw [coneBuild_eq dbg M w rotAlign cone n (by omega) hseg hz] at hm
  have hm := of_map_some hm
  refine satisfy_build dbg M w _ A cone.segment.source htr _ _ (by rw [coneIdx_length]; omega) m hm _ ?_
  have hl := segment_length_pos hseg
  obtain ⟨hsn, hcn⟩ := trig_pos hn
  have hin : ∀ t x y, 0 ≤ t → t ≤ 1 → x ^ 2 + y ^ 2 ≤ ((1 - t) * cone.radius) ^ 2 →
      affine A cone.segment.source (vec3 x y (t * cone.segment.length)) ∈
      solidCone cone.segment.source cone.segment.target cone.radius := by
    intro t x y h0 h1 h2
    obtain ⟨g1, g2, g3⟩ := place_split hA hz' hseg (x := x) (y := y) (z := t * cone.segment.length) (t := t) rfl
    exact ⟨t, _, h0, h1, g1, by rw [g2]; exact h2, g3⟩
  have hz0 : affine A cone.segment.source (vec3 0 0 0) ∈ solidCone cone.segment.source cone.segment.target cone.radius := by
    have := hin 0 0 0 le_rfl zero_le_one (by nlinarith [sq_nonneg cone.radius]); rwa [zero_mul] at this
  have hzh : affine A cone.segment.source (vec3 0 0 cone.segment.length) ∈ solidCone cone.segment.source cone.segment.target cone.radius := by
    have := hin 1 0 0 zero_le_one le_rfl (by nlinarith [sq_nonneg cone.radius]); rwa [one_mul] at this
  have hr0 : ∀ k, affine A cone.segment.source (rim cone.radius n 0 k) ∈ solidCone cone.segment.source cone.segment.target cone.radius := by
    intro k
    have h1 := Real.sin_sq_add_cos_sq (2 * ((k : ℝ) * (π / n)))
    have := hin 0 (cos (2 * (k * (π / n))) * cone.radius) (sin (2 * (k * (π / n))) * cone.radius) le_rfl zero_le_one (by nlinarith)
    rwa [zero_mul] at this
  have hbehind : ∀ T : Vec ℝ 3 × Vec ℝ 3 × Vec ℝ 3, (∀ t x y, 0 < t → t < 1 → x ^ 2 + y ^ 2 < ((1 - t) * (cone.radius * cos (π / n))) ^ 2 →
      side T (vec3 x y (t * cone.segment.length)) < 0) →
      ∀ x ∈ openCone cone.segment.source cone.segment.target (cone.radius * cos (π / n)),
        side (affine A cone.segment.source T.1, affine A cone.segment.source T.2.1, affine A cone.segment.source T.2.2) x < 0 := by
    rintro T hT _ ⟨t, w, h0, h1, h2, h3, rfl⟩
    obtain ⟨x, y, hxy, e⟩ := unplace hA hz' hseg (t := t) h2
    rw [e]
    have := side_affine A cone.segment.source T (vec3 x y (t * cone.segment.length))
    rw [hdet, one_mul] at this
    unfold mapTriangle at this
    rw [this]
    exact hT t x y h0 h1 (by rw [hxy]; exact h3)
  intro t ht y hy
  obtain ⟨i, hi⟩ := cone_tris cone.radius cone.segment.length t ht
  have hi' : y = (rim cone.radius n 0 (i + 1), rim cone.radius n 0 i, vec3 0 0 0) ∨
      y = (rim cone.radius n 0 i, rim cone.radius n 0 (i + 1), vec3 0 0 cone.segment.length) := by rw [hy]; exact hi
  have hS := rim_turn hn hr 0 0 i
  rcases hi' with rfl | rfl
  · refine ⟨fun z hz => flat_cone (hr0 _) (hr0 _) hz0 hz, hbehind _ ?_⟩
    intro t x y h0 h1 h2
    rw [side_base, vec3_2]
    have := mul_pos h0 hl
    nlinarith [mul_pos hS this]
  · refine ⟨fun z hz => flat_cone (hr0 _) (hr0 _) hzh hz, hbehind _ ?_⟩
    intro t x y h0 h1 h2
    rw [side_cone_mantle, rim_edge, rim_turn_eq, vec3_0, vec3_1, vec3_2]
    have := inner_lt (s := 1 - t) (by linarith) (Real.sin_sq_add_cos_sq ((2 * ((i : ℝ) + 1) - 1) * (π / n))) hr hcn h2
    have h3 := mul_pos (mul_pos hl hsn) this
    nlinarith

/-! ### Cuboids -/

theorem box_combo (o : Vec ℝ 3) (s : Fin 3 → Vec ℝ 3) (u v w : Fin 3 → Bool) {a b c : ℝ} (h : a + b + c = 1) :
    a • corner o s u + b • corner o s v + c • corner o s w =
      fun k => o k + ∑ i, (a * (if u i then 1 else 0) + b * (if v i then 1 else 0) + c * (if w i then 1 else 0)) * s i k := by
  funext k
  simp only [corner, Pi.add_apply, Pi.smul_apply, smul_eq_mul, Fin.sum_univ_three]
  linear_combination o k * h

theorem cubeTris_face : ∀ t ∈ cubeTris, ∃ i, t.1 i = t.2.1 i ∧ t.2.1 i = t.2.2 i := by decide +kernel

theorem box_triangle {o : Vec ℝ 3} {s : Fin 3 → Vec ℝ 3} {t : (Fin 3 → Bool) × (Fin 3 → Bool) × (Fin 3 → Bool)} (ht : t ∈ cubeTris) :
    flatTriangle (corner o s t.1) (corner o s t.2.1) (corner o s t.2.2) ⊆ boxFaces o s := by
  rintro x ⟨a, b, c, ha, hb, hc, h, rfl⟩
  obtain ⟨i, h1, h2⟩ := cubeTris_face t ht
  have hle : ∀ j, 0 ≤ a * (if t.1 j then 1 else 0) + b * (if t.2.1 j then 1 else 0) + c * (if t.2.2 j then 1 else 0) ∧
      a * (if t.1 j then 1 else 0) + b * (if t.2.1 j then 1 else 0) + c * (if t.2.2 j then 1 else 0) ≤ 1 := by
    intro j
    cases t.1 j <;> cases t.2.1 j <;> cases t.2.2 j <;> simp <;> constructor <;> linarith
  refine ⟨_, hle, ⟨i, ?_⟩, box_combo o s _ _ _ h⟩
  rw [h1, h2]
  cases t.2.2 i <;> simp [h]

theorem box_cover {o : Vec ℝ 3} {s : Fin 3 → Vec ℝ 3} {x : Vec ℝ 3} (hx : x ∈ boxFaces o s) :
    ∃ t ∈ cubeTris, x ∈ flatTriangle (corner o s t.1) (corner o s t.2.1) (corner o s t.2.2) := by
  obtain ⟨T, hT, ⟨i, hi⟩, rfl⟩ := hx
  obtain ⟨x0, x1⟩ := hT 0
  obtain ⟨y0, y1⟩ := hT 1
  obtain ⟨z0, z1⟩ := hT 2
  have key : ∀ t ∈ cubeTris, ∀ a b c : ℝ, 0 ≤ a → 0 ≤ b → 0 ≤ c → a + b + c = 1 →
      (∀ j, T j = a * (if t.1 j then 1 else 0) + b * (if t.2.1 j then 1 else 0) + c * (if t.2.2 j then 1 else 0)) →
      ∃ t ∈ cubeTris, (fun k => o k + ∑ i, T i * s i k) ∈ flatTriangle (corner o s t.1) (corner o s t.2.1) (corner o s t.2.2) := by
    intro t ht a b c ha hb hc h hj
    refine ⟨t, ht, a, b, c, ha, hb, hc, h, ?_⟩
    rw [box_combo o s _ _ _ h]
    funext k
    simp only [hj]
  have fin3 : ∀ P : Fin 3 → Prop, P 0 → P 1 → P 2 → ∀ j, P j := by
    intro P h0 h1 h2 j; fin_cases j <;> assumption
  fin_cases i
  · have hi : T 0 = 0 ∨ T 0 = 1 := hi
    rcases hi with hi | hi <;> rcases le_total (T 1) (T 2) with h | h
    · exact key (![false, false, false], ![false, false, true], ![false, true, true]) (by simp [cubeTris]) (1 - T 2) (T 2 - T 1) (T 1)
        (by linarith) (by linarith) (by linarith) (by ring) (fin3 _ (by simp [hi]) (by simp) (by simp))
    · exact key (![false, true, true], ![false, true, false], ![false, false, false]) (by simp [cubeTris]) (T 2) (T 1 - T 2) (1 - T 1)
        (by linarith) (by linarith) (by linarith) (by ring) (fin3 _ (by simp [hi]) (by simp) (by simp))
    · exact key (![true, true, true], ![true, false, true], ![true, false, false]) (by simp [cubeTris]) (T 1) (T 2 - T 1) (1 - T 2)
        (by linarith) (by linarith) (by linarith) (by ring) (fin3 _ (by simp [hi]) (by simp) (by simp))
    · exact key (![true, false, false], ![true, true, false], ![true, true, true]) (by simp [cubeTris]) (1 - T 1) (T 1 - T 2) (T 2)
        (by linarith) (by linarith) (by linarith) (by ring) (fin3 _ (by simp [hi]) (by simp) (by simp))
  · have hi : T 1 = 0 ∨ T 1 = 1 := hi
    rcases hi with hi | hi <;> rcases le_total (T 0) (T 2) with h | h
    · exact key (![true, false, true], ![false, false, true], ![false, false, false]) (by simp [cubeTris]) (T 0) (T 2 - T 0) (1 - T 2)
        (by linarith) (by linarith) (by linarith) (by ring) (fin3 _ (by simp) (by simp [hi]) (by simp))
    · exact key (![false, false, false], ![true, false, false], ![true, false, true]) (by simp [cubeTris]) (1 - T 0) (T 0 - T 2) (T 2)
        (by linarith) (by linarith) (by linarith) (by ring) (fin3 _ (by simp) (by simp [hi]) (by simp))
    · exact key (![false, true, false], ![false, true, true], ![true, true, true]) (by simp [cubeTris]) (1 - T 2) (T 2 - T 0) (T 0)
        (by linarith) (by linarith) (by linarith) (by ring) (fin3 _ (by simp) (by simp [hi]) (by simp))
    · exact key (![true, true, true], ![true, true, false], ![false, true, false]) (by simp [cubeTris]) (T 2) (T 0 - T 2) (1 - T 0)
        (by linarith) (by linarith) (by linarith) (by ring) (fin3 _ (by simp) (by simp [hi]) (by simp))
  · have hi : T 2 = 0 ∨ T 2 = 1 := hi
    rcases hi with hi | hi <;> rcases le_total (T 0) (T 1) with h | h
    · exact key (![false, false, false], ![false, true, false], ![true, true, false]) (by simp [cubeTris]) (1 - T 1) (T 1 - T 0) (T 0)
        (by linarith) (by linarith) (by linarith) (by ring) (fin3 _ (by simp) (by simp) (by simp [hi]))
    · exact key (![true, true, false], ![true, false, false], ![false, false, false]) (by simp [cubeTris]) (T 1) (T 0 - T 1) (1 - T 0)
        (by linarith) (by linarith) (by linarith) (by ring) (fin3 _ (by simp) (by simp) (by simp [hi]))
    · exact key (![true, true, true], ![false, true, true], ![false, false, true]) (by simp [cubeTris]) (T 0) (T 1 - T 0) (1 - T 1)
        (by linarith) (by linarith) (by linarith) (by ring) (fin3 _ (by simp) (by simp) (by simp [hi]))
    · exact key (![false, false, true], ![true, false, true], ![true, true, true]) (by simp [cubeTris]) (1 - T 0) (T 0 - T 1) (T 1)
        (by linarith) (by linarith) (by linarith) (by ring) (fin3 _ (by simp) (by simp) (by simp [hi]))

/-- **C88** (cuboids) The surface of the mesh consists of exactly the points of the six faces. -/
theorem C88_cuboid (dbg : Bool) (M w : Nat) (b : CuboidBuilder ℝ) (hM : 36 < M) (hi : LinearIndependent ℝ b.theCuboid.sides) :
    ∃ m b', b.build dbg M w = .ok (m, b') ∧ meshSurface m = boxFaces b.theCuboid.origin b.theCuboid.sides := by
  have hM' : 3 * (cuboidTriangles b.theCuboid).length < M := by rw [cuboidTriangles_length]; omega
  obtain ⟨m, hm, hb, hh, hf, hv, he⟩ := cuboid_build dbg M w b hM
  obtain ⟨m', b', h1, _⟩ := C59_cuboid dbg M w b hM hi
  have hmm : m' = m := by
    rw [he] at h1
    split_ifs at h1
    exact (Prod.mk.inj (Except.ok.inj h1)).1.symm
  subst hmm
  refine ⟨m', b', h1, ?_⟩
  ext x
  constructor
  · rintro ⟨f, hf', k0, k1, k2, p, q, r, e, e0, e1, e2, hx⟩
    obtain ⟨t, ht, j0, j1, j2, g, g0, g1, g2⟩ := facet_corners dbg M _ hM' m' hb f hf'
    rw [e, Except.ok.injEq, List.cons.injEq, List.cons.injEq, List.cons.injEq] at g
    obtain ⟨rfl, rfl, rfl, _⟩ := g
    rw [e0] at g0; rw [e1] at g1; rw [e2] at g2
    rw [Except.ok.inj g0, Except.ok.inj g1, Except.ok.inj g2] at hx
    rw [cuboidTriangles_eq, List.mem_map] at ht
    obtain ⟨u, hu, rfl⟩ := ht
    exact box_triangle hu hx
  · intro hx
    obtain ⟨u, hu, hx⟩ := box_cover hx
    have ht : mapTriangle (corner b.theCuboid.origin b.theCuboid.sides) u ∈ cuboidTriangles b.theCuboid := by
      rw [cuboidTriangles_eq]; exact List.mem_map_of_mem hu
    obtain ⟨k, hk, e⟩ := List.mem_iff_getElem.1 ht
    obtain ⟨f, hf', j0, j1, j2, g, g0, g1, g2⟩ := facet_corners_get dbg M _ hM' m' hb k hk
    rw [e] at g0 g1 g2
    exact ⟨f, List.mem_of_getElem? (vecGet_eq_ok.1 hf'), j0, j1, j2, _, _, _, g, g0, g1, g2, hx⟩
end

section Examples
attribute [local instance] realTol realTol_lawful
open Classical

example : ∃ m b', exSphere.build true 65536 16 = .ok (m, b') ∧ FacetsSatisfy m fun p q s =>
    ∀ x ∈ flatTriangle p q s, Spec.dist x exSphere.theSphere.origin ≤ exSphere.theSphere.radius := by
  obtain ⟨m, b', h1, h2⟩ :=
    C88_sphere true 65536 16 exSphere (by decide) (by decide) (by decide) (by simp [exSphere, SphereBuilder.theSphere])
  refine ⟨m, b', h1, fun f hf => ?_⟩
  obtain ⟨h0, k1, k2, p, q, r, e, e0, e1, e2, hP, _⟩ := h2 f hf
  exact ⟨h0, k1, k2, p, q, r, e, e0, e1, e2, fun x hx => (hP hx).2⟩

example : ∃ m, cylinderBuild true 256 8 rotAlignZ (some ⟨exSeg, 2⟩) 6 = .ok (some m) ∧ FacetsSatisfy m fun p q s =>
    flatTriangle p q s ⊆ solidCylinder exSeg.source exSeg.target 2 ∧
      ∀ x ∈ openCylinder exSeg.source exSeg.target (2 * cos (π / (6 : ℕ))), side (p, q, s) x < 0 :=
  C88_cylinder true 256 8 rotAlignZ ⟨exSeg, 2⟩ 6 (by decide) (by decide) two_ne_zero exSeg_ne (exSeg_rot _)

example : ∃ m, coneBuild true 256 8 rotAlignZ (some ⟨exSeg, 2⟩) 6 = .ok (some m) ∧ FacetsSatisfy m fun p q s =>
    flatTriangle p q s ⊆ solidCone exSeg.source exSeg.target 2 ∧
      ∀ x ∈ openCone exSeg.source exSeg.target (2 * cos (π / (6 : ℕ))), side (p, q, s) x < 0 :=
  C88_cone true 256 8 rotAlignZ ⟨exSeg, 2⟩ 6 (by decide) (by decide) two_ne_zero exSeg_ne (fun _ => exSeg_nonzero) (exSeg_rot _)

example : ∃ m b', exBox.build true 256 8 = .ok (m, b') ∧ meshSurface m = boxFaces exBox.theCuboid.origin exBox.theCuboid.sides :=
  C88_cuboid true 256 8 exBox (by decide) exBox_independent
end Examples
end Verif
