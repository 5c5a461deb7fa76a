import Verif.Proofs.Volume

set_option linter.unusedSectionVars false

/-
C84: the volumes enclosed by the meshes of the solids.
-/
namespace Verif
open Spec Matrix Real

/-! ### Local triangles -/

theorem rim_area (r : ℝ) (n : ℕ) (z z' : ℝ) (i : ℤ) :
    rim r n z i 0 * rim r n z' (i + 1) 1 - rim r n z i 1 * rim r n z' (i + 1) 0 = r ^ 2 * sin (2 * (π / n)) := by
  have e1 : 2 * (π / n) = 2 * (((i + 1 : ℤ) : ℝ) * (π / n)) - 2 * (i * (π / n)) := by push_cast; ring
  conv_rhs => rw [e1, Real.sin_sub]
  simp only [rim, vec3_0, vec3_1]
  ring

theorem cone_tri_side (r h : ℝ) {n : ℕ} {x : Bool × ℕ} (hx : x ∈ coneIds n) :
    side (mapTriangle (fun i => (conePoints r h n).getD i 0) (reversed (coneTri n x))) (vec3 0 0 0) =
      if x.1 then -(h * (r ^ 2 * sin (2 * (π / n)))) else 0 := by
  obtain ⟨b, i⟩ := x
  obtain ⟨h1, h2⟩ := coneIds_mem.1 hx
  dsimp only at h1 h2
  have hS := rim_area r n 0 0 (i - 1 : ℤ)
  cases b
  · have e : mapTriangle (fun i => (conePoints r h n).getD i 0) (reversed (coneTri n (false, i))) =
        (rim r n 0 ((i - 1 : ℤ) + 1), rim r n 0 (i - 1 : ℤ), vec3 0 0 0) := by
      show ((conePoints r h n).getD (nxt 1 n i) 0, (conePoints r h n).getD i 0, (conePoints r h n).getD 0 0) = _
      rw [conePoints_nxt r h h1 h2, conePoints_rim r h n h1 h2]; rfl
    rw [e, side_base]
    simp
  · have e : mapTriangle (fun i => (conePoints r h n).getD i 0) (reversed (coneTri n (true, i))) =
        (rim r n 0 (i - 1 : ℤ), rim r n 0 ((i - 1 : ℤ) + 1), vec3 0 0 h) := by
      show ((conePoints r h n).getD i 0, (conePoints r h n).getD (nxt 1 n i) 0, (conePoints r h n).getD (n + 1) 0) = _
      rw [conePoints_nxt r h h1 h2, conePoints_rim r h n h1 h2, conePoints_apex]
    rw [e, side_cone_mantle, ← hS]
    simp only [vec3_0, vec3_1, vec3_2, if_true]
    ring

theorem cyl_tri_side (r h : ℝ) {n : ℕ} {x : Fin 4 × ℕ} (hx : x ∈ cylIds n) :
    side (mapTriangle (fun i => (cylPoints r h n).getD i 0) (reversed (cylTri n x))) (vec3 0 0 0) =
      if x.1 = 0 then 0 else -(h * (r ^ 2 * sin (2 * (π / n)))) := by
  obtain ⟨b, i⟩ := x
  obtain ⟨h1, h2⟩ := cylIds_mem.1 hx
  dsimp only at h1 h2
  have hS := rim_area r n 0 0 (i - 1 : ℤ)
  fin_cases b
  · have e : mapTriangle (fun i => (cylPoints r h n).getD i 0) (reversed (cylTri n (0, i))) =
        (rim r n 0 ((i - 1 : ℤ) + 1), rim r n 0 (i - 1 : ℤ), vec3 0 0 0) := by
      show ((cylPoints r h n).getD (nxt 1 n i) 0, (cylPoints r h n).getD i 0, (cylPoints r h n).getD 0 0) = _
      rw [cylPoints_nxt r h h1 h2, cylPoints_bottom r h n h1 h2]; rfl
    show side (mapTriangle _ (reversed (cylTri n (0, i)))) _ = 0
    rw [e, side_base]
    simp
  · have e : mapTriangle (fun i => (cylPoints r h n).getD i 0) (reversed (cylTri n (1, i))) =
        (rim r n h (-i : ℤ), rim r n h ((-i : ℤ) + 1), vec3 0 0 h) := by
      show ((cylPoints r h n).getD (nxt (n + 2) (2 * n + 1) (n + 1 + i)) 0, (cylPoints r h n).getD (n + 1 + i) 0,
        (cylPoints r h n).getD (n + 1) 0) = _
      rw [cylPoints_top_nxt r h h1 h2, cylPoints_top r h n h1 h2, cylPoints_center, show (-i : ℤ) + 1 = 1 - i by ring]
    show side (mapTriangle _ (reversed (cylTri n (1, i)))) _ = -(h * (r ^ 2 * sin (2 * (π / n))))
    rw [e, side_lid, rim_area, vec3_2]
    ring
  · have e : mapTriangle (fun i => (cylPoints r h n).getD i 0) (reversed (cylTri n (2, i))) =
        (rim r n 0 ((i - 1 : ℤ) + 1), rim r n h (i - 1 : ℤ), rim r n 0 (i - 1 : ℤ)) := by
      show ((cylPoints r h n).getD (nxt 1 n i) 0, (cylPoints r h n).getD (topOf n i) 0, (cylPoints r h n).getD i 0) = _
      rw [cylPoints_nxt r h h1 h2, cylPoints_topOf r h h1 h2, cylPoints_bottom r h n h1 h2]
    show side (mapTriangle _ (reversed (cylTri n (2, i)))) _ = -(h * (r ^ 2 * sin (2 * (π / n))))
    rw [e, side_mantle_low, ← hS]
    simp only [vec3_0, vec3_1]
    ring
  · have e : mapTriangle (fun i => (cylPoints r h n).getD i 0) (reversed (cylTri n (3, i))) =
        (rim r n 0 ((i - 1 : ℤ) + 1), rim r n h ((i - 1 : ℤ) + 1), rim r n h (i - 1 : ℤ)) := by
      show ((cylPoints r h n).getD (nxt 1 n i) 0, (cylPoints r h n).getD (topOf n (nxt 1 n i)) 0,
        (cylPoints r h n).getD (topOf n i) 0) = _
      rw [cylPoints_nxt r h h1 h2, cylPoints_topOf r h h1 h2, cylPoints_topOf_nxt r h h1 h2]
    show side (mapTriangle _ (reversed (cylTri n (3, i)))) _ = -(h * (r ^ 2 * sin (2 * (π / n))))
    rw [e, side_mantle_high, ← hS]
    simp only [vec3_0, vec3_1]
    ring

/-- The row whose sine is in the volume of a triangle of the sphere. -/
def sphRow (p : ℕ) (x : Fin 4 × ℕ × ℕ) : ℤ := if x.1 = 0 then 1 else if x.1 = 1 then p - 1 else if x.1 = 2 then x.2.1 else x.2.1 + 1

theorem sphGap_zero (p n : ℕ) (a k t l : ℤ) : sphGap p n a k t l 0 = -(cos (π / n) * sin (π / p)) := by
  have : π / p = (a + 1) * (π / p) - a * (π / p) := by ring
  rw [show sin (π / p) = sin ((a + 1) * (π / p) - a * (π / p)) from congrArg sin this, Real.sin_sub]
  unfold sphGap
  ring

theorem side_quad_a0 (r : ℝ) (p n : ℕ) (a k : ℤ) : side (sp r p n a (k - 1), sp r p n (a + 1) (k - 1), sp r p n a k) 0 =
    -(r ^ 3 * sin (2 * (π / n)) * sin (π / p) * sin (a * (π / p))) := by
  have := side_quad_a r p n a k 0 0 0
  rw [zero_smul, sphGap_zero] at this
  rw [this, Real.sin_two_mul]; ring

theorem side_quad_b0 (r : ℝ) (p n : ℕ) (a k : ℤ) : side (sp r p n (a + 1) k, sp r p n a k, sp r p n (a + 1) (k - 1)) 0 =
    -(r ^ 3 * sin (2 * (π / n)) * sin (π / p) * sin ((a + 1) * (π / p))) := by
  have := side_quad_b r p n a k 0 0 0
  rw [zero_smul, sphGap_zero] at this
  rw [this, Real.sin_two_mul]; ring

theorem sphTriU_side (r : ℝ) {p n : ℕ} (hp : 2 ≤ p) (hn : 3 ≤ n) {x : Fin 4 × ℕ × ℕ} (hx : x ∈ sphIds p n) :
    side (mapTriangle (sphPt r p n) (reversed (sphTriU p n x))) 0 =
      -(r ^ 3 * sin (2 * (π / n)) * sin (π / p) * sin (sphRow p x * (π / p))) := by
  obtain ⟨b, i, j⟩ := x
  obtain ⟨hj, hx⟩ := (sphIds_mem (by omega)).1 hx
  dsimp only at hj hx
  fin_cases b
  · show side (sphPt r p n (.g 0 (pv n j)), sphPt r p n (.g 0 j), sphPt r p n .top) 0 =
      -(r ^ 3 * sin (2 * (π / n)) * sin (π / p) * sin ((1 : ℤ) * (π / p)))
    have := side_quad_b0 r p n 0 j
    rw [sphPt_pv r p 0 hj, sphPt_g, sphPt_top r p n j]
    push_cast at this ⊢
    norm_num only [zero_add] at this ⊢
    rw [side_rot] at this
    exact this
  · show side (sphPt r p n (.g (p - 2) (pv n j)), sphPt r p n .bot, sphPt r p n (.g (p - 2) j)) 0 =
      -(r ^ 3 * sin (2 * (π / n)) * sin (π / p) * sin (((p - 1 : ℤ) : ℝ) * (π / p)))
    rw [← side_quad_a0 r p n (p - 1) j, sphPt_pv r p _ hj, sphPt_g, sphPt_bot r (by omega) n (j - 1)]
    have e : ((p - 2 : ℕ) : ℤ) + 1 = p - 1 := by omega
    have e' : (p : ℤ) - 1 + 1 = p := by omega
    rw [e, e']
  · have hx : 1 ≤ i ∧ i ≤ p - 2 := by simpa using hx
    show side (sphPt r p n (.g (i - 1) (pv n j)), sphPt r p n (.g i (pv n j)), sphPt r p n (.g (i - 1) j)) 0 =
      -(r ^ 3 * sin (2 * (π / n)) * sin (π / p) * sin (((i : ℤ) : ℝ) * (π / p)))
    rw [← side_quad_a0 r p n i j, sphPt_pv r p _ hj, sphPt_pv r p _ hj, sphPt_g]
    have e : ((i - 1 : ℕ) : ℤ) + 1 = i := by omega
    rw [e]
  · have hx : 1 ≤ i ∧ i ≤ p - 2 := by simpa using hx
    show side (sphPt r p n (.g i j), sphPt r p n (.g (i - 1) j), sphPt r p n (.g i (pv n j))) 0 =
      -(r ^ 3 * sin (2 * (π / n)) * sin (π / p) * sin (((i + 1 : ℤ) : ℝ) * (π / p)))
    have := side_quad_b0 r p n i j
    push_cast at this ⊢
    rw [← this, sphPt_pv r p _ hj, sphPt_g, sphPt_g]
    have e : ((i - 1 : ℕ) : ℤ) + 1 = i := by omega
    rw [e]

theorem sphTriV_side (r : ℝ) {p n : ℕ} (hp : 2 ≤ p) (hn : 3 ≤ n) {x : Fin 4 × ℕ × ℕ} (hx : x ∈ sphIds p n) :
    side (mapTriangle (sphPt r p n) (reversed (sphTriV p n x))) 0 =
      -(r ^ 3 * sin (2 * (π / n)) * sin (π / p) * sin (sphRow p x * (π / p))) := by
  have h := sphTriU_side r hp hn hx
  rw [← h]
  obtain ⟨b, i, j⟩ := x
  by_cases hj : j = 0
  · subst hj
    fin_cases b
    · exact side_rot _ _ _ _
    · rfl
    · exact (side_rot _ _ _ _).symm
    · exact side_rot _ _ _ _
  · have e : pv n j = j - 1 := by rcases pv_spec n j with h | h <;> omega
    unfold sphTriU sphTriV
    dsimp only
    rw [if_neg hj, e]

/-! ### Sums -/

theorem cone_sum (r h : ℝ) (n : ℕ) :
    ((triples (coneIdx n)).map fun t => side (mapTriangle (fun i => (conePoints r h n).getD i 0) (reversed t)) (vec3 0 0 0)).sum =
      -(6 * (n * sin (2 * (π / n)) * r ^ 2 * h / 6)) := by
  rw [coneIdx_triples, List.map_map, Function.comp_def, List.map_congr_left (g := fun x : Bool × ℕ => if x.1 then -(h * (r ^ 2 * sin (2 * (π / n)))) else 0)
    (fun x hx => cone_tri_side r h hx)]
  simp [coneIds, Function.comp_def]
  ring

theorem cyl_sum (r h : ℝ) (n : ℕ) :
    ((triples (cylIdx n)).map fun t => side (mapTriangle (fun i => (cylPoints r h n).getD i 0) (reversed t)) (vec3 0 0 0)).sum =
      -(6 * (n * sin (2 * (π / n)) * r ^ 2 * h / 2)) := by
  rw [cylIdx_triples, List.map_map, Function.comp_def, List.map_congr_left (g := fun x : Fin 4 × ℕ => if x.1 = 0 then 0 else -(h * (r ^ 2 * sin (2 * (π / n)))))
    (fun x hx => cyl_tri_side r h hx)]
  have hf : ∀ l : List ℕ, ∀ y : ℝ, ((l.flatMap fun i => [((2 : Fin 4), i), (3, i)]).map fun x => if x.1 = 0 then 0 else y).sum = l.length * (2 * y) := by
    intro l y
    induction l with
    | nil => simp
    | cons a l ih => rw [List.flatMap_cons, List.map_append, List.sum_append, ih]; simp; ring
  rw [cylIds, List.map_append, List.sum_append, hf]
  simp [Function.comp_def]
  ring

theorem row_sum (d : ℝ) (m : ℕ) : 2 * sin (d / 2) * ((List.range' 1 m).map fun i : ℕ => sin (i * d) + sin ((i + 1) * d)).sum =
    cos (d / 2) + cos (3 * d / 2) - cos ((m + 1 / 2) * d) - cos ((m + 3 / 2) * d) := by
  induction m with
  | zero => simp; ring_nf
  | succ m ih =>
    rw [List.range'_1_concat, List.map_append, List.sum_append, mul_add, ih]
    have h : ∀ x, 2 * sin (d / 2) * sin x = cos (x - d / 2) - cos (x + d / 2) := by
      intro x; rw [Real.cos_sub, Real.cos_add]; ring
    simp only [List.map_cons, List.map_nil, List.sum_cons, List.sum_nil, add_zero, mul_add (2 * sin (d / 2)), h]
    push_cast
    rw [show (1 + (m : ℝ)) * d - d / 2 = (m + 1 / 2) * d by ring, show (1 + (m : ℝ)) * d + d / 2 = (m + 3 / 2) * d by ring,
      show ((1 + (m : ℝ)) + 1) * d - d / 2 = (m + 3 / 2) * d by ring, show ((1 + (m : ℝ)) + 1) * d + d / 2 = (m + 1 + 3 / 2) * d by ring,
      show (m + 1 + 1 / 2 : ℝ) * d = (m + 3 / 2) * d by ring]
    ring

theorem sph_row_total {p : ℕ} (hp : 2 ≤ p) : sin (π / p) * (sin ((1 : ℤ) * (π / p)) + sin (((p - 1 : ℤ) : ℝ) * (π / p)) +
    ((List.range' 1 (p - 2)).map fun i : ℕ => sin (i * (π / p)) + sin ((i + 1) * (π / p))).sum) = 4 * cos (π / (2 * p)) ^ 2 := by
  have hp' : (p : ℝ) ≠ 0 := by have : 0 < p := by omega
                               exact_mod_cast this.ne'
  have h := row_sum (π / p) (p - 2)
  have hd : π / p / 2 = π / (2 * p) := by field_simp
  have h2 : ∀ x, 2 * sin (π / p / 2) * sin x = cos (x - π / p / 2) - cos (x + π / p / 2) := by
    intro x; rw [Real.cos_sub, Real.cos_add]; ring
  have hs : sin (π / p) = 2 * sin (π / p / 2) * cos (π / p / 2) := by rw [← Real.sin_two_mul]; congr 1; ring
  have hc : ((p - 2 : ℕ) : ℝ) = p - 2 := by rw [Nat.cast_sub hp]; norm_num
  rw [hc] at h
  have e1 : 2 * sin (π / p / 2) * (sin ((1 : ℤ) * (π / p)) + sin (((p - 1 : ℤ) : ℝ) * (π / p)) +
    ((List.range' 1 (p - 2)).map fun i : ℕ => sin (i * (π / p)) + sin ((i + 1) * (π / p))).sum) = 4 * cos (π / p / 2) := by
    rw [mul_add, mul_add, h, h2, h2]
    push_cast
    rw [show (1 : ℝ) * (π / p) - π / p / 2 = π / p / 2 by ring, show (1 : ℝ) * (π / p) + π / p / 2 = 3 * (π / p) / 2 by ring,
      show ((p : ℝ) - 1) * (π / p) - π / p / 2 = (p - 2 + 1 / 2) * (π / p) by ring,
      show ((p : ℝ) - 1) * (π / p) + π / p / 2 = π - π / p / 2 by field_simp; ring,
      show ((p : ℝ) - 2 + 3 / 2) * (π / p) = π - π / p / 2 by field_simp; ring, Real.cos_pi_sub]
    ring
  rw [hs, ← hd]
  linear_combination cos (π / p / 2) * e1

theorem sph_sum (r : ℝ) {p n : ℕ} (hp : 2 ≤ p) (hn : 3 ≤ n) :
    ((sphIds p n).map fun x => side (mapTriangle (sphPt r p n) (reversed (sphTriV p n x))) 0).sum =
      -(6 * (2 / 3 * (n * sin (2 * (π / n))) * cos (π / (2 * p)) ^ 2 * r ^ 3)) := by
  rw [List.map_congr_left (g := fun x => -(r ^ 3 * sin (2 * (π / n)) * sin (π / p) * sin (sphRow p x * (π / p))))
    (fun x hx => sphTriV_side r hp hn hx)]
  set K := -(r ^ 3 * sin (2 * (π / n)) * sin (π / p)) with hK
  have e0 : (fun x : Fin 4 × ℕ × ℕ => -(r ^ 3 * sin (2 * (π / n)) * sin (π / p) * sin (sphRow p x * (π / p)))) =
      fun x => K * sin (sphRow p x * (π / p)) := by funext x; rw [hK]; ring
  rw [e0]
  have h2 : ∀ (l : List ℕ) (a b : Fin 4) (i : ℕ), (∀ j j', sphRow p (a, i, j) = sphRow p (a, i, j')) → (∀ j j', sphRow p (b, i, j) = sphRow p (b, i, j')) →
      ((l.flatMap fun j => [(a, i, j), (b, i, j)]).map fun x => K * sin (sphRow p x * (π / p))).sum =
        l.length * (K * (sin (sphRow p (a, i, 0) * (π / p)) + sin (sphRow p (b, i, 0) * (π / p)))) := by
    intro l a b i ha hb
    induction l with
    | nil => simp
    | cons j l ih =>
      rw [List.flatMap_cons, List.map_append, List.sum_append, ih]
      simp only [List.map_cons, List.map_nil, List.sum_cons, List.sum_nil, List.length_cons, ha j 0, hb j 0]
      push_cast; ring
  have hn1 : ((n - 1 : ℕ) : ℝ) = n - 1 := by rw [Nat.cast_sub (by omega)]; norm_num
  have h3 : ∀ l : List ℕ, ((l.flatMap fun i => ((List.range' 1 (n - 1)).flatMap fun j => [((2 : Fin 4), i, j), (3, i, j)]) ++ [(2, i, 0), (3, i, 0)]).map
      fun x => K * sin (sphRow p x * (π / p))).sum = n * K * (l.map fun i : ℕ => sin (i * (π / p)) + sin ((i + 1) * (π / p))).sum := by
    intro l
    induction l with
    | nil => simp
    | cons i l ih =>
      rw [List.flatMap_cons, List.map_append, List.sum_append, ih, List.map_append, List.sum_append, h2 _ _ _ _ (fun _ _ => rfl) (fun _ _ => rfl)]
      have e2 : sphRow p (2, i, 0) = i := rfl
      have e3 : sphRow p (3, i, 0) = i + 1 := rfl
      simp only [List.map_cons, List.map_nil, List.sum_cons, List.sum_nil, List.length_range', e2, e3, hn1]
      push_cast; ring
  rw [sphIds, List.map_append, List.sum_append, List.map_append, List.sum_append, h3, h2 _ _ _ _ (fun _ _ => rfl) (fun _ _ => rfl)]
  have e2 : sphRow p (0, 0, 0) = 1 := rfl
  have e3 : sphRow p (1, 0, 0) = p - 1 := rfl
  simp only [List.map_cons, List.map_nil, List.sum_cons, List.sum_nil, List.length_range', e2, e3, hn1]
  have ht := sph_row_total hp
  rw [hK]
  linear_combination (-(n : ℝ) * r ^ 3 * sin (2 * (π / n))) * ht

/-! ### The theorems -/
section
variable [BEq (HMat ℝ)] [LawfulBEq (HMat ℝ)] [BEq (Vec ℝ 3)] [LawfulBEq (Vec ℝ 3)]

/-- **C84** (spheres) The mesh encloses the volume `2/3 n sin(2π/n) cos²(π/2p) r³`, which is below the volume of the ball and differs from it by
at most `π³ r³ (8/(3n²) + 1/(3p²))`. -/
theorem C84_sphere (dbg : Bool) (M w : Nat) (b : SphereBuilder ℝ) (hp : 2 ≤ b.polarCount) (hn : 3 ≤ b.azimuthCount)
    (hM : 6 * b.azimuthCount * (b.polarCount - 1) < M) (hr : 0 < b.theSphere.radius) :
    ∃ m b' ts V, b.build dbg M w = .ok (m, b') ∧ Reads m ts ∧ (∀ c, volume c ts = V) ∧
      V = 2 / 3 * (b.azimuthCount * sin (2 * (π / b.azimuthCount))) * cos (π / (2 * b.polarCount)) ^ 2 * b.theSphere.radius ^ 3 ∧
      V ≤ 4 / 3 * π * b.theSphere.radius ^ 3 ∧
      4 / 3 * π * b.theSphere.radius ^ 3 - V ≤
        π ^ 3 * b.theSphere.radius ^ 3 * (8 / (3 * b.azimuthCount ^ 2) + 1 / (3 * b.polarCount ^ 2)) := by
  obtain ⟨m, b', hm⟩ := C58_in_range dbg M w b hp (by omega) hM
  have hmi := sphere_build_inner dbg M w b hp hn hM hm
  obtain ⟨ts, h1, h2⟩ := volume_build dbg M w hmatIdentity 1 0 (by simp) (fun p => by rw [C62_identity]; simp [affine])
    (calcSpherePoints b.theSphere b.polarCount b.azimuthCount) (sphIdx b.polarCount b.azimuthCount)
    (by rw [sphIdx_length hp (by omega)]; exact hM) m hmi (sphIdx_closed hp hn) b.theSphere.origin _ (by
      rw [← sph_sum b.theSphere.radius hp hn, sphIdx_triples, List.map_map]
      congr 1
      apply List.map_congr_left
      intro x hx
      obtain ⟨o1, o2, o3⟩ := sphTriU_ok hp hx (by omega)
      rw [calcSpherePoints_eq]
      have e : mapTriangle (fun i => ((sphVerts b.polarCount b.azimuthCount).map fun v =>
          sphPt b.theSphere.radius b.polarCount b.azimuthCount v + b.theSphere.origin).getD i 0)
          (reversed (sphTri b.polarCount b.azimuthCount x)) =
          (sphPt b.theSphere.radius b.polarCount b.azimuthCount (sphTriV b.polarCount b.azimuthCount x).2.2 + b.theSphere.origin,
           sphPt b.theSphere.radius b.polarCount b.azimuthCount (sphTriV b.polarCount b.azimuthCount x).2.1 + b.theSphere.origin,
           sphPt b.theSphere.radius b.polarCount b.azimuthCount (sphTriV b.polarCount b.azimuthCount x).1 + b.theSphere.origin) := by
        simp only [mapTriangle, reversed, sphTri, sphVerts_getD _ o1, sphVerts_getD _ o2, sphVerts_getD _ o3]
      show side (mapTriangle _ (reversed (sphTri b.polarCount b.azimuthCount x))) _ = _
      rw [e]
      have := side_add (sphPt b.theSphere.radius b.polarCount b.azimuthCount (sphTriV b.polarCount b.azimuthCount x).2.2)
          (sphPt b.theSphere.radius b.polarCount b.azimuthCount (sphTriV b.polarCount b.azimuthCount x).2.1)
          (sphPt b.theSphere.radius b.polarCount b.azimuthCount (sphTriV b.polarCount b.azimuthCount x).1) 0 b.theSphere.origin
      rw [zero_add] at this
      rw [this]
      rfl)
  refine ⟨m, b', ts, _, hm, h1, h2, rfl, ?_⟩
  obtain ⟨p1, p2, p3⟩ := polygon_bounds hn
  set X : ℝ := b.azimuthCount * sin (2 * (π / b.azimuthCount))
  set Y := cos (π / (2 * b.polarCount)) with hY
  have hpi := Real.pi_pos
  have hr3 : 0 < b.theSphere.radius ^ 3 := by positivity
  have hpp : (0 : ℝ) < b.polarCount := by exact_mod_cast (show 0 < b.polarCount by omega)
  have hnn : (0 : ℝ) < b.azimuthCount := by exact_mod_cast (show 0 < b.azimuthCount by omega)
  have hY1 : Y ^ 2 ≤ 1 := by have := Real.cos_sq_le_one (π / (2 * b.polarCount)); exact this
  have hY2 : 1 - (π / (2 * b.polarCount)) ^ 2 ≤ Y ^ 2 := by
    have h1 := Real.sin_sq_add_cos_sq (π / (2 * b.polarCount))
    have h2 : |sin (π / (2 * b.polarCount))| ≤ |π / (2 * b.polarCount)| := Real.abs_sin_le_abs
    have := sq_le_sq.2 h2
    rw [hY]; linarith
  have hY0 : 0 ≤ Y ^ 2 := sq_nonneg _
  have hXY : X * Y ^ 2 ≤ 2 * π := by nlinarith
  have hXY2 : 2 * π - X * Y ^ 2 ≤ 4 * π ^ 3 / b.azimuthCount ^ 2 + 2 * π * (π / (2 * b.polarCount)) ^ 2 := by
    have : X * (1 - Y ^ 2) ≤ 2 * π * (π / (2 * b.polarCount)) ^ 2 := by
      apply mul_le_mul p1 (by linarith) (by linarith) (by linarith)
    nlinarith
  constructor
  · nlinarith
  · have e : π ^ 3 * b.theSphere.radius ^ 3 * (8 / (3 * b.azimuthCount ^ 2) + 1 / (3 * b.polarCount ^ 2)) =
        2 / 3 * b.theSphere.radius ^ 3 * (4 * π ^ 3 / b.azimuthCount ^ 2 + 2 * π * (π / (2 * b.polarCount)) ^ 2) := by
      field_simp; ring
    rw [e]
    nlinarith

/-- **C84** (cones) The mesh encloses the volume of the pyramid over the regular polygon with `n` corners: it is below the volume of the cone and
differs from it by at most `2π³ r² h / (3n²)`. -/
theorem C84_cone [Tol ℝ] [LawfulTol ℝ] (dbg : Bool) (M w : Nat) (rotAlign : Vec ℝ 4 → Vec ℝ 4 → HMat ℝ) (cone : Cone ℝ) (n : Nat)
    (hn : 3 ≤ n) (hM : 6 * n + 1 < M) (hseg : cone.segment.source ≠ cone.segment.target)
    (hz : dbg = true → isZero cone.segment.length = false)
    (hrot : RotatesZTo (rotAlign (hvec4 0 0 1 1) (toHvec cone.segment.direction)) cone.segment.direction) :
    ∃ m ts V, coneBuild dbg M w rotAlign (some cone) n = .ok (some m) ∧ Reads m ts ∧ (∀ c, volume c ts = V) ∧
      V = n * sin (2 * (π / n)) * cone.radius ^ 2 * cone.segment.length / 6 ∧
      V ≤ π * cone.radius ^ 2 * cone.segment.length / 3 ∧
      π * cone.radius ^ 2 * cone.segment.length / 3 - V ≤ 2 * π ^ 3 * cone.radius ^ 2 * cone.segment.length / (3 * n ^ 2) := by
  obtain ⟨A, hA, hdet, hz', htr⟩ := placed hrot
  obtain ⟨m, hm⟩ := C56_in_range dbg M w rotAlign cone n hM hseg hz
  have hm' := hm
  rw [coneBuild_eq dbg M w rotAlign cone n (by omega) hseg hz] at hm
  have hm := of_map_some hm
  obtain ⟨ts, h1, h2⟩ := volume_build dbg M w _ A cone.segment.source hdet htr _ _ (by rw [coneIdx_length]; omega) m hm
    (coneIdx_closed hn) (vec3 0 0 0) _ (cone_sum cone.radius cone.segment.length n)
  refine ⟨m, ts, _, hm', h1, h2, rfl, ?_⟩
  obtain ⟨p1, p2, p3⟩ := polygon_bounds hn
  have hl := segment_length_pos hseg
  have hk : 0 ≤ cone.radius ^ 2 * cone.segment.length := by positivity
  have hnn : (0 : ℝ) < n := by exact_mod_cast (show 0 < n by omega)
  constructor
  · nlinarith
  · have e : 2 * π ^ 3 * cone.radius ^ 2 * cone.segment.length / (3 * n ^ 2) = 4 * π ^ 3 / n ^ 2 * (cone.radius ^ 2 * cone.segment.length) / 6 := by
      field_simp; ring
    rw [e]
    nlinarith

/-- **C84** (cylinders) The mesh encloses the volume of the prism over the regular polygon with `n` corners: it is below the volume of the cylinder
and differs from it by at most `2π³ r² h / n²`. -/
theorem C84_cylinder (dbg : Bool) (M w : Nat) (rotAlign : Vec ℝ 4 → Vec ℝ 4 → HMat ℝ) (cyl : Cylinder ℝ) (n : Nat)
    (hn : 3 ≤ n) (hM : 12 * n < M) (hseg : cyl.segment.source ≠ cyl.segment.target)
    (hrot : RotatesZTo (rotAlign (hvec4 0 0 1 1) (toHvec cyl.segment.direction)) cyl.segment.direction) :
    ∃ m ts V, cylinderBuild dbg M w rotAlign (some cyl) n = .ok (some m) ∧ Reads m ts ∧ (∀ c, volume c ts = V) ∧
      V = n * sin (2 * (π / n)) * cyl.radius ^ 2 * cyl.segment.length / 2 ∧
      V ≤ π * cyl.radius ^ 2 * cyl.segment.length ∧
      π * cyl.radius ^ 2 * cyl.segment.length - V ≤ 2 * π ^ 3 * cyl.radius ^ 2 * cyl.segment.length / n ^ 2 := by
  obtain ⟨A, hA, hdet, hz', htr⟩ := placed hrot
  obtain ⟨m, hm⟩ := C57_in_range_partial dbg M w rotAlign cyl n (by omega) hM
  have hm' := hm
  rw [cylinderBuild_eq dbg M w rotAlign cyl n (by omega) (by omega)] at hm
  have hm := of_map_some hm
  obtain ⟨ts, h1, h2⟩ := volume_build dbg M w _ A cyl.segment.source hdet htr _ _ (by rw [cylIdx_length]; omega) m hm
    (cylIdx_closed hn) (vec3 0 0 0) _ (cyl_sum cyl.radius cyl.segment.length n)
  refine ⟨m, ts, _, hm', h1, h2, rfl, ?_⟩
  obtain ⟨p1, p2, p3⟩ := polygon_bounds hn
  have hl := segment_length_pos hseg
  have hk : 0 ≤ cyl.radius ^ 2 * cyl.segment.length := by positivity
  have hnn : (0 : ℝ) < n := by exact_mod_cast (show 0 < n by omega)
  constructor
  · nlinarith
  · have e : 2 * π ^ 3 * cyl.radius ^ 2 * cyl.segment.length / n ^ 2 = 4 * π ^ 3 / n ^ 2 * (cyl.radius ^ 2 * cyl.segment.length) / 2 := by
      field_simp; ring
    rw [e]
    nlinarith

theorem unitCube_volume : volume 0 (cubeTris.map (mapTriangle unitCorner)) = 1 := by
  have c0 : ∀ a b c : Bool, (![a, b, c] : Fin 3 → Bool) 0 = a := fun _ _ _ => rfl
  have c1 : ∀ a b c : Bool, (![a, b, c] : Fin 3 → Bool) 1 = b := fun _ _ _ => rfl
  have c2 : ∀ a b c : Bool, (![a, b, c] : Fin 3 → Bool) 2 = c := fun _ _ _ => rfl
  rw [volume_eq]
  simp only [cubeTris, List.map_cons, List.map_nil, List.sum_cons, List.sum_nil, mapTriangle, side_eq, unitCorner, c0, c1, c2, Pi.zero_apply]
  norm_num

/-- **C84** (cuboids) The mesh encloses the determinant of the side vectors: the volume of the cuboid, with a negative sign for left-handed sides
(whose mesh faces inward). -/
theorem C84_cuboid (dbg : Bool) (M w : Nat) (b : CuboidBuilder ℝ) (hM : 36 < M) (hi : LinearIndependent ℝ b.theCuboid.sides) :
    ∃ m b' ts, b.build dbg M w = .ok (m, b') ∧ Reads m ts ∧ ∀ c, volume c ts = det (Matrix.of b.theCuboid.sides) := by
  obtain ⟨m, b', hm, _⟩ := C59_cuboid dbg M w b hM hi
  have hM' : 3 * (cuboidTriangles b.theCuboid).length < M := by rw [cuboidTriangles_length]; omega
  obtain ⟨m', hm', hb, _, _, _, he⟩ := cuboid_build dbg M w b hM
  have : m' = m := by
    rw [hm] at he
    split at he
    · exact nomatch he
    · exact (Prod.mk.inj (Except.ok.inj he)).1.symm
  subst this
  refine ⟨m', b', _, hm, reads_of_built dbg M _ hM' m' hb, fun c => ?_⟩
  rw [cuboidTriangles_eq, volume_base cubeTris_closed _ c (affine (Matrix.of b.theCuboid.sides)ᵀ b.theCuboid.origin 0), volume_eq, List.map_map]
  have e : ((fun t => side t (affine (Matrix.of b.theCuboid.sides)ᵀ b.theCuboid.origin 0)) ∘
      mapTriangle (corner b.theCuboid.origin b.theCuboid.sides)) =
      fun t => det (Matrix.of b.theCuboid.sides) * side (mapTriangle unitCorner t) 0 := by
    funext t
    have et : mapTriangle (corner b.theCuboid.origin b.theCuboid.sides) t =
        mapTriangle (affine (Matrix.of b.theCuboid.sides)ᵀ b.theCuboid.origin) (mapTriangle unitCorner t) := by
      simp only [mapTriangle, corner_affine]
    show side (mapTriangle (corner b.theCuboid.origin b.theCuboid.sides) t) _ = _
    rw [et, side_affine, det_transpose]
  have h1 := unitCube_volume
  rw [volume_eq, List.map_map] at h1
  rw [e, List.sum_map_mul_left]
  have h1 : -(cubeTris.map fun t => side (mapTriangle unitCorner t) 0).sum / 6 = 1 := h1
  linear_combination det (Matrix.of b.theCuboid.sides) * h1
end

/-- **C84** The volume does not depend on the apex of the tetrahedra, for any closed surface. -/
theorem C84_apex {ts : List (Vec ℝ 3 × Vec ℝ 3 × Vec ℝ 3)} (h : ClosedOriented ts) (c c' : Vec ℝ 3) : volume c ts = volume c' ts := by
  have := volume_base h id c c'
  have e : ts.map (mapTriangle id) = ts := by
    conv_rhs => rw [← List.map_id ts]
    rfl
  rwa [e] at this

section Examples
attribute [local instance] realTol realTol_lawful
open Classical

example (c c' : Vec ℝ 3) : volume c tetra = volume c' tetra := C84_apex tetra_closed c c'

example : ∃ m b' ts V, exSphere.build true 65536 16 = .ok (m, b') ∧ Reads m ts ∧ (∀ c, volume c ts = V) ∧ V ≤ 4 / 3 * π * 2 ^ 3 := by
  obtain ⟨m, b', ts, V, h1, h2, h3, _, h4, _⟩ :=
    C84_sphere true 65536 16 exSphere (by decide) (by decide) (by decide) (by simp [exSphere, SphereBuilder.theSphere])
  exact ⟨m, b', ts, V, h1, h2, h3, h4⟩

example : ∃ m ts, coneBuild true 256 8 rotAlignZ (some ⟨exSeg, 2⟩) 6 = .ok (some m) ∧ Reads m ts ∧
    ∀ c, volume c ts = (6 : ℕ) * sin (2 * (π / (6 : ℕ))) * 2 ^ 2 * exSeg.length / 6 := by
  obtain ⟨m, ts, V, h1, h2, h3, rfl, _⟩ :=
    C84_cone true 256 8 rotAlignZ ⟨exSeg, 2⟩ 6 (by decide) (by decide) exSeg_ne (fun _ => exSeg_nonzero) (exSeg_rot _)
  exact ⟨m, ts, h1, h2, h3⟩

example : ∃ m ts, cylinderBuild true 256 8 rotAlignZ (some ⟨exSeg, 2⟩) 6 = .ok (some m) ∧ Reads m ts ∧
    ∀ c, volume c ts = (6 : ℕ) * sin (2 * (π / (6 : ℕ))) * 2 ^ 2 * exSeg.length / 2 := by
  obtain ⟨m, ts, V, h1, h2, h3, rfl, _⟩ :=
    C84_cylinder true 256 8 rotAlignZ ⟨exSeg, 2⟩ 6 (by decide) (by decide) exSeg_ne (exSeg_rot _)
  exact ⟨m, ts, h1, h2, h3⟩

example : ∃ m b' ts, exBox.build true 256 8 = .ok (m, b') ∧ Reads m ts ∧ ∀ c, volume c ts < 0 := by
  obtain ⟨m, b', ts, h1, h2, h3⟩ := C84_cuboid true 256 8 exBox (by decide) exBox_independent
  exact ⟨m, b', ts, h1, h2, fun c => by rw [h3]; exact exBox_det⟩
end Examples
end Verif
