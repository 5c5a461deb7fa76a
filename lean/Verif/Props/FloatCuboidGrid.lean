import Verif.Props.FloatCuboid
import Verif.Props.FloatCrossGrid
import Verif.Props.FloatDistance

set_option linter.unusedSectionVars false

/-
C93: oblique cuboids whose coordinates lie on a grid.
-/
namespace Verif
open Spec

section
variable {F : FloatFormat}

/-- The point with the coordinates `m i * 2^e`. -/
noncomputable def gridPt (F : FloatFormat) (e : ℤ) (m : Fin 3 → ℤ) : Vec (Fl F) 3 := fun i => ⟨F.rnd (m i * 2 ^ e), F.rounds.mem _⟩

theorem gridPt_val {e : ℤ} {m : Fin 3 → ℤ} (hm : ∀ i, |m i| ≤ 2 ^ F.prec) (he : ∀ k, F.emin = some k → k ≤ e) (i : Fin 3) :
    (gridPt F e m i).1 = m i * 2 ^ e := rnd_multiple _ _ rfl (hm i) he

theorem gridPt_eq {e : ℤ} {m : Fin 3 → ℤ} {v : Vec (Fl F) 3} (h : ∀ i, (v i).1 = m i * 2 ^ e) : v = gridPt F e m := by
  funext i
  apply Fl.ext
  show _ = F.rnd _
  rw [← h i, F.rounds.exact (v i).2]

theorem gridPt_add {e : ℤ} {m n : Fin 3 → ℤ} (hm : ∀ i, |m i| ≤ 2 ^ F.prec) (hn : ∀ i, |n i| ≤ 2 ^ F.prec) (he : ∀ k, F.emin = some k → k ≤ e) :
    vadd (gridPt F e m) (gridPt F e n) = gridPt F e (m + n) := by
  funext i
  apply Fl.ext
  show F.rnd ((gridPt F e m i).1 + (gridPt F e n i).1) = F.rnd _
  rw [gridPt_val hm he, gridPt_val hn he, Pi.add_apply]
  congr 1; push_cast; ring

/-- The twelve triangles of a cuboid on a grid: no corner is rounded. -/
theorem cuboidTriangles_grid (c : Cuboid (Fl F)) {e : ℤ} {o : Fin 3 → ℤ} {s : Fin 3 → Fin 3 → ℤ} (he : ∀ k, F.emin = some k → k ≤ e)
    (ho : ∀ i, (c.origin i).1 = o i * 2 ^ e) (hs : ∀ k i, (c.sides k i).1 = s k i * 2 ^ e)
    (hb : ∀ i, |o i| + |s 0 i| + |s 1 i| + |s 2 i| ≤ 2 ^ F.prec) :
    cuboidTriangles c = cubeTris.map (mapTriangle fun a => gridPt F e (o + ∑ k, if a k then s k else 0)) := by
  have eo : c.origin = gridPt F e o := gridPt_eq ho
  have es : ∀ k, c.sides k = gridPt F e (s k) := fun k => gridPt_eq (hs k)
  have ez : (vec3 0 0 0 : Vec (Fl F) 3) = gridPt F e 0 := gridPt_eq fun i => by fin_cases i <;> simp [vec3]
  have p0 : ∀ i, (0 : ℤ) ≤ |o i| := fun i => abs_nonneg _
  have p1 : ∀ k i, (0 : ℤ) ≤ |s k i| := fun k i => abs_nonneg _
  have bound : ∀ (x : Bool) (a b d : Bool) i, |((if x then o else 0) + ((if a then s 0 else 0) + (if b then s 1 else 0) + (if d then s 2 else 0)) : Fin 3 → ℤ) i| ≤ 2 ^ F.prec := by
    intro x a b d i
    have h := hb i
    have h0 := p0 i
    have h1 := p1 0 i
    have h2 := p1 1 i
    have h3 := p1 2 i
    have k0 : |(if x then o else 0 : Fin 3 → ℤ) i| ≤ |o i| := by cases x <;> simp
    have k1 : |(if a then s 0 else 0 : Fin 3 → ℤ) i| ≤ |s 0 i| := by cases a <;> simp
    have k2 : |(if b then s 1 else 0 : Fin 3 → ℤ) i| ≤ |s 1 i| := by cases b <;> simp
    have k3 : |(if d then s 2 else 0 : Fin 3 → ℤ) i| ≤ |s 2 i| := by cases d <;> simp
    simp only [Pi.add_apply]
    refine (abs_add_le _ _).trans ?_
    refine (add_le_add_right ((abs_add_le _ _).trans (add_le_add_left (abs_add_le _ _) _)) _).trans ?_
    linarith
  have key : ∀ (x a b d y a' b' d' : Bool),
      vadd (gridPt F e ((if x then o else 0) + ((if a then s 0 else 0) + (if b then s 1 else 0) + (if d then s 2 else 0))))
        (gridPt F e ((if y then o else 0) + ((if a' then s 0 else 0) + (if b' then s 1 else 0) + (if d' then s 2 else 0)))) =
      gridPt F e (((if x then o else 0) + ((if a then s 0 else 0) + (if b then s 1 else 0) + (if d then s 2 else 0))) +
        ((if y then o else 0) + ((if a' then s 0 else 0) + (if b' then s 1 else 0) + (if d' then s 2 else 0)))) :=
    fun x a b d y a' b' d' => gridPt_add (bound x a b d) (bound y a' b' d') he
  set P : Bool → Bool → Bool → Bool → Vec (Fl F) 3 := fun x a b d =>
    gridPt F e ((if x then o else 0) + ((if a then s 0 else 0) + (if b then s 1 else 0) + (if d then s 2 else 0))) with hP
  have fO : gridPt F e o = P true false false false := by simp [hP]
  have fX : gridPt F e (s 0) = P false true false false := by simp [hP]
  have fY : gridPt F e (s 1) = P false false true false := by simp [hP]
  have fZ : gridPt F e (s 2) = P false false false true := by simp [hP]
  have f0 : gridPt F e 0 = P false false false false := by simp [hP]
  have step : ∀ (x a b d y a' b' d' : Bool), (x && y) = false → (a && a') = false → (b && b') = false → (d && d') = false →
      vadd (P x a b d) (P y a' b' d') = P (x || y) (a || a') (b || b') (d || d') := by
    intro x a b d y a' b' d' h1 h2 h3 h4
    rw [hP]
    simp only
    rw [key]
    congr 1
    cases x <;> cases y <;> cases a <;> cases a' <;> cases b <;> cases b' <;> cases d <;> cases d' <;> simp at h1 h2 h3 h4 ⊢ <;> abel
  have hG : ∀ a b d : Bool, gridPt F e (o + ∑ k, if (![a, b, d] : Fin 3 → Bool) k then s k else 0) = P true a b d := by
    intro a b d
    simp only [hP, Fin.sum_univ_three, if_true]
    rfl
  simp only [cuboidTriangles, cuboidFaceTriangles, cubeTris, List.map_cons, List.map_nil, mapTriangle, hG, eo, es, ez, fO, fX, fY, fZ, f0,
    step, Bool.and_false, Bool.or_false, Bool.or_true, Bool.or_self, Bool.and_self, Bool.and_true, List.cons_append, List.nil_append]
end

section
variable {F : FloatFormat} [BEq (Vec (Fl F) 3)] [LawfulBEq (Vec (Fl F) 3)]

/-- The corners of a cuboid on a grid are exact, and different corners are not confused. -/
theorem cuboid_grid_facts (c : Cuboid (Fl F)) {e : ℤ} {o : Fin 3 → ℤ} {s : Fin 3 → Fin 3 → ℤ} (he : ∀ k, F.emin = some k → (k + 1) / 2 ≤ e)
    (ho : ∀ i, (c.origin i).1 = o i * 2 ^ e) (hs : ∀ k i, (c.sides k i).1 = s k i * 2 ^ e)
    (hb : ∀ i, |o i| + |s 0 i| + |s 1 i| + |s 2 i| ≤ 2 ^ F.prec) :
    (∀ a, Fl.toReal (gridPt F e (o + ∑ k, if a k then s k else 0)) = corner (Fl.toReal c.origin) (fun k => Fl.toReal (c.sides k)) a) ∧
    Apart (corners (cuboidTriangles c)) := by
  have he' : ∀ k, F.emin = some k → k ≤ e := fun k hk => by
    have := he k hk
    have := F.emin_le k hk
    omega
  have htr := cuboidTriangles_grid c he' ho hs hb
  set N : (Fin 3 → Bool) → Fin 3 → ℤ := fun a => o + ∑ k, if a k then s k else 0 with hN
  set G : (Fin 3 → Bool) → Vec (Fl F) 3 := fun a => gridPt F e (N a) with hG
  have hbound : ∀ a i, |N a i| ≤ 2 ^ F.prec := by
    intro a i
    refine le_trans ?_ (hb i)
    have h1 : ∀ k, |(if a k then s k else 0 : Fin 3 → ℤ) i| ≤ |s k i| := fun k => by cases a k <;> simp
    simp only [hN, Pi.add_apply, Fin.sum_univ_three]
    have t1 := abs_add_le (o i) ((if a 0 then s 0 else 0 : Fin 3 → ℤ) i + (if a 1 then s 1 else 0 : Fin 3 → ℤ) i + (if a 2 then s 2 else 0 : Fin 3 → ℤ) i)
    have t2 := abs_add_three ((if a 0 then s 0 else 0 : Fin 3 → ℤ) i) ((if a 1 then s 1 else 0 : Fin 3 → ℤ) i) ((if a 2 then s 2 else 0 : Fin 3 → ℤ) i)
    linarith [h1 0, h1 1, h1 2]
  have hval : ∀ a i, (G a i).1 = N a i * (2 : ℝ) ^ e := fun a i => gridPt_val (hbound a) he' i
  have hreal : ∀ a, Fl.toReal (G a) = corner (Fl.toReal c.origin) (fun k => Fl.toReal (c.sides k)) a := by
    intro a
    funext i
    show (G a i).1 = _
    rw [hval, corner_eq]
    simp only [hN, Pi.add_apply, Fin.sum_univ_three, Pi.smul_apply, smul_eq_mul]
    simp only [Fl.toReal, ho, hs]
    cases a 0 <;> cases a 1 <;> cases a 2 <;> simp <;> ring
  refine ⟨hreal, ?_⟩
  apply apart_fl
  intro u hu v hv hne
  rw [htr, corners_map, List.mem_map] at hu hv
  obtain ⟨x, _, rfl⟩ := hu
  obtain ⟨y, _, rfl⟩ := hv
  obtain ⟨i, hi⟩ := Function.ne_iff.1 hne
  have hNi : N x i ≠ N y i := fun h => hi (Fl.ext (by rw [hval, hval, h]))
  have hp := two_zpow_pos e
  refine ⟨i, ?_, fun k hk => ?_⟩
  · rw [hval, hval]
    intro h
    exact hNi (by exact_mod_cast mul_right_cancel₀ hp.ne' h)
  · rw [hval, hval, ← sub_mul, abs_mul, abs_of_pos hp]
    have h1 : (1 : ℝ) ≤ |(N x i : ℝ) - N y i| := by
      exact_mod_cast Int.one_le_abs (sub_ne_zero.2 hNi)
    calc (2 : ℝ) ^ ((k + 1) / 2) ≤ 2 ^ e := zpow_le_zpow_right₀ (by norm_num) (he k hk)
      _ ≤ _ := by nlinarith

/-- **C93** A cuboid with arbitrary linearly independent sides, if the coordinates of origin and sides are integer multiples of one power
of two and the sums of their absolute values are at most `2^prec` times this unit (`2^53` for `double`): the builder succeeds, in debug builds too; the mesh is
closed and consistently oriented, its vertices are exactly the eight corners, and it has 18 edges and 12 triangles.
The unit has to be `2^-537` at least for `double`, `2^-74` for `float`.  Missing: oblique cuboids off the grid, see `C93_counterexample`. -/
theorem C93_grid_partial (dbg : Bool) (M w : Nat) (b : CuboidBuilder (Fl F)) (hM : 36 < M) (c : Cuboid (Fl F)) (hc : b.cube = some c)
    (e : ℤ) (o : Fin 3 → ℤ) (s : Fin 3 → Fin 3 → ℤ) (he : ∀ k, F.emin = some k → (k + 1) / 2 ≤ e)
    (ho : ∀ i, (c.origin i).1 = o i * (2 : ℝ) ^ e) (hs : ∀ k i, (c.sides k i).1 = s k i * (2 : ℝ) ^ e)
    (hb : ∀ i, |o i| + |s 0 i| + |s 1 i| + |s 2 i| ≤ 2 ^ F.prec) (hi : LinearIndependent ℝ fun k => Fl.toReal (c.sides k)) :
    ∃ m b', b.build dbg M w = .ok (m, b') ∧ ClosedMesh m ∧
      (m.points.map Fl.toReal).Perm (edgeChoices.map (corner (Fl.toReal c.origin) fun k => Fl.toReal (c.sides k))) ∧
      m.vertices.length = 8 ∧ m.facets.length = 12 ∧
      ∀ MU, 8 ≤ MU → ∃ l, calcLineIndices dbg MU m = .ok l ∧ l.length = 2 * 18 := by
  have he' : ∀ k, F.emin = some k → k ≤ e := fun k hk => by
    have := he k hk
    have := F.emin_le k hk
    omega
  have hcub : b.theCuboid = c := by unfold CuboidBuilder.theCuboid; rw [hc]; rfl
  have hM' : 3 * (cuboidTriangles b.theCuboid).length < M := by rw [cuboidTriangles_length]; omega
  have htr := cuboidTriangles_grid c he' ho hs hb
  rw [← hcub] at htr
  set G : (Fin 3 → Bool) → Vec (Fl F) 3 := fun a => gridPt F e (o + ∑ k, if a k then s k else 0) with hG
  obtain ⟨hreal, hts⟩ := cuboid_grid_facts c he ho hs hb
  change ∀ a, Fl.toReal (G a) = _ at hreal
  rw [← hcub] at hts
  have hinjR : ∀ x y, corner (Fl.toReal c.origin) (fun k => Fl.toReal (c.sides k)) x = corner (Fl.toReal c.origin) (fun k => Fl.toReal (c.sides k)) y → x = y := by
    have := (C68_corners ⟨Fl.toReal c.origin, fun k => Fl.toReal (c.sides k)⟩).nodup_iff.1 (C68_distinct ⟨Fl.toReal c.origin, fun k => Fl.toReal (c.sides k)⟩ hi).1
    rw [List.nodup_map_iff_inj_on (by decide +kernel)] at this
    exact fun x y h => this x (C68_all_choices x) y (C68_all_choices y) h
  have hinj : ∀ x y, G x = G y → x = y := fun x y h => hinjR x y (by rw [← hreal, ← hreal, h])
  obtain ⟨m, hm, hb', hh, hf, hv, hbuild⟩ := cuboid_build dbg M w b hM hts
  have hnd : (edgeChoices.map G).Nodup := (List.nodup_map_iff_inj_on (by decide +kernel)).2 fun x _ y _ h => hinj x y h
  have hperm := points_perm dbg M _ hM' m hb' _ hnd (by
    intro v
    rw [htr, corners_map, List.mem_map, List.mem_map]
    exact ⟨fun ⟨a, _, h⟩ => ⟨a, cubeTris_corners a, h⟩, fun ⟨a, _, h⟩ => ⟨a, C68_all_choices a, h⟩⟩)
  have h8 : m.points.length = 8 := hperm.length_eq
  have hco : ClosedOriented (cuboidTriangles b.theCuboid) := by
    rw [htr]
    exact cubeTris_closed.mapOn fun x _ y _ h => hinj x y h
  have hl : ∀ x y, (x, y) ∈ directedEdges (cuboidTriangles b.theCuboid) → x ≠ y := by
    intro x y hxy
    rw [htr, directedEdges_map, List.mem_map] at hxy
    obtain ⟨⟨u, v⟩, huv, e⟩ := hxy
    simp only [Prod.map_apply, Prod.mk.injEq] at e
    obtain ⟨rfl, rfl⟩ := e
    exact fun e => cubeTris_loops u v huv (hinj u v e)
  refine ⟨m, _, by rw [hbuild, if_neg (by simp [h8])], closedMesh_of dbg M w _ hM' hco hl m hm hts, ?_, by rw [hv, h8], hf, ?_⟩
  · have := hperm.map Fl.toReal
    rw [List.map_map] at this
    rwa [show Fl.toReal ∘ G = corner (Fl.toReal c.origin) (fun k => Fl.toReal (c.sides k)) from funext hreal] at this
  · intro MU hU
    obtain ⟨l, h1, h2⟩ := line_count dbg M MU _ hM' hco hl m hb' (by omega)
    exact ⟨l, h1, by rw [h2, cuboidTriangles_length]⟩
end

/-! ### Concrete cases -/
section Examples
open Classical

/-- A cuboid in `double` with the sides (1, 2, 3), (0, 1, 4) and (5, 6, 0), which are oblique. -/
example : ∃ m b', CuboidBuilder.build true (2 ^ 64) 64
    (⟨some ⟨p64 7 8 9, ![p64 1 2 3, p64 0 1 4, p64 5 6 0]⟩, p64 0 0 0, p64 0 0 0⟩ : CuboidBuilder (Fl binary64)) = .ok (m, b') ∧
    ClosedMesh m ∧ m.vertices.length = 8 := by
  have key := C93_grid_partial true (2 ^ 64) 64
    (⟨some ⟨p64 7 8 9, ![p64 1 2 3, p64 0 1 4, p64 5 6 0]⟩, p64 0 0 0, p64 0 0 0⟩ : CuboidBuilder (Fl binary64)) (by norm_num) _ rfl 0
    ![7, 8, 9] ![![1, 2, 3], ![0, 1, 4], ![5, 6, 0]] (fun k hk => by cases hk; norm_num)
    (fun i => by fin_cases i <;> simp [p64, fl64]) (fun k i => by fin_cases k <;> fin_cases i <;> simp [p64, fl64])
    (fun i => by show _ ≤ (2 : ℤ) ^ 53; fin_cases i <;> simp) ?_
  · obtain ⟨m, b', h1, h2, _, h3, _⟩ := key
    exact ⟨m, b', h1, h2, h3⟩
  · rw [Fintype.linearIndependent_iff]
    intro g hg
    have k0 := congrFun hg 0
    have k1 := congrFun hg 1
    have k2 := congrFun hg 2
    simp [Fin.sum_univ_three, Fl.toReal, p64, fl64] at k0 k1 k2
    intro i
    fin_cases i <;> simp <;> linarith
end Examples
end Verif
