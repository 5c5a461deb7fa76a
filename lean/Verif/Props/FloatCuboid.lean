import Verif.Props.FloatMesh
import Verif.Props.CuboidMesh

set_option linter.unusedSectionVars false

/-
C93: the meshes of cuboids in floating point arithmetic.
-/
namespace Verif
open Spec

/-- In a closed mesh every directed edge of the triangles also runs the other way. -/
theorem closedMesh_reverse {T : Type} [LinearOrder T] [Zero T] [Add T] [Sub T] [Mul T] [Neg T] [HasSqrt T] [StoredSound T 3]
    [BEq (Vec T 3)] [LawfulBEq (Vec T 3)] (dbg : Bool) (M w : Nat) (ts : List (Vec T 3 × Vec T 3 × Vec T 3))
    (hM : 3 * ts.length < M) (m : HalfedgeMesh (Vec T 3)) (hm : buildMesh dbg M w ts = .ok m)
    (hts : Apart (corners ts)) (hc : ClosedMesh m) {a b : Vec T 3} (hab : (a, b) ∈ directedEdges ts) :
    (b, a) ∈ directedEdges ts := by
  rw [buildMesh_eq dbg M w ts hM hts, Except.ok.injEq] at hm
  subst hm
  revert hc
  generalize oppFinal ts (fun _ => M - 1) = o
  intro hc
  have hmem : ∀ h, h ∈ (tsMesh ts o).halfedges ↔ ∃ k < 3 * ts.length, heOfO o (weld (corners ts)).2 k = h := by
    intro h
    simp only [meshOfO, List.mem_map, List.mem_range, tsMesh_length]
  obtain ⟨k, hk⟩ := List.mem_iff_getElem?.1 hab
  have hk' : k < 3 * ts.length := by
    rw [← directedEdges_length]; exact (List.getElem?_eq_some_iff.1 hk).1
  obtain ⟨x, y, _, hd, _, h', hh', hd'⟩ := hc _ ((hmem _).2 ⟨k, hk', rfl⟩)
  rw [directedEdgeOf_get ts o hk', hk, Option.some.injEq, Prod.mk.injEq] at hd
  obtain ⟨rfl, rfl⟩ := hd
  obtain ⟨j, hj, rfl⟩ := (hmem h').1 hh'
  rw [directedEdgeOf_get ts o hj] at hd'
  exact List.mem_of_getElem? hd'

namespace Fl
variable {F : FloatFormat}

/-- The sides of a cuboid given by its diagonal are exact. -/
theorem ofDiagonal_sides (o d : Vec (Fl F) 3) (i j : Fin 3) : (Cuboid.ofDiagonal o d).sides i j = if j = i then d i else 0 := by
  unfold Cuboid.ofDiagonal
  dsimp only
  unfold projection vscale
  rw [dot_three, dot_three]
  fin_cases i <;> fin_cases j <;>
    simp [unitVector, mul_one', one_mul', mul_zero', zero_mul', add_zero', zero_add', div_one']

/-- The corner of an axis-parallel box chosen by `a`. -/
def boxCorner (o d : Vec (Fl F) 3) (a : Fin 3 → Bool) : Vec (Fl F) 3 := fun i => if a i then o i + d i else o i

theorem cuboidTriangles_box (o d : Vec (Fl F) 3) :
    cuboidTriangles (Cuboid.ofDiagonal o d) = cubeTris.map (mapTriangle (boxCorner o d)) := by
  have ho : (Cuboid.ofDiagonal o d).origin = o := rfl
  have e : ∀ u v : Vec (Fl F) 3, (∀ i, u i = v i) ↔ u = v := fun u v => funext_iff.symm
  simp only [cuboidTriangles, cuboidFaceTriangles, cubeTris, List.map_cons, List.map_nil, mapTriangle, ho,
    List.cons_append, List.nil_append, List.cons.injEq, Prod.mk.injEq, and_true]
  simp only [← e, Fin.forall_fin_succ, vadd, ofDiagonal_sides, boxCorner]
  simp [vec3, add_zero', zero_add', add_comm']
end Fl

section
variable {F : FloatFormat} [BEq (Vec (Fl F) 3)] [LawfulBEq (Vec (Fl F) 3)]

/-- Different corners of a box are resolved if the ends of the sides are. -/
theorem Fl.boxCorner_resolved {o d : Vec (Fl F) 3} (h : ∀ i, o i + d i = o i ∨ Resolved F.emin (o i + d i).1 (o i).1)
    (a b : Fin 3 → Bool) (hab : Fl.boxCorner o d a ≠ Fl.boxCorner o d b) :
    ∃ i, Resolved F.emin (Fl.boxCorner o d a i).1 (Fl.boxCorner o d b i).1 := by
  obtain ⟨i, hi⟩ := Function.ne_iff.1 hab
  refine ⟨i, ?_⟩
  unfold Fl.boxCorner at hi ⊢
  rcases h i with h0 | h0
  · exfalso
    rw [h0] at hi
    simp at hi
  · cases ha : a i <;> cases hb : b i <;> simp only [ha, hb, if_true, if_false, Bool.false_eq_true, ne_eq, not_true] at hi ⊢
    · exact ⟨h0.1.symm, fun k hk => by rw [abs_sub_comm]; exact h0.2 k hk⟩
    · exact h0

/-- **C93** A box given by origin and diagonal: if the computed far end of every side differs from its near end (by `2^-537` in
`double`, `2^-74` in `float`), the builder succeeds, in debug builds too; the mesh is closed and consistently oriented, its vertices are the eight
corners, the coordinates of which are computed from the same sums on every face, and it has 18 edges and 12 triangles.
Missing: cuboids with oblique sides, see `C93_counterexample`. -/
theorem C93_box_partial (dbg : Bool) (M w : Nat) (b : CuboidBuilder (Fl F)) (hM : 36 < M) (hb : b.cube = none)
    (hr : ∀ i, Resolved F.emin (b.origin i + b.diagonal i).1 (b.origin i).1) :
    ∃ m b', b.build dbg M w = .ok (m, b') ∧ ClosedMesh m ∧
      m.points.Perm (edgeChoices.map fun a i => if a i then b.origin i + b.diagonal i else b.origin i) ∧
      m.vertices.length = 8 ∧ m.facets.length = 12 ∧
      ∀ MU, 8 ≤ MU → ∃ l, calcLineIndices dbg MU m = .ok l ∧ l.length = 2 * 18 := by
  have hcub : b.theCuboid = Cuboid.ofDiagonal b.origin b.diagonal := by unfold CuboidBuilder.theCuboid; rw [hb]; rfl
  have hM' : 3 * (cuboidTriangles b.theCuboid).length < M := by rw [cuboidTriangles_length]; omega
  have htr := Fl.cuboidTriangles_box b.origin b.diagonal
  rw [← hcub] at htr
  have hts : Apart (corners (cuboidTriangles b.theCuboid)) := by
    apply apart_fl
    intro u hu v hv
    rw [htr, corners_map, List.mem_map] at hu hv
    obtain ⟨x, _, rfl⟩ := hu
    obtain ⟨y, _, rfl⟩ := hv
    exact Fl.boxCorner_resolved (fun i => .inr (hr i)) x y
  obtain ⟨m, hm, hb', hh, hf, hv, he⟩ := cuboid_build dbg M w b hM hts
  have hne : ∀ i, b.origin i + b.diagonal i ≠ b.origin i := fun i e => (hr i).1 (congrArg Subtype.val e)
  have hinj : ∀ x y, Fl.boxCorner b.origin b.diagonal x = Fl.boxCorner b.origin b.diagonal y → x = y := by
    intro x y h
    funext i
    have hi := congrFun h i
    unfold Fl.boxCorner at hi
    cases hx : x i <;> cases hy : y i <;> simp only [hx, hy, if_true, if_false, Bool.false_eq_true] at hi ⊢
    · exact absurd hi.symm (hne i)
    · exact absurd hi (hne i)
  have hnd : (edgeChoices.map (Fl.boxCorner b.origin b.diagonal)).Nodup :=
    (List.nodup_map_iff_inj_on (by decide +kernel)).2 fun x _ y _ h => hinj x y h
  have hperm := points_perm dbg M _ hM' m hb' _ hnd (by
    intro v
    rw [htr, corners_map, List.mem_map, List.mem_map]
    exact ⟨fun ⟨a, _, h⟩ => ⟨a, cubeTris_corners a, h⟩, fun ⟨a, _, h⟩ => ⟨a, C68_all_choices a, h⟩⟩)
  have h8 : m.points.length = 8 := hperm.length_eq
  have hc : ClosedOriented (cuboidTriangles b.theCuboid) := by
    rw [htr]
    exact cubeTris_closed.mapOn fun x _ y _ h => hinj x y h
  have hl : ∀ x y, (x, y) ∈ directedEdges (cuboidTriangles b.theCuboid) → x ≠ y := by
    intro x y hxy
    rw [htr, directedEdges_map, List.mem_map] at hxy
    obtain ⟨⟨u, v⟩, huv, e⟩ := hxy
    simp only [Prod.map_apply, Prod.mk.injEq] at e
    obtain ⟨rfl, rfl⟩ := e
    exact fun e => cubeTris_loops u v huv (hinj u v e)
  refine ⟨m, _, by rw [he, if_neg (by simp [h8])], closedMesh_of dbg M w _ hM' hc hl m hm hts, hperm, by rw [hv, h8], hf, ?_⟩
  intro MU hU
  obtain ⟨l, h1, h2⟩ := line_count dbg M MU _ hM' hc hl m hb' (by omega)
  exact ⟨l, h1, by rw [h2, cuboidTriangles_length]⟩

/-- **C93** (the condition is needed) If the origin swallows one side of the diagonal – it may well be different from zero – the
assertion on the number of vertices fails in debug builds. -/
theorem C93_box_absorbed (M w : Nat) (b : CuboidBuilder (Fl F)) (hM : 36 < M) (hb : b.cube = none)
    (hr : ∀ i, b.origin i + b.diagonal i = b.origin i ∨ Resolved F.emin (b.origin i + b.diagonal i).1 (b.origin i).1)
    (i : Fin 3) (hi : b.origin i + b.diagonal i = b.origin i) : b.build true M w = .error .assertFailed := by
  have hcub : b.theCuboid = Cuboid.ofDiagonal b.origin b.diagonal := by unfold CuboidBuilder.theCuboid; rw [hb]; rfl
  have hM' : 3 * (cuboidTriangles b.theCuboid).length < M := by rw [cuboidTriangles_length]; omega
  have htr := Fl.cuboidTriangles_box b.origin b.diagonal
  rw [← hcub] at htr
  have hts : Apart (corners (cuboidTriangles b.theCuboid)) := by
    apply apart_fl
    intro u hu v hv
    rw [htr, corners_map, List.mem_map] at hu hv
    obtain ⟨x, _, rfl⟩ := hu
    obtain ⟨y, _, rfl⟩ := hv
    exact Fl.boxCorner_resolved hr x y
  obtain ⟨m, hm, hb', hh, hf, hv, he⟩ := cuboid_build true M w b hM hts
  have h8 : m.points.length ≠ 8 := by
    classical
    have hperm := points_perm true M _ hM' m hb' _ (List.nodup_dedup (edgeChoices.map (Fl.boxCorner b.origin b.diagonal))) (by
      intro v
      rw [List.mem_dedup, htr, corners_map, List.mem_map, List.mem_map]
      exact ⟨fun ⟨a, _, h⟩ => ⟨a, cubeTris_corners a, h⟩, fun ⟨a, _, h⟩ => ⟨a, C68_all_choices a, h⟩⟩)
    rw [hperm.length_eq]
    intro h8
    have h1 := (List.dedup_sublist (edgeChoices.map (Fl.boxCorner b.origin b.diagonal))).eq_of_length (by rw [h8]; rfl)
    have h2 : (edgeChoices.map (Fl.boxCorner b.origin b.diagonal)).Nodup := by rw [← h1]; exact List.nodup_dedup _
    rw [List.nodup_map_iff_inj_on (by decide +kernel)] at h2
    have h3 := h2 (fun _ => false) (C68_all_choices _) (fun j => j == i) (C68_all_choices _) (by
      funext j
      unfold Fl.boxCorner
      by_cases h : j = i
      · subst h; simp [hi]
      · simp [h])
    have := congrFun h3 i
    simp at this
  rw [he, if_pos ⟨rfl, h8⟩]
end

/-! ### Oblique sides -/

/-- The twelve triangles if the corner opposite to the origin is computed as `8` on one face and as `7` on the others. -/
def splitTris : List (Fin 9 × Fin 9 × Fin 9) :=
  [(0, 3, 6), (6, 2, 0), (8, 5, 1), (1, 4, 8),
   (0, 1, 5), (5, 3, 0), (7, 4, 2), (2, 6, 7),
   (0, 2, 4), (4, 1, 0), (7, 6, 3), (3, 5, 7)]

theorem splitTris_corners (a : Fin 9) : a ∈ corners splitTris := by
  revert a; decide +kernel

theorem split_distinct {B : ℝ} (hB : 16 ≤ B) (i j : Fin 9)
    (h0 : (![0, B, 3, 3, B, B, 6, B, B + 8] : Fin 9 → ℝ) i = (![0, B, 3, 3, B, B, 6, B, B + 8] : Fin 9 → ℝ) j)
    (h1 : (![0, 0, 1, 0, 1, 0, 1, 1, 1] : Fin 9 → ℝ) i = (![0, 0, 1, 0, 1, 0, 1, 1, 1] : Fin 9 → ℝ) j)
    (h2 : (![0, 0, 0, 1, 0, 1, 1, 1, 1] : Fin 9 → ℝ) i = (![0, 0, 0, 1, 0, 1, 1, 1, 1] : Fin 9 → ℝ) j) : i = j := by
  have hB0 : B ≠ 0 := by linarith
  have hB6 : B ≠ 6 := by linarith
  have hB3 : B ≠ 3 := by linarith
  have hC6 : B + 8 ≠ 6 := by linarith
  fin_cases i <;> fin_cases j <;> first | rfl | (exfalso; revert h0 h1 h2; simp [hB0, hB6, hB3, hC6, hB0.symm, hB6.symm, hB3.symm, hC6.symm])

/-- Next to `2^(p+2)` the numbers are multiples of eight. -/
theorem _root_.Verif.Spec.Rounds.near_eight {p : ℕ} (hp : 1 < p) {emin : Option ℤ} {rnd : ℝ → ℝ} (h : Rounds p emin rnd)
    (he : ∀ k, emin = some k → k ≤ 0) {y : ℝ} {j : ℤ} (hj : j = 0 ∨ j = 1) (hy : |8 * j - y| < 4) (hy0 : 0 ≤ y) :
    rnd (2 ^ (p + 2) + y) = 2 ^ (p + 2) + 8 * j := by
  have hB : Representable p emin ((2 : ℝ) ^ (p + 2)) := by
    have := representable_two_pow (p := p) (emin := emin) hp (e := ((p + 2 : ℕ) : ℤ)) (by
      intro k hk; have := he k hk; push_cast; omega)
    rwa [zpow_natCast] at this
  have hrep : Representable p emin ((2 : ℝ) ^ (p + 2) + 8 * j) := by
    obtain ⟨q, rfl⟩ : ∃ q, p = q + 2 := ⟨p - 2, by omega⟩
    have h1 : (1 : ℤ) ≤ 2 ^ q := one_le_pow₀ (by norm_num)
    refine ⟨2 ^ (q + 1) + j, 3, ?_, fun k hk => (he k hk).trans (by norm_num), ?_⟩
    · have e1 : (2 : ℤ) ^ (q + 2) = 4 * 2 ^ q := by ring
      have e2 : (2 : ℤ) ^ (q + 1) = 2 * 2 ^ q := by ring
      rw [abs_of_nonneg (by rcases hj with rfl | rfl <;> omega)]
      rcases hj with rfl | rfl <;> omega
    · push_cast; norm_num; ring
  have hn := h.nearest (2 ^ (p + 2) + y) _ hrep
  rw [show (2 : ℝ) ^ (p + 2) + 8 * j - (2 ^ (p + 2) + y) = 8 * j - y by ring] at hn
  have hge : (2 : ℝ) ^ (p + 2) ≤ rnd (2 ^ (p + 2) + y) := h.le_of hB (by linarith)
  obtain ⟨n, hn'⟩ := (h.mem _).multiple 2 hge
  rw [hn'] at hn ⊢
  have e3 : (2 : ℝ) ^ (p + 2) = ((2 ^ p : ℤ) : ℝ) * 4 := by push_cast; ring
  obtain ⟨q, rfl⟩ : ∃ q, p = q + 1 := ⟨p - 1, by omega⟩
  have e4 : (2 : ℝ) ^ (q + 1 + 2) = ((2 ^ q : ℤ) : ℝ) * 8 := by push_cast; ring
  rw [e4] at hn ⊢
  obtain ⟨a1, a2⟩ := abs_le.1 (hn.trans hy.le)
  obtain ⟨b1, b2⟩ := abs_lt.1 hy
  have hlt := hn.trans_lt hy
  obtain ⟨a1, a2⟩ := abs_lt.1 hlt
  norm_num at a1 a2 ⊢
  have c1 : ((n - 2 ^ q - j : ℤ) : ℝ) < 1 := by push_cast; linarith
  have c2 : (-1 : ℝ) < ((n - 2 ^ q - j : ℤ) : ℝ) := by push_cast; linarith
  have d1 : n - 2 ^ q - j < 1 := by exact_mod_cast c1
  have d2 : -1 < n - 2 ^ q - j := by exact_mod_cast c2
  have : n = 2 ^ q + j := by omega
  rw [this]; push_cast; ring

/-- **C93** (false for oblique sides) In every format (`float` and `double` included) there is a cuboid with linearly independent
sides for which the corner opposite to the origin is computed as two different points, on different faces.  In debug
builds an assertion fails; in release builds the mesh has nine vertices and is not closed. -/
theorem C93_counterexample (F : FloatFormat) (M w : Nat) (hM : 36 < M)
    [BEq (Vec (Fl F) 3)] [LawfulBEq (Vec (Fl F) 3)] :
    ∃ b : CuboidBuilder (Fl F), (∃ c, b.cube = some c ∧ LinearIndependent ℝ fun i => Fl.toReal (c.sides i)) ∧
      b.build true M w = .error .assertFailed ∧
      ∃ m b', b.build false M w = .ok (m, b') ∧ m.vertices.length = 9 ∧ ¬ ClosedMesh m := by
  have hp := F.one_lt_prec
  have hint : ∀ n : ℤ, ∀ e : ℤ, 0 ≤ e → |n| < 4 → Representable F.prec F.emin (n * (2 : ℝ) ^ e) := by
    intro n e he hn
    refine ⟨n, e, hn.trans_le ?_, fun k hk => (F.emin_le k hk).trans he, rfl⟩
    calc (4 : ℤ) = 2 ^ 2 := by norm_num
      _ ≤ 2 ^ F.prec := pow_le_pow_right₀ (by norm_num) hp
  have r3 : Representable F.prec F.emin 3 := by simpa using hint 3 0 le_rfl (by norm_num)
  have r6 : Representable F.prec F.emin 6 := by
    have := hint 3 1 (by norm_num) (by norm_num); norm_num at this; exact this
  have rB : Representable F.prec F.emin (2 ^ (F.prec + 2)) := by
    have := representable_two_pow (p := F.prec) (emin := F.emin) hp (e := ((F.prec + 2 : ℕ) : ℤ)) (by
      intro k hk; have := F.emin_le k hk; push_cast; omega)
    rwa [zpow_natCast] at this
  have hB3 : F.rnd (2 ^ (F.prec + 2) + 3) = 2 ^ (F.prec + 2) := by
    have := F.rounds.near_eight hp F.emin_le (y := 3) (j := 0) (.inl rfl) (by norm_num) (by norm_num)
    simpa using this
  have hB6 : F.rnd (2 ^ (F.prec + 2) + 6) = 2 ^ (F.prec + 2) + 8 := by
    have := F.rounds.near_eight hp F.emin_le (y := 6) (j := 1) (.inr rfl) (by norm_num) (by norm_num)
    simpa using this
  have rC : Representable F.prec F.emin (2 ^ (F.prec + 2) + 8) := by rw [← hB6]; exact F.rounds.mem _
  set x3 : Fl F := ⟨3, r3⟩ with hx3
  set x6 : Fl F := ⟨6, r6⟩ with hx6
  set xB : Fl F := ⟨2 ^ (F.prec + 2), rB⟩ with hxB
  set xC : Fl F := ⟨2 ^ (F.prec + 2) + 8, rC⟩ with hxC
  have s1 : x3 + x3 = x6 := Fl.ext (by
    show F.rnd (3 + 3) = 6
    rw [show (3 : ℝ) + 3 = 6 by norm_num]; exact F.rounds.exact r6)
  have s2 : xB + x3 = xB := Fl.ext hB3
  have s3 : x3 + xB = xB := by rw [Fl.add_comm', s2]
  have s5 : x6 + xB = xC := by rw [Fl.add_comm']; exact Fl.ext hB6
  have hBpos : (16 : ℝ) ≤ 2 ^ (F.prec + 2) := by
    calc (16 : ℝ) = 2 ^ 4 := by norm_num
      _ ≤ 2 ^ (F.prec + 2) := pow_le_pow_right₀ (by norm_num) (by omega)
  set c : Cuboid (Fl F) := ⟨vec3 0 0 0, ![vec3 xB 0 0, vec3 x3 1 0, vec3 x3 0 1]⟩ with hc
  set P : Fin 9 → Vec (Fl F) 3 := ![vec3 0 0 0, vec3 xB 0 0, vec3 x3 1 0, vec3 x3 0 1, vec3 xB 1 0, vec3 xB 0 1, vec3 x6 1 1,
    vec3 xB 1 1, vec3 xC 1 1] with hP
  have htr : cuboidTriangles c = splitTris.map (mapTriangle P) := by
    have e : ∀ u v : Vec (Fl F) 3, (∀ i, u i = v i) ↔ u = v := fun u v => funext_iff.symm
    simp only [cuboidTriangles, cuboidFaceTriangles, splitTris, List.map_cons, List.map_nil, mapTriangle,
      List.cons_append, List.nil_append, List.cons.injEq, Prod.mk.injEq, and_true]
    simp only [← e, Fin.forall_fin_succ, vadd]
    simp [hc, hP, vec3, Fl.add_zero', Fl.zero_add', s1, s2, s3, s5]
  have hint : ∀ i j, ∃ n : ℤ, (P i j).1 = n := by
    have g0 : ∃ n : ℤ, (0 : Fl F).1 = n := ⟨0, by simp⟩
    have g1 : ∃ n : ℤ, (1 : Fl F).1 = n := ⟨1, by simp⟩
    have g3 : ∃ n : ℤ, x3.1 = n := ⟨3, by simp [hx3]⟩
    have g6 : ∃ n : ℤ, x6.1 = n := ⟨6, by simp [hx6]⟩
    have gB : ∃ n : ℤ, xB.1 = n := ⟨2 ^ (F.prec + 2), by simp [hxB]⟩
    have gC : ∃ n : ℤ, xC.1 = n := ⟨2 ^ (F.prec + 2) + 8, by simp [hxC]⟩
    intro i j
    fin_cases i <;> fin_cases j <;> assumption
  have hinj : Function.Injective P := by
    intro i j h
    refine split_distinct hBpos i j ?_ ?_ ?_
    · have := congrArg Subtype.val (congrFun h 0)
      fin_cases i <;> fin_cases j <;> exact this
    · have := congrArg Subtype.val (congrFun h 1)
      fin_cases i <;> fin_cases j <;> exact this
    · have := congrArg Subtype.val (congrFun h 2)
      fin_cases i <;> fin_cases j <;> exact this
  set b : CuboidBuilder (Fl F) := ⟨some c, vec3 0 0 0, vec3 0 0 0⟩ with hb
  have hcub : b.theCuboid = c := rfl
  have hM' : 3 * (cuboidTriangles c).length < M := by rw [cuboidTriangles_length]; omega
  have hts : Apart (corners (cuboidTriangles c)) := by
    apply apart_fl
    intro u hu v hv hne
    rw [htr, corners_map, List.mem_map] at hu hv
    obtain ⟨x, _, rfl⟩ := hu
    obtain ⟨y, _, rfl⟩ := hv
    obtain ⟨i, hi⟩ := Function.ne_iff.1 hne
    obtain ⟨m, hm⟩ := hint x i
    obtain ⟨n, hn⟩ := hint y i
    refine ⟨i, ?_⟩
    rw [hm, hn]
    exact resolved_int F fun e => hi (Fl.ext (by rw [hm, hn, e]))
  have hnd : ((List.finRange 9).map P).Nodup := (List.nodup_finRange 9).map hinj
  have h9 : ∀ dbg m, BuiltFrom dbg M (cuboidTriangles c) m → m.points.length = 9 := by
    intro dbg m hbf
    have hperm := points_perm dbg M _ hM' m hbf _ hnd (by
      intro v
      rw [htr, corners_map, List.mem_map, List.mem_map]
      exact ⟨fun ⟨a, _, h⟩ => ⟨a, splitTris_corners a, h⟩, fun ⟨a, _, h⟩ => ⟨a, List.mem_finRange a, h⟩⟩)
    rw [hperm.length_eq]; simp
  refine ⟨b, ⟨c, rfl, ?_⟩, ?_, ?_⟩
  · rw [Fintype.linearIndependent_iff]
    intro g hg
    have k0 := congrFun hg 0
    have k1 := congrFun hg 1
    have k2 := congrFun hg 2
    simp [Fin.sum_univ_three, Fl.toReal, hc, vec3] at k0 k1 k2
    rw [k1, k2] at k0
    have : (xB.1 : ℝ) ≠ 0 := by show (2 : ℝ) ^ (F.prec + 2) ≠ 0; positivity
    intro i
    fin_cases i
    · simpa [this] using k0
    · exact k1
    · exact k2
  · obtain ⟨m, hm, hbf, hh, hf, hv, he⟩ := cuboid_build true M w b hM hts
    rw [he, if_pos ⟨rfl, by rw [h9 _ m hbf]; norm_num⟩]
  · obtain ⟨m, hm, hbf, hh, hf, hv, he⟩ := cuboid_build false M w b hM hts
    refine ⟨m, _, by rw [he, if_neg (by simp)], by rw [hv, h9 _ m hbf], fun hcl => ?_⟩
    have hmem : (P 8, P 5) ∈ directedEdges (cuboidTriangles c) := by
      rw [htr, directedEdges_map, List.mem_map]
      exact ⟨(8, 5), by decide +kernel, rfl⟩
    have := closedMesh_reverse false M w _ hM' m hm hts hcl hmem
    rw [htr, directedEdges_map, List.mem_map] at this
    obtain ⟨⟨x, y⟩, hxy, e⟩ := this
    simp only [Prod.map_apply, Prod.mk.injEq] at e
    rw [hinj e.1, hinj e.2] at hxy
    revert hxy
    decide +kernel

/-! ### Concrete cases -/
section Examples
open Classical

/-- `float` and `double`. -/
example : ∃ b : CuboidBuilder (Fl binary32), b.build true (2 ^ 32) 64 = .error .assertFailed := by
  obtain ⟨b, _, h, _⟩ := C93_counterexample binary32 (2 ^ 32) 64 (by norm_num)
  exact ⟨b, h⟩

example : ∃ b : CuboidBuilder (Fl binary64), ∃ m b', b.build false (2 ^ 64) 64 = .ok (m, b') ∧ ¬ ClosedMesh m := by
  obtain ⟨b, _, _, m, b', h1, _, h2⟩ := C93_counterexample binary64 (2 ^ 64) 64 (by norm_num)
  exact ⟨b, m, b', h1, h2⟩

theorem fl64_add (m n : ℤ) (hm : |m| < 2 ^ 53) (hn : |n| < 2 ^ 53) (h : |m + n| < 2 ^ 53) :
    fl64 m hm + fl64 n hn = fl64 (m + n) h := by
  apply Fl.ext
  show binary64.rnd ((m : ℝ) + n) = ((m + n : ℤ) : ℝ)
  rw [← Int.cast_add]
  exact binary64.rounds.exact (fl64 (m + n) h).2

/-- The box from (1, 2, 3) to (5, 7, 1) in `double`. -/
example : ∃ m b', CuboidBuilder.build true (2 ^ 64) 64
    (⟨none, ![fl64 1, fl64 2, fl64 3], ![fl64 4, fl64 5, fl64 (-2)]⟩ : CuboidBuilder (Fl binary64)) = .ok (m, b') ∧
    ClosedMesh m ∧ m.vertices.length = 8 := by
  have key := C93_box_partial true (2 ^ 64) 64
    (⟨none, ![fl64 1, fl64 2, fl64 3], ![fl64 4, fl64 5, fl64 (-2)]⟩ : CuboidBuilder (Fl binary64)) (by norm_num) rfl ?_
  · obtain ⟨m, b', h1, h2, _, h3, _⟩ := key
    exact ⟨m, b', h1, h2, h3⟩
  · intro i
    fin_cases i
    · show Resolved _ (fl64 1 + fl64 4).1 (fl64 1).1
      rw [fl64_add _ _ _ _ (by norm_num)]; exact resolved_int _ (by norm_num)
    · show Resolved _ (fl64 2 + fl64 5).1 (fl64 2).1
      rw [fl64_add _ _ _ _ (by norm_num)]; exact resolved_int _ (by norm_num)
    · show Resolved _ (fl64 3 + fl64 (-2)).1 (fl64 3).1
      rw [fl64_add _ _ _ _ (by norm_num)]; exact resolved_int _ (by norm_num)

/-- The unit cube at `2^56`: the sides are swallowed. -/
example : CuboidBuilder.build true (2 ^ 64) 64
    (⟨none, fun _ => Fl.big binary64, fun _ => 1⟩ : CuboidBuilder (Fl binary64)) = .error .assertFailed := by
  have h : Fl.big binary64 + 1 = Fl.big binary64 :=
    Fl.ext (binary64.rounds.absorb binary64.one_lt_prec binary64.emin_le (by simp))
  exact C93_box_absorbed (2 ^ 64) 64 _ (by norm_num) rfl (fun _ => .inl h) 0 h
end Examples
end Verif
