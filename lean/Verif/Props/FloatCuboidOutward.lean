import Verif.Props.FloatCuboidGrid
import Verif.Props.Convex

set_option linter.unusedSectionVars false

/-
C160: the orientation of meshes of cuboids on a grid in floating point arithmetic.
-/
namespace Verif
open Spec Matrix

/-- The corners of a facet, for points of any type. -/
theorem facet_corners_any {V : Type} [BEq V] [LawfulBEq V] [Inhabited V] (dbg : Bool) (M : Nat) (ts : List (V × V × V))
    (hM : 3 * ts.length < M) (m : HalfedgeMesh V) (hb : BuiltFrom dbg M ts m) :
    ∀ f ∈ m.facets, ∃ t ∈ ts, ∃ h0 h1 h2, calcHalfedges m f = .ok [h0, h1, h2] ∧ m.heVector h0 = .ok t.1 ∧
      m.heVector h1 = .ok t.2.1 ∧ m.heVector h2 = .ok t.2.2 := by
  intro f hf
  obtain ⟨k, hk⟩ := List.mem_iff_getElem?.1 hf
  have hfl : m.facets.length = ts.length := by
    obtain ⟨o, rfl⟩ := hb.eq hM
    simp [meshOfO, facetsOf, weld_length, corners_length]
  have hkt : k < ts.length := by rw [← hfl]; exact (List.getElem?_eq_some_iff.1 hk).1
  obtain ⟨f', hes, hf', hh, hidx, hmem⟩ := C45_facet_loop dbg M _ hM m hb k hkt
  rw [vecGet_of_getElem? hk, Except.ok.injEq] at hf'
  subst hf'
  obtain ⟨h0, h1, h2, rfl⟩ : ∃ h0 h1 h2, hes = [h0, h1, h2] := by
    have := congrArg List.length hidx
    match hes, this with
    | [h0, h1, h2], _ => exact ⟨h0, h1, h2, rfl⟩
  simp only [List.map_cons, List.map_nil, List.cons.injEq, and_true] at hidx
  have hcor : ∀ h ∈ [h0, h1, h2], m.heVector h = .ok ((corners ts).getD h.idx default) := by
    intro h hh'
    obtain ⟨j, hj⟩ := List.mem_iff_getElem?.1 (((hmem h).1 hh').1)
    have hj' : j < (corners ts).length := by
      have := (List.getElem?_eq_some_iff.1 hj).1
      rw [corners_length]
      obtain ⟨o, e⟩ := hb.eq hM
      rw [e] at this
      simpa [meshOfO, weld_length, corners_length] using this
    obtain ⟨h', hh1, hh2, hh3⟩ := (C43_vertices dbg M _ hM m hb).2.2.2 j hj'
    rw [vecGet_of_getElem? hj, Except.ok.injEq] at hh1
    subst hh1
    rw [hh3, hh2, List.getD_eq_getElem?_getD, List.getElem?_eq_getElem hj']
    rfl
  have hc0 := corners_getElem? ts k 0 hkt (by decide)
  have hc1 := corners_getElem? ts k 1 hkt (by decide)
  have hc2 := corners_getElem? ts k 2 hkt (by decide)
  refine ⟨ts[k], List.getElem_mem _, h0, h1, h2, hh, ?_, ?_, ?_⟩
  · rw [hcor h0 (by simp), hidx.1, List.getD_eq_getElem?_getD, show 3 * k = 3 * k + 0 from rfl, hc0]; rfl
  · rw [hcor h1 (by simp), hidx.2.1, List.getD_eq_getElem?_getD, hc1]; rfl
  · rw [hcor h2 (by simp), hidx.2.2, List.getD_eq_getElem?_getD, hc2]; rfl

section
variable {F : FloatFormat} [BEq (Vec (Fl F) 3)] [LawfulBEq (Vec (Fl F) 3)]

/-- **C160** The mesh of a cuboid on a grid, as in `C93_grid_partial`, in floating point arithmetic: read with the accessors of the mesh and taken exactly, every facet
is a triangle with three of the corners; if the sides are right-handed it has the centre of the cuboid strictly behind it and no vertex in front of it, and
if they are left-handed it has the centre strictly in front of it and no vertex behind it. -/
theorem C160_facets (dbg : Bool) (M w : Nat) (b : CuboidBuilder (Fl F)) (hM : 36 < M) (c : Cuboid (Fl F)) (hc : b.cube = some c)
    (e : ℤ) (o : Fin 3 → ℤ) (s : Fin 3 → Fin 3 → ℤ) (he : ∀ k, F.emin = some k → (k + 1) / 2 ≤ e)
    (ho : ∀ i, (c.origin i).1 = o i * (2 : ℝ) ^ e) (hs : ∀ k i, (c.sides k i).1 = s k i * (2 : ℝ) ^ e)
    (hb : ∀ i, |o i| + |s 0 i| + |s 1 i| + |s 2 i| ≤ 2 ^ F.prec) (hd : (Matrix.of s).det ≠ 0) :
    ∃ m b', b.build dbg M w = .ok (m, b') ∧ m.facets.length = 12 ∧
      ∀ f ∈ m.facets, ∃ h0 h1 h2 p q r, calcHalfedges m f = .ok [h0, h1, h2] ∧ m.heVector h0 = .ok p ∧ m.heVector h1 = .ok q ∧ m.heVector h2 = .ok r ∧
        (0 < (Matrix.of s).det →
          side (Fl.toReal p, Fl.toReal q, Fl.toReal r) (fun i => (c.origin i).1 + ((c.sides 0 i).1 + (c.sides 1 i).1 + (c.sides 2 i).1) / 2) < 0 ∧
          ∀ v ∈ m.points, side (Fl.toReal p, Fl.toReal q, Fl.toReal r) (Fl.toReal v) ≤ 0) ∧
        ((Matrix.of s).det < 0 →
          0 < side (Fl.toReal p, Fl.toReal q, Fl.toReal r) (fun i => (c.origin i).1 + ((c.sides 0 i).1 + (c.sides 1 i).1 + (c.sides 2 i).1) / 2) ∧
          ∀ v ∈ m.points, 0 ≤ side (Fl.toReal p, Fl.toReal q, Fl.toReal r) (Fl.toReal v)) := by
  have hp := two_zpow_pos e
  have he' : ∀ k, F.emin = some k → k ≤ e := fun k hk => by
    have := he k hk
    have := F.emin_le k hk
    omega
  set S : Fin 3 → Vec ℝ 3 := fun k => Fl.toReal (c.sides k) with hS
  set O : Vec ℝ 3 := Fl.toReal c.origin with hO
  -- the determinant of the sides
  have hdet : (Matrix.of S).det = (2 ^ e) ^ 3 * ((Matrix.of s).det : ℝ) := by
    have hSk : ∀ k i, S k i = s k i * (2 : ℝ) ^ e := hs
    rw [det_fin_three, det_fin_three]
    simp only [of_apply, hSk]
    push_cast; ring
  have hi : LinearIndependent ℝ S := by
    refine Matrix.linearIndependent_rows_of_det_ne_zero (A := Matrix.of S) ?_
    rw [hdet]
    have : ((Matrix.of s).det : ℝ) ≠ 0 := by exact_mod_cast hd
    positivity
  have hcub : b.theCuboid = c := by unfold CuboidBuilder.theCuboid; rw [hc]; rfl
  have hM' : 3 * (cuboidTriangles b.theCuboid).length < M := by rw [cuboidTriangles_length]; omega
  have htr := cuboidTriangles_grid c he' ho hs hb
  rw [← hcub] at htr
  obtain ⟨m, b', hm, -, hperm, -, hfl, -⟩ := C93_grid_partial dbg M w b hM c hc e o s he ho hs hb hi
  refine ⟨m, b', hm, hfl, fun f hf => ?_⟩
  obtain ⟨hreal, hts⟩ := cuboid_grid_facts c he ho hs hb
  rw [← hcub] at hts
  obtain ⟨m', -, hbuilt, -, -, -, hbuild⟩ := cuboid_build dbg M w b hM hts
  have hmm : m' = m := by
    rw [hm] at hbuild
    split at hbuild
    · exact nomatch hbuild
    · exact (Prod.mk.inj (Except.ok.inj hbuild)).1.symm
  subst hmm
  have : Inhabited (Vec (Fl F) 3) := ⟨c.origin⟩
  obtain ⟨t, ht, h0, h1, h2, e1, e2, e3, e4⟩ := facet_corners_any dbg M _ hM' m' hbuilt f hf
  refine ⟨h0, h1, h2, t.1, t.2.1, t.2.2, e1, e2, e3, e4, ?_⟩
  rw [htr, List.mem_map] at ht
  obtain ⟨x, hx, rfl⟩ := ht
  obtain ⟨u1, u2⟩ := unitCube x hx
  have et : (Fl.toReal (mapTriangle (fun a => gridPt F e (o + ∑ k, if a k then s k else 0)) x).1,
      Fl.toReal (mapTriangle (fun a => gridPt F e (o + ∑ k, if a k then s k else 0)) x).2.1,
      Fl.toReal (mapTriangle (fun a => gridPt F e (o + ∑ k, if a k then s k else 0)) x).2.2) =
      mapTriangle (affine (Matrix.of S)ᵀ O) (mapTriangle unitCorner x) := by
    simp only [mapTriangle, hreal, corner_affine]
    rfl
  have ec : (fun i => (c.origin i).1 + ((c.sides 0 i).1 + (c.sides 1 i).1 + (c.sides 2 i).1) / 2) = affine (Matrix.of S)ᵀ O (fun _ => 1 / 2) :=
    cuboidCenter_affine ⟨O, S⟩
  have ev : ∀ v ∈ m'.points, ∃ a, Fl.toReal v = affine (Matrix.of S)ᵀ O (unitCorner a) := fun v hv => by
    have := hperm.mem_iff.1 (List.mem_map_of_mem hv)
    rw [List.mem_map] at this
    obtain ⟨a, -, h⟩ := this
    exact ⟨a, by rw [← h, corner_affine]⟩
  rw [et, ec, side_affine, det_transpose, hdet]
  have hp3 : (0 : ℝ) < (2 ^ e) ^ 3 := by positivity
  refine ⟨fun hpos => ⟨?_, fun v hv => ?_⟩, fun hneg => ⟨?_, fun v hv => ?_⟩⟩
  · have h1 : (0 : ℝ) < ((Matrix.of s).det : ℝ) := by exact_mod_cast hpos
    exact mul_neg_of_pos_of_neg (mul_pos hp3 h1) u1
  · have h1 : (0 : ℝ) < ((Matrix.of s).det : ℝ) := by exact_mod_cast hpos
    obtain ⟨a, ha⟩ := ev v hv
    rw [ha, side_affine, det_transpose, hdet]
    exact mul_nonpos_of_nonneg_of_nonpos (mul_pos hp3 h1).le (u2 a)
  · have h1 : ((Matrix.of s).det : ℝ) < 0 := by exact_mod_cast hneg
    exact mul_pos_of_neg_of_neg (mul_neg_of_pos_of_neg hp3 h1) u1
  · have h1 : ((Matrix.of s).det : ℝ) < 0 := by exact_mod_cast hneg
    obtain ⟨a, ha⟩ := ev v hv
    rw [ha, side_affine, det_transpose, hdet]
    exact mul_nonneg_of_nonpos_of_nonpos (mul_neg_of_pos_of_neg hp3 h1).le (u2 a)
end

section Examples
open Classical

/-- The oblique cuboid with the sides (1, 2, 3), (0, 1, 4) and (5, 6, 0), determinant one: the centre (10, 12.5, 12.5) is behind all twelve facets. -/
example : ∃ m b', CuboidBuilder.build true (2 ^ 64) 64
    (⟨some ⟨p64 7 8 9, ![p64 1 2 3, p64 0 1 4, p64 5 6 0]⟩, p64 0 0 0, p64 0 0 0⟩ : CuboidBuilder (Fl binary64)) = .ok (m, b') ∧ m.facets.length = 12 ∧
    ∀ f ∈ m.facets, ∃ h0 h1 h2 p q r, calcHalfedges m f = .ok [h0, h1, h2] ∧ m.heVector h0 = .ok p ∧ m.heVector h1 = .ok q ∧ m.heVector h2 = .ok r ∧
      side (Fl.toReal p, Fl.toReal q, Fl.toReal r) ![10, 25 / 2, 25 / 2] < 0 := by
  have hdet : (Matrix.of (![![1, 2, 3], ![0, 1, 4], ![5, 6, 0]] : Fin 3 → Fin 3 → ℤ)).det = 1 := by
    rw [det_fin_three]; simp
  obtain ⟨m, b', h1, h2, h3⟩ := C160_facets true (2 ^ 64) 64
    (⟨some ⟨p64 7 8 9, ![p64 1 2 3, p64 0 1 4, p64 5 6 0]⟩, p64 0 0 0, p64 0 0 0⟩ : CuboidBuilder (Fl binary64)) (by norm_num) _ rfl 0
    ![7, 8, 9] ![![1, 2, 3], ![0, 1, 4], ![5, 6, 0]] (fun k hk => by cases hk; norm_num)
    (fun i => by fin_cases i <;> simp [p64, fl64]) (fun k i => by fin_cases k <;> fin_cases i <;> simp [p64, fl64])
    (fun i => by show _ ≤ (2 : ℤ) ^ 53; fin_cases i <;> simp) (by rw [hdet]; norm_num)
  refine ⟨m, b', h1, h2, fun f hf => ?_⟩
  obtain ⟨a0, a1, a2, p, q, r, k0, k1, k2, k3, k4, -⟩ := h3 f hf
  refine ⟨a0, a1, a2, p, q, r, k0, k1, k2, k3, ?_⟩
  have h := (k4 (by rw [hdet]; norm_num)).1
  convert h using 2
  funext i
  fin_cases i <;> simp [p64, fl64] <;> norm_num
end Examples
end Verif
