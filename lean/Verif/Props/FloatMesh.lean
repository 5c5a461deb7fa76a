import Verif.Proofs.FloatMesh
import Verif.Props.FloatKdTree

set_option linter.unusedSectionVars false

/-
C92: the meshes of spheres, cones and cylinders in floating point arithmetic.

`std::sin`, `std::cos` and the constant pi are arbitrary here (`HasTrig`).
-/
namespace Verif
open Spec

section
variable {F : FloatFormat} [HasTrig (Fl F)] [BEq (HMat (Fl F))] [LawfulBEq (HMat (Fl F))] [BEq (Vec (Fl F) 3)]
  [LawfulBEq (Vec (Fl F) 3)]

/-- **C92** Rounding affects the mesh of a sphere only by merging points.  Whatever points are computed (if they are
different, then by `2^-537` in some coordinate in `double`, `2^-74` in `float`), building succeeds, in debug builds too; the vertices are the computed points without repetition and the numbers of facets and
half-edges are those of C58.  If the computed points are pairwise different the mesh is closed, consistently oriented and has as many
vertices and lines as in C58. -/
theorem C92_sphere (dbg : Bool) (M w : Nat) (b : SphereBuilder (Fl F)) (hp : 2 ≤ b.polarCount) (hn : 3 ≤ b.azimuthCount)
    (hM : 6 * b.azimuthCount * (b.polarCount - 1) < M)
    (hr : ∀ u ∈ calcSpherePoints b.theSphere b.polarCount b.azimuthCount,
      ∀ v ∈ calcSpherePoints b.theSphere b.polarCount b.azimuthCount, u ≠ v → ∃ i, Resolved F.emin (u i).1 (v i).1) :
    ∃ m b', b.build dbg M w = .ok (m, b') ∧ m.points.Nodup ∧
      (∀ v, v ∈ m.points ↔ v ∈ calcSpherePoints b.theSphere b.polarCount b.azimuthCount) ∧
      m.facets.length = 2 * b.azimuthCount * (b.polarCount - 1) ∧
      m.halfedges.length = 6 * b.azimuthCount * (b.polarCount - 1) ∧
      ((calcSpherePoints b.theSphere b.polarCount b.azimuthCount).Nodup → ClosedMesh m ∧
        m.vertices.length = (b.polarCount - 1) * b.azimuthCount + 2 ∧
        ∀ MU, (b.polarCount - 1) * b.azimuthCount + 2 ≤ MU →
          ∃ l, calcLineIndices dbg MU m = .ok l ∧ l.length = 2 * (3 * b.azimuthCount * (b.polarCount - 1))) := by
  have hn1 : 1 ≤ b.azimuthCount := by omega
  have hM' : (b.polarCount - 1) * b.azimuthCount + 2 < M := by
    have : 1 ≤ (b.polarCount - 1) * b.azimuthCount := Nat.mul_pos (by omega) (by omega)
    nlinarith
  have hid : ∀ ps : List (Vec (Fl F) 3), ps.map (placeOf hmatIdentity) = ps := by
    intro ps
    rw [show placeOf (hmatIdentity : HMat (Fl F)) = id from funext fun p => by
      rw [Fl.placeOf_eq, Fl.transformVec_identity]; rfl, List.map_id]
  set ps := calcSpherePoints b.theSphere b.polarCount b.azimuthCount with hps
  have hlen : ps.length = (b.polarCount - 1) * b.azimuthCount + 2 := spherePoints_length_gen ..
  have h1 : (sphIdx b.polarCount b.azimuthCount).length < M := by rw [sphIdx_length hp hn1]; exact hM
  have h2 : (sphIdx b.polarCount b.azimuthCount).length % 3 = 0 := by rw [sphIdx_length hp hn1, Nat.mul_assoc]; omega
  have h3 : ps ≠ [] := by
    intro h; rw [h] at hlen; simp at hlen
  have h4 : ∀ i, i ∈ sphIdx b.polarCount b.azimuthCount ↔ i < ps.length := by rw [hlen]; exact sphIdx_mem hp hn1
  have h5 : Apart (ps.map (placeOf hmatIdentity)) := by rw [hid]; exact apart_fl hr
  obtain ⟨m, hm, _, _, hnd, hmem, hv, hf, hhe⟩ := build_welds dbg M w hmatIdentity ps _ h1 h2 h3 h4 h5
  refine ⟨m, _, by rw [sphereBuild_gen dbg M w b hp hn1 hM', ← hps, hm]; rfl, hnd, ?_, ?_, ?_, ?_⟩
  · rw [hid] at hmem; exact hmem
  · rw [hf, sphIdx_length hp hn1, Nat.mul_assoc, Nat.mul_assoc]; omega
  · rw [hhe, sphIdx_length hp hn1]
  · intro hnp
    obtain ⟨hc, hperm, hl⟩ := closed_build_gen dbg M w hmatIdentity ps _ h1 h2 h3 h4 (sphIdx_closed hp hn)
      (by rw [sphIdx_triples]; exact loops_of_distinct (sphTri_distinct hp (by omega))) h5 (by rw [hid]; exact hnp) m hm
    refine ⟨hc, by rw [hv, hperm.length_eq, hid, hlen], ?_⟩
    intro MU hU
    obtain ⟨l, hl1, hl2⟩ := hl MU (by rw [hlen]; exact hU)
    exact ⟨l, hl1, by rw [hl2, sphIdx_length hp hn1]; ring⟩

/-- **C92** The same for cones: the vertices are the computed points of `calc_cone_triangles`, each multiplied with the
computed matrix. -/
theorem C92_cone [Tol (Fl F)] (dbg : Bool) (M w : Nat) (rotAlign : Vec (Fl F) 4 → Vec (Fl F) 4 → HMat (Fl F)) (cone : Cone (Fl F))
    (n : Nat) (hn : 3 ≤ n) (hM : 6 * n < M) (hz : dbg = true → isZero cone.segment.length = false)
    (hd : dbg = true → isEq (length cone.segment.direction) 1 = true) (ps : List (Vec (Fl F) 3))
    (hps : ps = (conePoints cone.radius cone.segment.length n).map fun p => transformVec p
      (hmatSetTranslation (rotAlign (hvec4 0 0 1 1) (toHvec cone.segment.direction)) cone.segment.source))
    (hr : ∀ u ∈ ps, ∀ v ∈ ps, u ≠ v → ∃ i, Resolved F.emin (u i).1 (v i).1) :
    ∃ m, coneBuild dbg M w rotAlign (some cone) n = .ok (some m) ∧ m.points.Nodup ∧ (∀ v, v ∈ m.points ↔ v ∈ ps) ∧
      m.facets.length = 2 * n ∧ m.halfedges.length = 6 * n ∧
      (ps.Nodup → ClosedMesh m ∧ m.vertices.length = n + 2 ∧
        ∀ MU, n + 2 ≤ MU → ∃ l, calcLineIndices dbg MU m = .ok l ∧ l.length = 2 * (3 * n)) := by
  set trafo := hmatSetTranslation (rotAlign (hvec4 0 0 1 1) (toHvec cone.segment.direction)) cone.segment.source with htr
  have hpl : (conePoints cone.radius cone.segment.length n).map (placeOf trafo) = ps := by
    rw [hps]; exact List.map_congr_left fun p _ => Fl.placeOf_eq trafo p
  have hlen := conePoints_length cone.radius cone.segment.length n
  have h1 : (coneIdx n).length < M := by rw [coneIdx_length]; omega
  have h2 : (coneIdx n).length % 3 = 0 := by rw [coneIdx_length]; omega
  have h3 : conePoints cone.radius cone.segment.length n ≠ [] := by simp [conePoints]
  have h4 : ∀ i, i ∈ coneIdx n ↔ i < (conePoints cone.radius cone.segment.length n).length := by
    rw [hlen]; exact coneIdx_mem (by omega)
  have h5 : Apart ((conePoints cone.radius cone.segment.length n).map (placeOf trafo)) := by rw [hpl]; exact apart_fl hr
  obtain ⟨m, hm, _, _, hnd, hmem, hv, hf, hhe⟩ := build_welds dbg M w trafo _ _ h1 h2 h3 h4 h5
  refine ⟨m, by rw [coneBuild_gen dbg M w rotAlign cone n (by omega) hz hd, hm]; rfl, hnd, by rw [hpl] at hmem; exact hmem,
    by rw [hf, coneIdx_length]; omega, by rw [hhe, coneIdx_length], ?_⟩
  intro hnp
  obtain ⟨hc, hperm, hl⟩ := closed_build_gen dbg M w trafo _ _ h1 h2 h3 h4 (coneIdx_closed hn)
    (by rw [coneIdx_triples]; exact loops_of_distinct (coneTri_distinct (by omega))) h5 (by rw [hpl]; exact hnp) m hm
  refine ⟨hc, by rw [hv, hperm.length_eq, List.length_map, hlen], ?_⟩
  intro MU hU
  obtain ⟨l, hl1, hl2⟩ := hl MU (by rw [hlen]; exact hU)
  exact ⟨l, hl1, by rw [hl2, coneIdx_length]; ring⟩

/-- **C92** The same for cylinders. -/
theorem C92_cylinder (dbg : Bool) (M w : Nat) (rotAlign : Vec (Fl F) 4 → Vec (Fl F) 4 → HMat (Fl F)) (cyl : Cylinder (Fl F))
    (n : Nat) (hn : 3 ≤ n) (hM : 12 * n < M) (ps : List (Vec (Fl F) 3))
    (hps : ps = (cylPoints cyl.radius cyl.segment.length n).map fun p => transformVec p
      (hmatSetTranslation (rotAlign (hvec4 0 0 1 1) (toHvec cyl.segment.direction)) cyl.segment.source))
    (hr : ∀ u ∈ ps, ∀ v ∈ ps, u ≠ v → ∃ i, Resolved F.emin (u i).1 (v i).1) :
    ∃ m, cylinderBuild dbg M w rotAlign (some cyl) n = .ok (some m) ∧ m.points.Nodup ∧ (∀ v, v ∈ m.points ↔ v ∈ ps) ∧
      m.facets.length = 4 * n ∧ m.halfedges.length = 12 * n ∧
      (ps.Nodup → ClosedMesh m ∧ m.vertices.length = 2 * n + 2 ∧
        ∀ MU, 2 * n + 2 ≤ MU → ∃ l, calcLineIndices dbg MU m = .ok l ∧ l.length = 2 * (6 * n)) := by
  set trafo := hmatSetTranslation (rotAlign (hvec4 0 0 1 1) (toHvec cyl.segment.direction)) cyl.segment.source with htr
  have hpl : (cylPoints cyl.radius cyl.segment.length n).map (placeOf trafo) = ps := by
    rw [hps]; exact List.map_congr_left fun p _ => Fl.placeOf_eq trafo p
  have hlen := cylPoints_length cyl.radius cyl.segment.length n
  have h1 : (cylIdx n).length < M := by rw [cylIdx_length]; omega
  have h2 : (cylIdx n).length % 3 = 0 := by rw [cylIdx_length]; omega
  have h3 : cylPoints cyl.radius cyl.segment.length n ≠ [] := by simp [cylPoints]
  have h4 : ∀ i, i ∈ cylIdx n ↔ i < (cylPoints cyl.radius cyl.segment.length n).length := by
    rw [hlen]; exact cylIdx_mem (by omega)
  have h5 : Apart ((cylPoints cyl.radius cyl.segment.length n).map (placeOf trafo)) := by rw [hpl]; exact apart_fl hr
  obtain ⟨m, hm, _, _, hnd, hmem, hv, hf, hhe⟩ := build_welds dbg M w trafo _ _ h1 h2 h3 h4 h5
  refine ⟨m, by rw [cylinderBuild_gen dbg M w rotAlign cyl n (by omega) (by omega), hm]; rfl, hnd,
    by rw [hpl] at hmem; exact hmem, by rw [hf, cylIdx_length]; omega, by rw [hhe, cylIdx_length], ?_⟩
  intro hnp
  obtain ⟨hc, hperm, hl⟩ := closed_build_gen dbg M w trafo _ _ h1 h2 h3 h4 (cylIdx_closed hn)
    (by rw [cylIdx_triples]; exact loops_of_distinct (cylTri_distinct (by omega))) h5 (by rw [hpl]; exact hnp) m hm
  refine ⟨hc, by rw [hv, hperm.length_eq, List.length_map, hlen], ?_⟩
  intro MU hU
  obtain ⟨l, hl1, hl2⟩ := hl MU (by rw [hlen]; exact hU)
  exact ⟨l, hl1, by rw [hl2, cylIdx_length]; ring⟩

/-- **C92** Points do merge: far from the origin the mesh of a sphere of radius one consists of a single vertex and is not
closed, for all counts, also in debug builds. -/
theorem C92_collapse (hc : ∀ x : Fl F, |(HasTrig.cos x).1| ≤ 1) (hs : ∀ x : Fl F, |(HasTrig.sin x).1| ≤ 1) (dbg : Bool)
    (M w : Nat) (b : SphereBuilder (Fl F)) (hp : 2 ≤ b.polarCount) (hn : 3 ≤ b.azimuthCount)
    (hM : 6 * b.azimuthCount * (b.polarCount - 1) < M) (hb : b.theSphere = ⟨fun _ => Fl.big F, 1⟩) :
    ∃ m b', b.build dbg M w = .ok (m, b') ∧ m.points = [fun _ => Fl.big F] ∧ ¬ ClosedMesh m := by
  have habs : ∀ a : Fl F, |a.1| ≤ 1 → a + Fl.big F = Fl.big F := by
    intro a ha
    apply Fl.ext
    show F.rnd (a.1 + 2 ^ (F.prec + 3)) = 2 ^ (F.prec + 3)
    rw [add_comm]
    exact F.rounds.absorb F.one_lt_prec F.emin_le ha
  have h1 : |(1 : Fl F).1| ≤ 1 := by simp
  have hm1 : |(-1 : Fl F).1| ≤ 1 := by simp
  have h0 : |(0 : Fl F).1| ≤ 1 := by simp
  have hall : ∀ v ∈ calcSpherePoints b.theSphere b.polarCount b.azimuthCount, v = fun _ => Fl.big F := by
    intro v hv
    rw [hb] at hv
    unfold calcSpherePoints at hv
    dsimp only at hv
    have hne : ((fun _ => Fl.big F : Vec (Fl F) 3) != vec3 0 0 0) = true := by
      rw [bne_iff_ne]
      intro e
      have := congrArg Subtype.val (congrFun e 0)
      have hpos : (0 : ℝ) < 2 ^ (F.prec + 3) := by positivity
      exact hpos.ne' this
    rw [if_pos hne] at hv
    obtain ⟨p, hp', rfl⟩ := List.mem_map.1 hv
    have hsmall : ∀ i, |(p i).1| ≤ 1 := by
      rw [List.mem_append] at hp'
      rcases hp' with hp' | hp'
      · obtain ⟨i, _, hp'⟩ := List.mem_flatMap.1 hp'
        obtain ⟨j, _, rfl⟩ := List.mem_map.1 hp'
        intro k
        fin_cases k
        · exact Fl.abs_mul_le_one (Fl.abs_mul_le_one h1 (hs _)) (hc _)
        · exact Fl.abs_mul_le_one (Fl.abs_mul_le_one h1 (hs _)) (hs _)
        · exact Fl.abs_mul_le_one h1 (hc _)
      · simp only [List.mem_cons, List.not_mem_nil, or_false] at hp'
        rcases hp' with rfl | rfl <;> intro k <;> fin_cases k
        · exact h0
        · exact h0
        · exact h1
        · exact h0
        · exact h0
        · exact hm1
    funext i
    exact habs _ (hsmall i)
  obtain ⟨m, b', hm, hnd, hmem, _, hl, _⟩ := C92_sphere dbg M w b hp hn hM (by
    intro u hu v hv hne
    exact absurd ((hall u hu).trans (hall v hv).symm) hne)
  have hone : ∀ v ∈ m.points, v = fun _ => Fl.big F := fun v hv => hall v ((hmem v).1 hv)
  refine ⟨m, b', hm, ?_, ?_⟩
  · have hlen := spherePoints_length_gen b.theSphere b.polarCount b.azimuthCount
    obtain ⟨v, hv⟩ := List.exists_mem_of_length_pos (show 0 < (calcSpherePoints b.theSphere b.polarCount b.azimuthCount).length by
      rw [hlen]; omega)
    have hv' := (hmem v).2 hv
    rw [hall v hv] at hv'
    match hpts : m.points, hnd, hv', hone with
    | [], _, h, _ => simp at h
    | [x], _, _, h => rw [h x (by simp)]
    | x :: y :: rest, hnd, _, h =>
      exfalso
      rw [h x (by simp), h y (by simp)] at hnd
      simp at hnd
  · intro hcl
    have hhe : m.halfedges ≠ [] := by
      intro h0'
      rw [h0', List.length_nil] at hl
      have : 0 < 6 * b.azimuthCount * (b.polarCount - 1) := Nat.mul_pos (by omega) (by omega)
      omega
    obtain ⟨h, hh⟩ := List.exists_mem_of_ne_nil _ hhe
    obtain ⟨x, y, hxy, ⟨hx, hy⟩, _⟩ := hcl h hh
    exact hxy ((hone _ (heVector_mem hx)).trans (hone _ (heNextVector_mem hy)).symm)
end

/-! ### Concrete cases -/
section Examples
open Classical

/-- Correctly rounded sine and cosine. -/
@[instance_reducible] noncomputable def roundedTrig (F : FloatFormat) : HasTrig (Fl F) :=
  ⟨fun x => Fl.round (Real.cos x.1), fun x => Fl.round (Real.sin x.1), fun x => Fl.round (Real.arctan x.1), Fl.round Real.pi⟩

attribute [local instance] roundedTrig

theorem roundedTrig_le {F : FloatFormat} {x : ℝ} (h : |x| ≤ 1) : |(Fl.round x : Fl F).1| ≤ 1 := by
  show |F.rnd x| ≤ 1
  rw [F.rounds.abs]
  exact F.rounds.of_le F.one_mem h

/-- The unit sphere at `2^56` in `double`, with the default counts of the builder. -/
example : ∃ m b', SphereBuilder.build true (2 ^ 64) 64 (⟨10, 20, fun _ => Fl.big binary64, 1, none⟩ : SphereBuilder (Fl binary64))
    = .ok (m, b') ∧ m.points.length = 1 ∧ ¬ ClosedMesh m := by
  obtain ⟨m, b', h1, h2, h3⟩ := C92_collapse (F := binary64) (fun x => roundedTrig_le (Real.abs_cos_le_one _))
    (fun x => roundedTrig_le (Real.abs_sin_le_one _)) true (2 ^ 64) 64 ⟨10, 20, fun _ => Fl.big binary64, 1, none⟩
    (by norm_num) (by norm_num) (by norm_num) rfl
  exact ⟨m, b', h1, by rw [h2]; rfl, h3⟩

/-- The digits of `double` without underflow: different numbers are resolved. -/
noncomputable def binary53 : FloatFormat := ⟨53, by norm_num, none, by
  simpa using representable_two_pow (e := 0) (by norm_num) (by simp), roundAway 53 none, roundAway_rounds (by norm_num) _⟩

theorem binary53_resolved {D : Nat} {u v : Vec (Fl binary53) D} (h : u ≠ v) : ∃ i, Resolved binary53.emin (u i).1 (v i).1 := by
  obtain ⟨i, hi⟩ := Function.ne_iff.1 h
  exact ⟨i, fun e => hi (Fl.ext e), fun k hk => nomatch hk⟩

/-- Any sphere, any cone and any cylinder of that format. -/
example (s : Sphere (Fl binary53)) : ∃ m b', SphereBuilder.build true (2 ^ 64) 64 (⟨10, 20, s.origin, s.radius, none⟩ : SphereBuilder _)
    = .ok (m, b') ∧ m.facets.length = 360 := by
  obtain ⟨m, b', h1, _, _, h2, _⟩ := C92_sphere true (2 ^ 64) 64 (⟨10, 20, s.origin, s.radius, none⟩ : SphereBuilder (Fl binary53))
    (by norm_num) (by norm_num) (by norm_num) (fun _ _ _ _ => binary53_resolved)
  exact ⟨m, b', h1, h2⟩

example [Tol (Fl binary53)] (c : Cone (Fl binary53)) (R : Vec (Fl binary53) 4 → Vec (Fl binary53) 4 → HMat (Fl binary53)) :
    ∃ m, coneBuild false (2 ^ 64) 64 R (some c) 20 = .ok (some m) ∧ m.facets.length = 40 := by
  obtain ⟨m, h1, _, _, h2, _⟩ := C92_cone false (2 ^ 64) 64 R c 20 (by norm_num) (by norm_num) (by simp) (by simp) _ rfl
    (fun _ _ _ _ => binary53_resolved)
  exact ⟨m, h1, h2⟩

example (c : Cylinder (Fl binary53)) (R : Vec (Fl binary53) 4 → Vec (Fl binary53) 4 → HMat (Fl binary53)) :
    ∃ m, cylinderBuild true (2 ^ 64) 64 R (some c) 20 = .ok (some m) ∧ m.facets.length = 80 := by
  obtain ⟨m, h1, _, _, h2, _⟩ := C92_cylinder true (2 ^ 64) 64 R c 20 (by norm_num) (by norm_num) _ rfl
    (fun _ _ _ _ => binary53_resolved)
  exact ⟨m, h1, h2⟩
end Examples
end Verif
