import Verif.Proofs.Cylinder
import Verif.Props.Cone

set_option linter.unusedSectionVars false

/-
C57 and the cylinder part of C60.
-/
namespace Verif
open Spec Matrix

/-- The points of a cylinder before they are placed. -/
def cylPoints {T : Type} [Zero T] [Add T] [Mul T] [Div T] [Neg T] [OfNat T 2] [NatCast T] [HasTrig T] (r h : T) (n : Nat) : List (Vec T 3) :=
  (vec3 0 0 0 :: discretizeCircle (vec3 0 0 0) r n .ccw) ++ (vec3 0 0 h :: discretizeCircle (vec3 0 0 h) r n .cw)

theorem cylPoints_length {T : Type} [Zero T] [Add T] [Mul T] [Div T] [Neg T] [OfNat T 2] [NatCast T] [HasTrig T] (r h : T) (n : Nat) :
    (cylPoints r h n).length = 2 * n + 2 := by
  simp [cylPoints, discretizeCircle_length]; omega

theorem mem_disc {c : Vec ℝ 3} {r : ℝ} {n : Nat} {dir : CircleDir} {p : Vec ℝ 3} (hp : p ∈ discretizeCircle c r n dir) :
    (p - c) ⬝ᵥ (p - c) = r ^ 2 ∧ p 2 = c 2 := by
  rw [discretizeCircle_eq] at hp
  obtain ⟨i, _, rfl⟩ := List.mem_map.1 hp
  rw [add_sub_cancel_left, circlePt_dp]
  exact ⟨rfl, by simp [circlePt]⟩

theorem disc_nodup (c : Vec ℝ 3) {r : ℝ} (hr : r ≠ 0) (n : Nat) (dir : CircleDir) : (discretizeCircle c r n dir).Nodup := by
  rw [discretizeCircle_eq, List.nodup_map_iff_inj_on List.nodup_range]
  intro i hi j hj e
  exact circlePt_inj hr (dirSign_cases _) (List.mem_range.1 hi) (List.mem_range.1 hj) (add_left_cancel e)

theorem disc_cons_nodup (c : Vec ℝ 3) {r : ℝ} (hr : r ≠ 0) (n : Nat) (dir : CircleDir) :
    (c :: discretizeCircle c r n dir).Nodup := by
  rw [List.nodup_cons]
  refine ⟨fun h => ?_, disc_nodup c hr n dir⟩
  have := (mem_disc h).1
  rw [sub_self, zero_dotProduct] at this
  exact hr (by simpa using this.symm)

theorem cylPoints_nodup {r h : ℝ} (hr : r ≠ 0) (hh : h ≠ 0) (n : Nat) : (cylPoints r h n).Nodup := by
  unfold cylPoints
  rw [List.nodup_append']
  refine ⟨disc_cons_nodup _ hr n _, disc_cons_nodup _ hr n _, ?_⟩
  intro p h1 h2
  have e1 : p 2 = 0 := by
    rcases List.mem_cons.1 h1 with rfl | h1
    · rfl
    · exact (mem_disc h1).2
  have e2 : p 2 = h := by
    rcases List.mem_cons.1 h2 with rfl | h2
    · rfl
    · exact (mem_disc h2).2
  exact hh (e2.symm.trans e1)

section
variable [BEq (HMat ℝ)] [LawfulBEq (HMat ℝ)] [BEq (Vec ℝ 3)] [LawfulBEq (Vec ℝ 3)]

theorem cylinderBuild_eq (dbg : Bool) (M w : Nat) (rotAlign : Vec ℝ 4 → Vec ℝ 4 → HMat ℝ) (cyl : Cylinder ℝ) (n : Nat)
    (hn : 2 ≤ n) (hM : 2 * n + 2 < M) :
    cylinderBuild dbg M w rotAlign (some cyl) n =
      (buildTriangleHalfedgeMesh dbg M w
        (hmatSetTranslation (rotAlign (hvec4 0 0 1 1) (toHvec cyl.segment.direction)) cyl.segment.source)
        (cylPoints cyl.radius cyl.segment.length n) (cylIdx n)).map some := by
  unfold cylinderBuild
  rw [Option.isSome_some, geoAssert_true, ok_bind]
  dsimp only
  rw [calcCylinderTriangles_eq dbg M _ _ n hn hM, ok_bind]
  exact bind_some _

/-- **C57** Building a cylinder mesh succeeds for every azimuth count of at least two that fits the index type. -/
theorem C57_in_range_partial (dbg : Bool) (M w : Nat) (rotAlign : Vec ℝ 4 → Vec ℝ 4 → HMat ℝ) (cyl : Cylinder ℝ) (n : Nat)
    (hn : 2 ≤ n) (hM : 12 * n < M) : ∃ m, cylinderBuild dbg M w rotAlign (some cyl) n = .ok (some m) := by
  rw [cylinderBuild_eq dbg M w rotAlign cyl n hn (by omega), build_ok dbg M w]
  · obtain ⟨m, hm, _⟩ := C48_build_succeeds dbg M w (bufferTriangles
      (hmatSetTranslation (rotAlign (hvec4 0 0 1 1) (toHvec cyl.segment.direction)) cyl.segment.source)
      (cylPoints cyl.radius cyl.segment.length n) (cylIdx n)) (by rw [bufferTriangles_length, cylIdx_length]; omega)
    exact ⟨m, by rw [hm]; rfl⟩
  · rw [cylIdx_length]; omega
  · simp [cylPoints]
  · rw [cylIdx_length]; omega
  · intro i hi
    rw [cylPoints_length]
    exact (cylIdx_mem hn i).1 hi

/-- **C57** With azimuth count 0 or 1 building a cylinder reads outside the point array, in debug builds too. -/
theorem C57_small_counterexample (dbg : Bool) (M w : Nat) (hM : 13 ≤ M) (rotAlign : Vec ℝ 4 → Vec ℝ 4 → HMat ℝ)
    (cyl : Cylinder ℝ) (n : Nat) (hn : n < 2) :
    cylinderBuild dbg M w rotAlign (some cyl) n = .error .outOfRange := by
  have hcase : ∃ idx : List Nat, calcCylinderTriangles dbg M cyl.radius cyl.segment.length n =
      .ok (cylPoints cyl.radius cyl.segment.length n, idx) ∧ idx.length < M ∧ idx.length % 3 = 0 ∧
      ∃ t ∈ triples idx, ¬ t.2.1 < (cylPoints cyl.radius cyl.segment.length n).length := by
    have hl : (vec3 0 0 0 :: discretizeCircle (vec3 0 0 0) cyl.radius n .ccw).length = n + 1 := by
      simp [discretizeCircle_eq]
    unfold calcCylinderTriangles
    rw [calcCircleTriangles_eq M _ _ n .ccw 0 (by omega), ok_bind]
    dsimp only
    rw [hl, toIdx_of_lt (show n + 1 < M by omega), calcCircleTriangles_eq M _ _ n .cw (n + 1) (by omega), ok_bind]
    rw [Nat.mod_eq_of_lt (show n + 2 < M by omega), Nat.mod_eq_of_lt (show 2 * n + 1 < M by omega),
      Nat.mod_eq_of_lt (show n + 2 + 1 < M by omega)]
    rcases (by omega : n = 0 ∨ n = 1) with rfl | rfl
    · have e : subM M 0 1 = M - 1 := by unfold subM; rw [Nat.mod_eq_of_lt (by omega)]; omega
      have e' : subM M (2 * 0 + 1) (0 + 2) = M - 1 := by unfold subM; rw [Nat.mod_eq_of_lt (by omega)]; omega
      rw [e, e']
      simp only [beq_self_eq_true, geoAssert_true, ok_bind]
      refine ⟨_, rfl, ?_, ?_, (0, 0 + 2 + 1, 1), ?_, ?_⟩
      · simp [mantleLoop]; omega
      · simp [mantleLoop]
      · simp [mantleLoop, triples]
      · rw [cylPoints_length]; decide
    · rw [subM_of_le (show 1 ≤ 1 by omega) (by omega), subM_of_le (show 1 + 2 ≤ 2 * 1 + 1 by omega) (by omega)]
      simp only [beq_self_eq_true, geoAssert_true, ok_bind]
      refine ⟨_, rfl, ?_, ?_, (1, 1 + 2 + 1, 1), ?_, ?_⟩
      · simp [mantleLoop]; omega
      · simp [mantleLoop]
      · simp [mantleLoop, triples]
      · rw [cylPoints_length]; decide
  obtain ⟨idx, he, hlen, h3, t, ht, hbad⟩ := hcase
  unfold cylinderBuild
  rw [Option.isSome_some, geoAssert_true, ok_bind]
  dsimp only
  rw [he, ok_bind]
  rcases build_cases dbg M w (hmatSetTranslation (rotAlign (hvec4 0 0 1 1) (toHvec cyl.segment.direction)) cyl.segment.source)
    (cylPoints cyl.radius cyl.segment.length n) idx (by omega) (fun _ => ⟨by simp [cylPoints], h3⟩) with ⟨h, _⟩ | ⟨_, h⟩
  · exact absurd (h t ht).2.1 hbad
  · rw [h]; rfl

/-- **C57** For every azimuth count of at least three the cylinder mesh is a closed, consistently oriented surface with
`2 n + 2` vertices, `6 n` edges (two line indices each) and `4 n` triangles. -/
theorem C57_closed (dbg : Bool) (M w : Nat) (rotAlign : Vec ℝ 4 → Vec ℝ 4 → HMat ℝ) (cyl : Cylinder ℝ) (n : Nat) (hn : 3 ≤ n)
    (hM : 12 * n < M) (hr : cyl.radius ≠ 0) (hseg : cyl.segment.source ≠ cyl.segment.target)
    (hrot : RotatesZTo (rotAlign (hvec4 0 0 1 1) (toHvec cyl.segment.direction)) cyl.segment.direction) :
    ∃ m, cylinderBuild dbg M w rotAlign (some cyl) n = .ok (some m) ∧ ClosedMesh m ∧
      m.vertices.length = 2 * n + 2 ∧ m.facets.length = 4 * n ∧
      ∀ MU, 2 * n + 2 ≤ MU → ∃ l, calcLineIndices dbg MU m = .ok l ∧ l.length = 2 * (6 * n) := by
  obtain ⟨A, hA, _, _, htr⟩ := placed hrot
  rw [cylinderBuild_eq dbg M w rotAlign cyl n (by omega) (by omega)]
  obtain ⟨m, hm, hc, _, hv, hf, hli⟩ := closed_build dbg M w
    (hmatSetTranslation (rotAlign (hvec4 0 0 1 1) (toHvec cyl.segment.direction)) cyl.segment.source)
    (cylPoints cyl.radius cyl.segment.length n) (cylIdx n) (by rw [cylIdx_length]; omega)
    (by rw [cylIdx_length]; omega) (by simp [cylPoints]) (by rw [cylPoints_length]; exact cylIdx_mem (by omega))
    (cylIdx_closed hn) (by rw [cylIdx_triples]; exact loops_of_distinct (cylTri_distinct (by omega)))
    (cylPoints_nodup hr (segment_length_pos hseg).ne' n) (by
      rw [show (fun p => transformVec p (hmatSetTranslation (rotAlign (hvec4 0 0 1 1) (toHvec cyl.segment.direction))
        cyl.segment.source)) = affine A cyl.segment.source from funext htr]
      exact hA.injective _)
  rw [cylPoints_length] at hv
  refine ⟨m, by rw [hm]; rfl, hc, hv, by rw [hf, cylIdx_length]; omega, ?_⟩
  intro MU hU
  obtain ⟨l, h1, h2⟩ := hli MU (by rw [cylPoints_length]; exact hU)
  exact ⟨l, h1, by rw [h2, cylIdx_length]; omega⟩

/-- **C60** All vertices of a cylinder mesh are the ends of the axis or points of the circles around them. -/
theorem C60_cylinder (dbg : Bool) (M w : Nat) (rotAlign : Vec ℝ 4 → Vec ℝ 4 → HMat ℝ) (cyl : Cylinder ℝ) (n : Nat)
    (hn : 2 ≤ n) (hM : 12 * n < M) (hr : 0 ≤ cyl.radius) (hseg : cyl.segment.source ≠ cyl.segment.target)
    (hrot : RotatesZTo (rotAlign (hvec4 0 0 1 1) (toHvec cyl.segment.direction)) cyl.segment.direction)
    (m : HalfedgeMesh (Vec ℝ 3)) (hm : cylinderBuild dbg M w rotAlign (some cyl) n = .ok (some m)) :
    ∀ v ∈ m.points, v = cyl.segment.source ∨ v = cyl.segment.target ∨
      v ∈ circle cyl.segment.source cyl.segment.direction cyl.radius ∨
      v ∈ circle cyl.segment.target cyl.segment.direction cyl.radius := by
  obtain ⟨A, hA, _, hz', htr⟩ := placed hrot
  rw [cylinderBuild_eq dbg M w rotAlign cyl n hn (by omega)] at hm
  have hm' := of_map_some hm
  intro v hv
  obtain ⟨p, hp, rfl⟩ := build_points_mem dbg M w _ _ _ (by rw [cylIdx_length]; omega) m hm' v hv
  rw [htr]
  have e : (vec3 0 0 cyl.segment.length : Vec ℝ 3) = cyl.segment.length • ![0, 0, 1] := by
    funext j; fin_cases j <;> simp [vec3]
  have htop : affine A cyl.segment.source (vec3 0 0 cyl.segment.length) = cyl.segment.target := by
    rw [affine, e, Matrix.mulVec_smul, hz']
    exact segment_target hseg
  have hbot : affine A cyl.segment.source (vec3 0 0 0) = cyl.segment.source := by
    rw [vec3_zero]; simp [affine]
  have hcirc : ∀ c dir, p ∈ discretizeCircle c cyl.radius n dir →
      affine A cyl.segment.source p ∈ circle (affine A cyl.segment.source c) cyl.segment.direction cyl.radius := by
    intro c dir hp
    obtain ⟨h1, h2⟩ := mem_disc hp
    constructor
    · rw [hA.dist, spec_dist_eq, h1, Real.sqrt_sq hr]
    · rw [affine_sub, ← hz', hA.dp, dp3]
      simp [h2]
  simp only [cylPoints, List.cons_append, List.mem_cons, List.mem_append] at hp
  rcases hp with rfl | hp | rfl | hp
  · left; exact hbot
  · right; right; left
    have := hcirc _ _ hp
    rwa [hbot] at this
  · right; left; exact htop
  · right; right; right
    have := hcirc _ _ hp
    rwa [htop] at this

/-- **C57** Without a cylinder, release builds return no mesh and debug builds stop at an assertion. -/
theorem C57_no_cylinder (M w : Nat) (rotAlign : Vec ℝ 4 → Vec ℝ 4 → HMat ℝ) (n : Nat) :
    cylinderBuild false M w rotAlign none n = .ok none ∧ cylinderBuild true M w rotAlign none n = .error .assertFailed :=
  ⟨rfl, rfl⟩
end

section Examples
example : ∃ m, cylinderBuild true 256 8 rotAlignZ (some ⟨exSeg, 2⟩) 5 = .ok (some m) ∧
    ClosedMesh m ∧ m.vertices.length = 12 ∧ m.facets.length = 20 := by
  obtain ⟨m, h1, h2, h3, h4, _⟩ := C57_closed true 256 8 rotAlignZ ⟨exSeg, 2⟩ 5 (by decide) (by decide) (by norm_num) exSeg_ne
    (exSeg_rot _)
  exact ⟨m, h1, h2, h3, h4⟩

example : ∃ m, cylinderBuild true 256 8 rotAlignZ (some ⟨exSeg, 2⟩) 2 = .ok (some m) ∧
    ∀ v ∈ m.points, v = exSeg.source ∨ v = exSeg.target ∨ v ∈ circle exSeg.source exSeg.direction 2 ∨
      v ∈ circle exSeg.target exSeg.direction 2 := by
  obtain ⟨m, h⟩ := C57_in_range_partial true 256 8 rotAlignZ ⟨exSeg, 2⟩ 2 (by decide) (by decide)
  exact ⟨m, h, C60_cylinder true 256 8 rotAlignZ ⟨exSeg, 2⟩ 2 (by decide) (by decide) (by norm_num) exSeg_ne
    (exSeg_rot _) m h⟩

example : cylinderBuild true 256 8 rotAlignZ (some ⟨exSeg, 2⟩) 1 = .error .outOfRange :=
  C57_small_counterexample true 256 8 (by decide) rotAlignZ ⟨exSeg, 2⟩ 1 (by decide)
/-- Without a cylinder there is no mesh. -/
example : cylinderBuild false 256 8 rotAlignZ (none : Option (Cylinder ℝ)) 20 = .ok none := (C57_no_cylinder 256 8 rotAlignZ 20).1
end Examples

end Verif
