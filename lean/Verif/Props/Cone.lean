import Verif.Proofs.Cone
import Verif.Props.Builder
import Verif.Proofs.Tol
import Verif.Proofs.TolExample
import Verif.Proofs.Rotation

set_option linter.unusedSectionVars false

/-
C56 and the cone part of C60.
-/
namespace Verif
open Spec Matrix

section
variable [BEq (HMat ℝ)] [LawfulBEq (HMat ℝ)] [BEq (Vec ℝ 3)] [LawfulBEq (Vec ℝ 3)]

/-- Every vertex of a mesh built from an index buffer is one of the transformed points. -/
theorem build_points_mem (dbg : Bool) (M w : Nat) (trafo : HMat ℝ) (points : List (Vec ℝ 3)) (idx : List Nat)
    (hM : idx.length < M) (m : HalfedgeMesh (Vec ℝ 3)) (hm : buildTriangleHalfedgeMesh dbg M w trafo points idx = .ok m)
    (v : Vec ℝ 3) (hv : v ∈ m.points) : ∃ p ∈ points, v = transformVec p trafo := by
  rcases build_cases dbg M w trafo points idx (by omega) (by rintro rfl; exact build_debug_pre hm) with ⟨hi, he⟩ | ⟨_, he⟩
  swap
  · rw [he] at hm; simp at hm
  rw [he] at hm
  have hl := bufferTriangles_length trafo points idx
  obtain ⟨m', hm', hb⟩ := C48_build_succeeds dbg M w (bufferTriangles trafo points idx) (by omega)
  rw [hm, Except.ok.injEq] at hm'
  subst hm'
  rw [(C43_vertices dbg M _ (by omega) m hb).1, List.mem_eraseDups] at hv
  have hbt : bufferTriangles trafo points idx =
      ((triples idx).map reversed).map (mapTriangle fun i => transformVec (points.getD i 0) trafo) := by
    rw [bufferTriangles, List.map_map]; rfl
  rw [hbt, corners_map, List.mem_map] at hv
  obtain ⟨i, hi', rfl⟩ := hv
  have hlt : i < points.length := by
    rw [mem_corners_reversed, corners, List.mem_flatMap] at hi'
    obtain ⟨t, ht, h⟩ := hi'
    have := hi t ht
    simp only [List.mem_cons, List.not_mem_nil, or_false] at h
    rcases h with rfl | rfl | rfl
    · exact this.1
    · exact this.2.1
    · exact this.2.2
  exact ⟨points[i], List.getElem_mem hlt, by simp [List.getElem?_eq_getElem hlt]⟩
end

/-- After `set_translation`. -/
theorem describes_translation {m : HMat ℝ} {A : Matrix (Fin 3) (Fin 3) ℝ} {b : Vec ℝ 3} (h : Describes m A b) (v : Vec ℝ 3) :
    Describes (hmatSetTranslation m v) A v := by
  obtain ⟨h1, h2, h3, h4⟩ := h
  refine ⟨?_, ?_, ?_, ?_⟩
  · intro i j
    have : ¬ (j.castSucc = (3 : Fin 4)) := by
      intro h; have := congrArg Fin.val h; simp at this; omega
    simp only [hmatSetTranslation, if_neg this, h1]
  · intro i
    have : i.castSucc.val < 3 := i.isLt
    simp [hmatSetTranslation]
  · intro j
    have : ¬ (j.castSucc = (3 : Fin 4)) := by
      intro h; have := congrArg Fin.val h; simp at this; omega
    simp only [hmatSetTranslation, if_neg this, h3]
  · simp [hmatSetTranslation, h4]

theorem hvec4_eq_toHvec (d : Vec ℝ 3) : hvec4 (d 0) (d 1) (d 2) 1 = toHvec d := by
  funext j; fin_cases j <;> rfl

theorem isEq_self_real [Tol ℝ] [LawfulTol ℝ] (x : ℝ) : isEq x x = true := by
  have he : (0 : ℝ) < Tol.eps := LawfulTol.eps_pos
  have : Tol.isLess x x (Tol.eps : ℝ) = false := by
    by_contra h
    have := LawfulTol.of_isLess he (by simpa using h)
    linarith
  unfold isEq
  rw [LawfulTol.isEq_eq x x _ he, this]; rfl

/-- The placed transformation of a segment along whose direction the z-axis is turned. -/
theorem placed {R : HMat ℝ} {seg : Segment ℝ 3} (hR : RotatesZTo R seg.direction) :
    ∃ A : Matrix (Fin 3) (Fin 3) ℝ, Orthogonal A ∧ A.det = 1 ∧ A *ᵥ ![0, 0, 1] = seg.direction ∧
      ∀ p, transformVec p (hmatSetTranslation R seg.source) = affine A seg.source p := by
  obtain ⟨A, b, hd, ho, hdet, hz⟩ := hR
  exact ⟨A, ho, hdet, hz, fun p => transformVec_eq (describes_translation hd seg.source) p⟩

theorem conePoints_nodup {r h : ℝ} (hr : r ≠ 0) (hh : h ≠ 0) (n : Nat) :
    (vec3 0 0 0 :: discretizeCircle (vec3 0 0 0) r n .ccw ++ [vec3 0 0 h]).Nodup := by
  have hmem : ∀ p ∈ discretizeCircle (vec3 0 0 0) r n .ccw, p ≠ vec3 0 0 0 ∧ p ≠ vec3 0 0 h := by
    intro p hp
    rw [discretizeCircle_eq] at hp
    obtain ⟨i, _, rfl⟩ := List.mem_map.1 hp
    have hd := circlePt_dp r n (dirSign .ccw) i
    have hr2 : 0 < r ^ 2 := by positivity
    constructor
    · intro e
      rw [vec3_zero, zero_add] at e
      rw [e] at hd
      simp at hd
      exact hr2.ne hd
    · intro e
      have := congrFun e 2
      simp [circlePt] at this
      exact hh this.symm
  rw [List.cons_append, List.nodup_cons, List.nodup_append']
  refine ⟨?_, ?_, by simp, ?_⟩
  · rw [List.mem_append]
    rintro (h0 | h0)
    · exact (hmem _ h0).1 rfl
    · simp only [List.mem_singleton] at h0
      have := congrFun h0 2
      simp at this
      exact hh this.symm
  · rw [discretizeCircle_eq, List.nodup_map_iff_inj_on List.nodup_range]
    intro i hi j hj e
    exact circlePt_inj hr (dirSign_cases _) (List.mem_range.1 hi) (List.mem_range.1 hj) (add_left_cancel e)
  · intro p hp hq
    exact (hmem p hp).2 (by simpa using hq)

theorem bind_some {α : Type} (x : Res α) : (x >>= fun m => Except.ok (some m)) = x.map some := by cases x <;> rfl

theorem of_map_some {α : Type} {x : Res α} {m : α} (h : x.map some = .ok (some m)) : x = .ok m := by
  cases x with
  | error e => simp [Except.map] at h
  | ok a => simpa [Except.map] using h

theorem segment_dir_unit {seg : Segment ℝ 3} (h : seg.source ≠ seg.target) : length seg.direction = 1 :=
  length_normalize (by rw [vsub_eq]; exact sub_ne_zero.2 (Ne.symm h))

theorem segment_length_pos {seg : Segment ℝ 3} (h : seg.source ≠ seg.target) : 0 < seg.length :=
  length_pos (by rw [vsub_eq]; exact sub_ne_zero.2 (Ne.symm h))

theorem segment_target {seg : Segment ℝ 3} (h : seg.source ≠ seg.target) :
    seg.length • seg.direction + seg.source = seg.target := by
  have := (segment_length_pos h).ne'
  unfold Segment.direction
  rw [normalize_eq, smul_smul]
  unfold Segment.length at this ⊢
  rw [mul_inv_cancel₀ this, one_smul, vsub_eq, sub_add_cancel]

section
variable [BEq (HMat ℝ)] [LawfulBEq (HMat ℝ)] [BEq (Vec ℝ 3)] [LawfulBEq (Vec ℝ 3)] [Tol ℝ] [LawfulTol ℝ]

theorem coneBuild_eq (dbg : Bool) (M w : Nat) (rotAlign : Vec ℝ 4 → Vec ℝ 4 → HMat ℝ) (cone : Cone ℝ) (n : Nat)
    (hM : n + 1 < M) (hseg : cone.segment.source ≠ cone.segment.target)
    (hz : dbg = true → isZero cone.segment.length = false) :
    coneBuild dbg M w rotAlign (some cone) n =
      (buildTriangleHalfedgeMesh dbg M w
        (hmatSetTranslation (rotAlign (hvec4 0 0 1 1) (toHvec cone.segment.direction)) cone.segment.source)
        (vec3 0 0 0 :: discretizeCircle (vec3 0 0 0) cone.radius n .ccw ++ [vec3 0 0 cone.segment.length])
        (coneIdx n)).map some := by
  unfold coneBuild
  rw [Option.isSome_some, geoAssert_true, ok_bind]
  dsimp only
  have h1 : (geoAssert dbg (!isZero cone.segment.length) : Res PUnit) = .ok ⟨⟩ := by
    cases dbg
    · rfl
    · rw [hz rfl]; rfl
  rw [h1, ok_bind, segment_dir_unit hseg, isEq_self_real, geoAssert_true, ok_bind, hvec4_eq_toHvec,
    calcConeTriangles_eq M _ _ n hM, ok_bind]
  show (buildTriangleHalfedgeMesh dbg M w _ _ (coneIdx n) >>= fun m => Except.ok (some m)) = _
  exact bind_some _

/-- **C56** Building a cone mesh succeeds for every azimuth count (also 0, 1 and 2) that fits the index type: no index
is out of range and no assertion fails. -/
theorem C56_in_range (dbg : Bool) (M w : Nat) (rotAlign : Vec ℝ 4 → Vec ℝ 4 → HMat ℝ) (cone : Cone ℝ) (n : Nat)
    (hM : 6 * n + 1 < M) (hseg : cone.segment.source ≠ cone.segment.target)
    (hz : dbg = true → isZero cone.segment.length = false) :
    ∃ m, coneBuild dbg M w rotAlign (some cone) n = .ok (some m) := by
  rw [coneBuild_eq dbg M w rotAlign cone n (by omega) hseg hz, build_ok dbg M w]
  · obtain ⟨m, hm, _⟩ := C48_build_succeeds dbg M w (bufferTriangles
      (hmatSetTranslation (rotAlign (hvec4 0 0 1 1) (toHvec cone.segment.direction)) cone.segment.source)
      (vec3 0 0 0 :: discretizeCircle (vec3 0 0 0) cone.radius n .ccw ++ [vec3 0 0 cone.segment.length])
      (coneIdx n)) (by rw [bufferTriangles_length, coneIdx_length]; omega)
    exact ⟨m, by rw [hm]; rfl⟩
  · rw [coneIdx_length]; omega
  · simp
  · rw [coneIdx_length]; omega
  · intro i hi
    have hl : (vec3 0 0 0 :: discretizeCircle (vec3 0 0 0) cone.radius n .ccw ++ [vec3 0 0 cone.segment.length]).length = n + 2 := by
      simp [discretizeCircle_eq]
    rw [hl]
    by_cases hn : 1 ≤ n
    · exact (coneIdx_mem hn i).1 hi
    · obtain rfl : n = 0 := by omega
      simp [coneIdx] at hi

/-- **C56** For every azimuth count of at least three the cone mesh is a closed, consistently oriented surface with
`n + 2` vertices, `3 n` edges (two line indices each) and `2 n` triangles.  (`rot_align` only has to return a rotation
taking the z-axis to the cone's direction.) -/
theorem C56_closed (dbg : Bool) (M w : Nat) (rotAlign : Vec ℝ 4 → Vec ℝ 4 → HMat ℝ) (cone : Cone ℝ) (n : Nat) (hn : 3 ≤ n)
    (hM : 6 * n < M) (hr : cone.radius ≠ 0) (hseg : cone.segment.source ≠ cone.segment.target)
    (hz : dbg = true → isZero cone.segment.length = false)
    (hrot : RotatesZTo (rotAlign (hvec4 0 0 1 1) (toHvec cone.segment.direction)) cone.segment.direction) :
    ∃ m, coneBuild dbg M w rotAlign (some cone) n = .ok (some m) ∧ ClosedMesh m ∧
      m.vertices.length = n + 2 ∧ m.facets.length = 2 * n ∧
      ∀ MU, n + 2 ≤ MU → ∃ l, calcLineIndices dbg MU m = .ok l ∧ l.length = 2 * (3 * n) := by
  obtain ⟨A, hA, _, hz', htr⟩ := placed hrot
  rw [coneBuild_eq dbg M w rotAlign cone n (by omega) hseg hz]
  have hl : (vec3 0 0 0 :: discretizeCircle (vec3 0 0 0) cone.radius n .ccw ++ [vec3 0 0 cone.segment.length]).length = n + 2 := by
    simp [discretizeCircle_eq]
  obtain ⟨m, hm, hc, _, hv, hf, hli⟩ := closed_build dbg M w _ _ (coneIdx n) (by rw [coneIdx_length]; omega)
    (by rw [coneIdx_length]; omega) (by simp) (by rw [hl]; exact coneIdx_mem (by omega)) (coneIdx_closed hn)
    (by rw [coneIdx_triples]; exact loops_of_distinct (coneTri_distinct (by omega)))
    (conePoints_nodup hr (segment_length_pos hseg).ne' n)
    (show Function.Injective fun p => transformVec p
        (hmatSetTranslation (rotAlign (hvec4 0 0 1 1) (toHvec cone.segment.direction)) cone.segment.source) by
      rw [show (fun p => transformVec p (hmatSetTranslation (rotAlign (hvec4 0 0 1 1) (toHvec cone.segment.direction))
        cone.segment.source)) = affine A cone.segment.source from funext htr]
      exact hA.injective _)
  refine ⟨m, by rw [hm]; rfl, hc, by rw [hv, hl], by rw [hf, coneIdx_length]; omega, ?_⟩
  intro MU hU
  obtain ⟨l, h1, h2⟩ := hli MU (by rw [hl]; exact hU)
  exact ⟨l, h1, by rw [h2, coneIdx_length]; omega⟩

/-- **C60** All vertices of a cone mesh are the base centre, the apex or points of the base circle. -/
theorem C60_cone (dbg : Bool) (M w : Nat) (rotAlign : Vec ℝ 4 → Vec ℝ 4 → HMat ℝ) (cone : Cone ℝ) (n : Nat)
    (hM : 6 * n + 1 < M) (hr : 0 ≤ cone.radius) (hseg : cone.segment.source ≠ cone.segment.target)
    (hz : dbg = true → isZero cone.segment.length = false)
    (hrot : RotatesZTo (rotAlign (hvec4 0 0 1 1) (toHvec cone.segment.direction)) cone.segment.direction)
    (m : HalfedgeMesh (Vec ℝ 3)) (hm : coneBuild dbg M w rotAlign (some cone) n = .ok (some m)) :
    ∀ v ∈ m.points, v = cone.segment.source ∨ v = cone.segment.target ∨
      v ∈ circle cone.segment.source cone.segment.direction cone.radius := by
  obtain ⟨A, hA, _, hz', htr⟩ := placed hrot
  rw [coneBuild_eq dbg M w rotAlign cone n (by omega) hseg hz] at hm
  intro v hv
  have hm' := of_map_some hm
  obtain ⟨p, hp, rfl⟩ := build_points_mem dbg M w _ _ _ (by rw [coneIdx_length]; omega) m hm' v hv
  rw [htr]
  simp only [List.cons_append, List.mem_cons, List.mem_append, List.not_mem_nil, or_false] at hp
  rcases hp with rfl | hp | rfl
  · left; rw [vec3_zero]; simp [affine]
  · right; right
    rw [discretizeCircle_eq] at hp
    obtain ⟨i, _, rfl⟩ := List.mem_map.1 hp
    rw [vec3_zero, zero_add]
    have hs : affine A cone.segment.source 0 = cone.segment.source := by simp [affine]
    constructor
    · have hd := hA.dist cone.segment.source (circlePt cone.radius n (dirSign .ccw) i) 0
      rw [hs] at hd
      rw [hd, spec_dist_eq, sub_zero, circlePt_dp, Real.sqrt_sq hr]
    · rw [← hz', show affine A cone.segment.source (circlePt cone.radius n (dirSign .ccw) i) - cone.segment.source
        = A *ᵥ circlePt cone.radius n (dirSign .ccw) i by simp [affine], hA.dp, dp3]
      simp [circlePt]
  · right; left
    have e : (vec3 0 0 cone.segment.length : Vec ℝ 3) = cone.segment.length • ![0, 0, 1] := by
      funext j; fin_cases j <;> simp [vec3]
    rw [affine, e, Matrix.mulVec_smul, hz']
    exact segment_target hseg

/-- **C56** Without a cone, release builds return no mesh and debug builds stop at an assertion. -/
theorem C56_no_cone (M w : Nat) (rotAlign : Vec ℝ 4 → Vec ℝ 4 → HMat ℝ) (n : Nat) :
    coneBuild false M w rotAlign none n = .ok none ∧ coneBuild true M w rotAlign none n = .error .assertFailed :=
  ⟨rfl, rfl⟩

/-- **C56** With the largest count of the index type (`n = M - 1`) the loop over the base circle never ends. -/
theorem C56_largest_count_diverges (dbg : Bool) (M w : Nat) (rotAlign : Vec ℝ 4 → Vec ℝ 4 → HMat ℝ) (cone : Cone ℝ)
    (hM : 2 ≤ M) (hseg : cone.segment.source ≠ cone.segment.target)
    (hz : dbg = true → isZero cone.segment.length = false) :
    coneBuild dbg M w rotAlign (some cone) (M - 1) = .error .diverges := by
  unfold coneBuild
  rw [Option.isSome_some, geoAssert_true, ok_bind]
  dsimp only
  have h1 : (geoAssert dbg (!isZero cone.segment.length) : Res PUnit) = .ok ⟨⟩ := by
    cases dbg
    · rfl
    · rw [hz rfl]; rfl
  rw [h1, ok_bind, segment_dir_unit hseg, isEq_self_real, geoAssert_true, ok_bind]
  have : calcConeTriangles M cone.radius cone.segment.length (M - 1) = .error .diverges := by
    unfold calcConeTriangles calcCircleTriangles
    dsimp only
    have e : subM M (((0 + 1) % M + (M - 1)) % M) 1 = M - 1 := by
      rw [Nat.mod_eq_of_lt (show 0 + 1 < M by omega), show 0 + 1 + (M - 1) = M by omega, Nat.mod_self]
      unfold subM
      rw [Nat.mod_eq_of_lt (by omega)]; omega
    rw [e]
    have : loopIncl M ((0 + 1) % M) (M - 1) = .error .diverges := by
      unfold loopIncl; rw [if_neg (by omega)]
    rw [this]; rfl
  rw [this]; rfl
end

section Examples
attribute [local instance] realTol realTol_lawful

/-- An axis that is not parallel to the z-axis: from `(1, 0, 0)` to `(1, 3, 4)`. -/
def exSeg : Segment ℝ 3 := ⟨vec3 1 0 0, vec3 1 3 4⟩

theorem exSeg_ne : exSeg.source ≠ exSeg.target := fun h => by
  have := congrFun h 1
  simp [exSeg] at this

theorem exSeg_length : exSeg.length = 5 := by
  unfold Segment.length
  rw [length_eq, dp3, vsub_eq]
  simp only [exSeg, Pi.sub_apply, vec3_0, vec3_1, vec3_2]
  rw [show ((1 - 1) * (1 - 1) + (3 - 0) * (3 - 0) + (4 - 0) * (4 - 0) : ℝ) = 5 ^ 2 by norm_num]
  exact Real.sqrt_sq (by norm_num)

theorem exSeg_nonzero : isZero exSeg.length = false := by
  rw [exSeg_length]
  simp [isZero, Tol.isZero, Tol.eps]
  norm_num

theorem exSeg_rot (u : Vec ℝ 4) : RotatesZTo (rotAlignZ u (toHvec exSeg.direction)) exSeg.direction :=
  rotAlignZ_spec u (segment_dir_unit exSeg_ne)

example : ∃ m, coneBuild true 256 8 rotAlignZ (some ⟨exSeg, 2⟩) 5 = .ok (some m) ∧
    ClosedMesh m ∧ m.vertices.length = 7 ∧ m.facets.length = 10 := by
  obtain ⟨m, h1, h2, h3, h4, _⟩ := C56_closed true 256 8 rotAlignZ ⟨exSeg, 2⟩ 5 (by decide) (by decide) (by norm_num) exSeg_ne
    (fun _ => exSeg_nonzero) (exSeg_rot _)
  exact ⟨m, h1, h2, h3, h4⟩

example : ∃ m, coneBuild true 256 8 rotAlignZ (some ⟨exSeg, 2⟩) 1 = .ok (some m) ∧
    ∀ v ∈ m.points, v = exSeg.source ∨ v = exSeg.target ∨ v ∈ circle exSeg.source exSeg.direction 2 := by
  obtain ⟨m, h⟩ := C56_in_range true 256 8 rotAlignZ ⟨exSeg, 2⟩ 1 (by decide) exSeg_ne (fun _ => exSeg_nonzero)
  exact ⟨m, h, C60_cone true 256 8 rotAlignZ ⟨exSeg, 2⟩ 1 (by decide) (by norm_num) exSeg_ne (fun _ => exSeg_nonzero)
    (exSeg_rot _) m h⟩

example : coneBuild true 256 8 rotAlignZ (some ⟨exSeg, 2⟩) 255 = .error .diverges :=
  C56_largest_count_diverges true 256 8 rotAlignZ ⟨exSeg, 2⟩ (by decide) exSeg_ne (fun _ => exSeg_nonzero)
/-- Without a cone there is no mesh. -/
example : coneBuild false 256 8 rotAlignZ (none : Option (Cone ℝ)) 20 = .ok none := (C56_no_cone 256 8 rotAlignZ 20).1
end Examples

end Verif
