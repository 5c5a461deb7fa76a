import Verif.Proofs.Transform
import Verif.Proofs.Tol
import Verif.Proofs.TolExample
import Verif.Proofs.Res
import Verif.Spec.Box

set_option linter.unusedSectionVars false

/-
Properties C62–C66: transformations of points, segments, boxes, spheres, circles, cones and cylinders.
-/
namespace Verif
open Spec Matrix

/-! ### C62 -/
section
variable {K : Type*} [Field K]

/-- **C62** A matrix that describes the affine map `p ↦ A p + b` moves points by that map. -/
theorem C62_affine {m : HMat K} {A : Matrix (Fin 3) (Fin 3) K} {b : Vec K 3} (h : Describes m A b) (v : Vec K 3) :
    transformVec v m = A *ᵥ v + b := transformVec_eq h v

/-- **C62** Transforming by a product is transforming successively (the inner matrix must be affine: the code does not
divide by the fourth coordinate). -/
theorem C62_compose (m : HMat K) {n : HMat K} (hn : ∀ j, n 3 j = if j = 3 then 1 else 0) (v : Vec K 3) :
    transformVec v (hmatMul m n) = transformVec (transformVec v n) m := by
  funext i
  simp only [transformVec_apply, hmatMul, dot_eq, dotProduct, Fin.sum_univ_four]
  have h0 := hn 0
  have h1 := hn 1
  have h2 := hn 2
  have h3 := hn 3
  simp only [show ((0 : Fin 4) = 3) = False by decide, show ((1 : Fin 4) = 3) = False by decide,
    show ((2 : Fin 4) = 3) = False by decide, if_true, if_false] at h0 h1 h2 h3
  simp only [h0, h1, h2, h3, Fin.castSucc_zero, Fin.castSucc_one, show (2 : Fin 3).castSucc = (2 : Fin 4) from rfl]
  ring

/-- **C62** The identity matrix changes nothing. -/
theorem C62_identity (v : Vec K 3) : transformVec v hmatIdentity = v := by
  funext i
  rw [transformVec_apply]
  match i with
  | 0 => simp [hmatIdentity]
  | 1 => simp [hmatIdentity]
  | 2 => simp [hmatIdentity, show (Fin.castSucc 2 : Fin 4) = 2 from rfl]

/-- **C62** The same for segments, and the transformed segment is the image of the segment. -/
theorem C62_segment {K : Type*} [Field K] [LinearOrder K] (m : HMat K) {n : HMat K} (hn : ∀ j, n 3 j = if j = 3 then 1 else 0) (s : Segment K 3) :
    transformSegment s (hmatMul m n) = transformSegment (transformSegment s n) m ∧
    transformSegment s hmatIdentity = s ∧
    (fun p => transformVec p m) '' Spec.segment s.source s.target =
      Spec.segment (transformSegment s m).source (transformSegment s m).target := by
  refine ⟨?_, ?_, ?_⟩
  · simp only [transformSegment, C62_compose m hn]
  · simp only [transformSegment, C62_identity]
  · have key : ∀ t, (transformVec (fun i => s.source i + t * (s.target i - s.source i)) m) =
        fun i => transformVec s.source m i + t * (transformVec s.target m i - transformVec s.source m i) := by
      intro t; funext i; simp only [transformVec_apply]; ring
    ext q
    constructor
    · rintro ⟨p, ⟨t, h0, h1, rfl⟩, rfl⟩
      exact ⟨t, h0, h1, key t⟩
    · rintro ⟨t, h0, h1, rfl⟩
      exact ⟨_, ⟨t, h0, h1, rfl⟩, key t⟩

/-- **C62** Without affinity of the inner matrix the law fails. -/
theorem C62_affine_needed : ∃ (m n : HMat ℚ) (v : Vec ℚ 3),
    transformVec v (hmatMul m n) ≠ transformVec (transformVec v n) m := by
  refine ⟨fun i j => if i = j ∨ (i = 0 ∧ j = 3) then 1 else 0, fun i j => if i = j then 2 else 0, fun _ => 1, ?_⟩
  intro h
  exact absurd (congrFun h 0) (by decide +kernel)
end

/-! ### C63 -/
section
variable {K : Type*} [Field K] [LinearOrder K] [IsStrictOrderedRing K] [Tol K]

/-- **C63** (false as stated) A rotation by 180° about the z axis: the debug build stops at the assertion of the box
constructor, the release build returns a "box" that contains no image at all. -/
theorem C63_counterexample : ∃ (A : Matrix (Fin 3) (Fin 3) ℝ) (m : HMat ℝ) (b : AABB ℝ 3), Orthogonal A ∧ A.det = 1 ∧
    Describes m A 0 ∧ (∀ i, b.min i < b.max i) ∧
    (∀ [Tol ℝ] [LawfulTol ℝ], transformAABB true b m = .error .assertFailed) ∧
    ∀ [Tol ℝ], ∃ b', transformAABB false b m = .ok b' ∧ ∀ p, ¬ inBox b'.min b'.max 0 p := by
  refine ⟨!![-1, 0, 0; 0, -1, 0; 0, 0, 1], ![![-1, 0, 0, 0], ![0, -1, 0, 0], ![0, 0, 1, 0], ![0, 0, 0, 1]],
    ⟨fun _ => 0, fun _ => 1⟩, ?_, ?_, ?_, fun i => by simp, ?_, ?_⟩
  · unfold Orthogonal
    ext i j
    fin_cases i <;> fin_cases j <;> simp [Matrix.mul_apply, Fin.sum_univ_three, Matrix.transpose_apply]
  · simp [Matrix.det_fin_three]
  · refine ⟨?_, ?_, ?_, ?_⟩
    · intro i j; fin_cases i <;> fin_cases j <;> rfl
    · intro i; fin_cases i <;> rfl
    · intro j; fin_cases j <;> rfl
    · rfl
  · intro _ _
    have hv : AABB.isValid (⟨transformVec (fun _ => 0) ![![-1, 0, 0, 0], ![0, -1, 0, 0], ![0, 0, 1, 0], ![0, 0, 0, 1]],
        transformVec (fun _ => 1) ![![-1, 0, 0, 0], ![0, -1, 0, 0], ![0, 0, 1, 0], ![0, 0, 0, 1]]⟩ : AABB ℝ 3) = false := by
      rw [← Bool.not_eq_true, AABB.isValid, forallFin_iff]
      intro h
      have h0 := h 0
      simp only [transformVec_apply, isGreaterEq_eq, Bool.not_not] at h0
      have := of_isLess h0
      have he := eps_pos (K := ℝ)
      simp at this
      linarith
    simp [transformAABB, AABB.mk?, hv, geoAssert]
  · intro _
    refine ⟨_, rfl, fun p hp => ?_⟩
    have h0 := hp 0
    simp only [inInterval, transformVec_apply] at h0
    simp at h0
    linarith [h0.1, h0.2]

/-- **C63** (what holds) The transformed box bounds the image of every point of every box exactly when the linear part
of the transformation has no negative entry.  Missing for the full property: rotations and reflections. -/
theorem C63_partial {m : HMat K} {A : Matrix (Fin 3) (Fin 3) K} {b : Vec K 3} (h : Describes m A b) :
    (∀ i j, 0 ≤ A i j) ↔
      ∀ (box : AABB K 3), (∀ i, box.min i < box.max i) → ∃ box', transformAABB false box m = .ok box' ∧
        ∀ p, inBox box.min box.max 0 p → inBox box'.min box'.max 0 (transformVec p m) := by
  constructor
  · intro hA box _
    refine ⟨_, rfl, fun p hp i => ?_⟩
    simp only [inInterval, transformVec_eq h, affine, Pi.add_apply, mulVec, dotProduct, sub_zero, add_zero]
    refine ⟨?_, ?_⟩
    · gcongr with j
      · exact hA i j
      · have := (hp j).1; simpa using this
    · gcongr with j
      · exact hA i j
      · have := (hp j).2; simpa using this
  · intro hb i j
    obtain ⟨box', h1, h2⟩ := hb ⟨0, 1⟩ (fun i => by simp)
    cases h1
    have h3 := (h2 (Pi.single j 1) (fun k => by
      by_cases hk : k = j
      · subst hk; simp [inInterval]
      · simp [inInterval, Pi.single_eq_of_ne hk]) i).1
    simp only [transformVec_eq h, affine, Pi.add_apply, mulVec_zero, mulVec_single_one, Pi.zero_apply,
      zero_add, sub_zero] at h3
    have : A.col j i = A i j := rfl
    linarith

/-- **C63** When the debug build accepts the transformation, its result is the one of the release build. -/
theorem C63_debug (box box' : AABB K 3) (m : HMat K) (h : transformAABB true box m = .ok box') :
    transformAABB false box m = .ok box' := by
  unfold transformAABB AABB.mk? at *
  simp only [geoAssert] at *
  split at h
  · cases h
  · exact h
end

/-! ### C64 -/
section
variable {m : HMat ℝ} {A : Matrix (Fin 3) (Fin 3) ℝ} {b : Vec ℝ 3}

/-- **C64** A rigid motion maps the sphere exactly onto the transformed sphere. -/
theorem C64_sphere (h : Describes m A b) (hA : Orthogonal A) (s : Sphere ℝ) :
    (∀ p, p ∈ Spec.sphere s.origin s.radius ↔
      transformVec p m ∈ Spec.sphere (transformSphere s m).origin (transformSphere s m).radius) ∧
    (fun p => transformVec p m) '' Spec.sphere s.origin s.radius =
      Spec.sphere (transformSphere s m).origin (transformSphere s m).radius := by
  have key : ∀ p, p ∈ Spec.sphere s.origin s.radius ↔
      transformVec p m ∈ Spec.sphere (transformSphere s m).origin (transformSphere s m).radius := by
    intro p
    simp only [Spec.sphere, Set.mem_ofPred_eq, transformSphere, transformVec_eq h, hA.dist]
  refine ⟨key, image_eq_of_iff ?_ key⟩
  intro q
  obtain ⟨p, hp⟩ := hA.surjective b q
  exact ⟨p, by rw [← hp]; exact transformVec_eq h p⟩

/-- **C64** Also `contains` is preserved. -/
theorem C64_contains [Tol ℝ] (h : Describes m A b) (hA : Orthogonal A) (s : Sphere ℝ) (p : Vec ℝ 3) :
    (transformSphere s m).contains (transformVec p m) = s.contains p := by
  simp only [Sphere.contains, transformSphere, length_vsub, transformVec_eq h, hA.dist]

/-! ### C65 -/

/-- **C65** (false as stated) A rotation by 90° about the x axis: the circle's normal is not rotated, so the image of a
point of the circle is not on the transformed circle. -/
theorem C65_counterexample : ∃ (A : Matrix (Fin 3) (Fin 3) ℝ) (m : HMat ℝ) (c : Circle3 ℝ) (p : Vec ℝ 3), Orthogonal A ∧
    A.det = 1 ∧ Describes m A 0 ∧ 0 < c.radius ∧ c.normal ⬝ᵥ c.normal = 1 ∧ p ∈ Spec.circle c.origin c.normal c.radius ∧
    transformVec p m ∉
      Spec.circle (transformCircle3 c m).origin (transformCircle3 c m).normal (transformCircle3 c m).radius := by
  refine ⟨!![1, 0, 0; 0, 0, -1; 0, 1, 0], ![![1, 0, 0, 0], ![0, 0, -1, 0], ![0, 1, 0, 0], ![0, 0, 0, 1]],
    ⟨fun _ => 0, 1, ![0, 0, 1]⟩, ![0, 1, 0], ?_, ?_, ?_, by norm_num, ?_, ?_, ?_⟩
  · unfold Orthogonal
    ext i j
    fin_cases i <;> fin_cases j <;> simp [Matrix.mul_apply, Fin.sum_univ_three, Matrix.transpose_apply]
  · simp [Matrix.det_fin_three]
  · refine ⟨?_, ?_, ?_, ?_⟩
    · intro i j; fin_cases i <;> fin_cases j <;> rfl
    · intro i; fin_cases i <;> rfl
    · intro j; fin_cases j <;> rfl
    · rfl
  · simp [dotProduct, Fin.sum_univ_three]
  · refine ⟨?_, ?_⟩
    · simp [spec_dist_eq, dotProduct, Fin.sum_univ_three]
    · simp [dotProduct, Fin.sum_univ_three]
  · rintro ⟨-, h⟩
    simp only [dotProduct, Fin.sum_univ_three, Pi.sub_apply, transformCircle3, transformVec_apply] at h
    simp [show (Fin.castSucc 2 : Fin 4) = 2 from rfl] at h

/-- **C65** (what holds) For a rigid motion that keeps the direction of the circle's normal (up to sign), the transformed
circle is the image of the circle.  Missing for the full property: motions that turn the normal. -/
theorem C65_partial (h : Describes m A b) (hA : Orthogonal A) (c : Circle3 ℝ)
    (hn : A *ᵥ c.normal = c.normal ∨ A *ᵥ c.normal = -c.normal) :
    (∀ p, p ∈ Spec.circle c.origin c.normal c.radius ↔ transformVec p m ∈
      Spec.circle (transformCircle3 c m).origin (transformCircle3 c m).normal (transformCircle3 c m).radius) ∧
    (fun p => transformVec p m) '' Spec.circle c.origin c.normal c.radius =
      Spec.circle (transformCircle3 c m).origin (transformCircle3 c m).normal (transformCircle3 c m).radius := by
  have key : ∀ p, p ∈ Spec.circle c.origin c.normal c.radius ↔ transformVec p m ∈
      Spec.circle (transformCircle3 c m).origin (transformCircle3 c m).normal (transformCircle3 c m).radius := by
    intro p
    simp only [Spec.circle, Set.mem_ofPred_eq, transformCircle3, transformVec_eq h, hA.dist, affine_sub]
    have hd := hA.dp (p - c.origin) c.normal
    rcases hn with hn | hn
    · rw [hn] at hd; rw [hd]
    · rw [hn, dotProduct_neg] at hd
      rw [← hd, neg_eq_zero]
  refine ⟨key, image_eq_of_iff ?_ key⟩
  intro q
  obtain ⟨p, hp⟩ := hA.surjective b q
  exact ⟨p, by rw [← hp]; exact transformVec_eq h p⟩

/-- **C65** The condition of `C65_partial` cannot be weakened: for a circle with positive radius and a non-zero normal, a
rigid motion that maps every point of the circle to the transformed circle keeps the normal up to sign. -/
theorem C65_exact (h : Describes m A b) (hA : Orthogonal A) (c : Circle3 ℝ) (hr : 0 < c.radius) (hn : c.normal ≠ 0)
    (himg : ∀ p, p ∈ Spec.circle c.origin c.normal c.radius → transformVec p m ∈
      Spec.circle (transformCircle3 c m).origin (transformCircle3 c m).normal (transformCircle3 c m).radius) :
    A *ᵥ c.normal = c.normal ∨ A *ᵥ c.normal = -c.normal := by
  have hnn := dp_self_pos hn
  have key : ∀ u : Vec ℝ 3, u ⬝ᵥ c.normal = 0 → (A *ᵥ u) ⬝ᵥ c.normal = 0 := by
    intro u hu
    by_cases hu0 : u = 0
    · subst hu0; simp
    have hl := length_pos hu0
    have hp := himg (c.origin + (c.radius / length u) • u) (by
      refine ⟨?_, ?_⟩
      · rw [spec_dist_eq, add_sub_cancel_left, dp_smul_self, ← length_sq, ← mul_pow, div_mul_cancel₀ _ hl.ne',
          Real.sqrt_sq hr.le]
      · rw [add_sub_cancel_left, smul_dotProduct, hu, smul_zero])
    have h2 := hp.2
    simp only [transformCircle3, transformVec_eq h, affine_sub, add_sub_cancel_left, mulVec_smul, smul_dotProduct,
      smul_eq_mul] at h2
    exact (mul_eq_zero.1 h2).resolve_left (by positivity)
  set w := Aᵀ *ᵥ c.normal with hw
  have hAw : A *ᵥ w = c.normal := by
    rw [hw, mulVec_mulVec, mul_eq_one_comm.1 hA, one_mulVec]
  have key' : ∀ u : Vec ℝ 3, u ⬝ᵥ c.normal = 0 → u ⬝ᵥ w = 0 := by
    intro u hu
    rw [← hA.dp, hAw]; exact key u hu
  set k := w ⬝ᵥ c.normal / (c.normal ⬝ᵥ c.normal) with hk
  have hu : (w - k • c.normal) ⬝ᵥ c.normal = 0 := by
    rw [sub_dotProduct, smul_dotProduct, smul_eq_mul, hk, div_mul_cancel₀ _ hnn.ne', sub_self]
  have hu2 : w - k • c.normal = 0 := by
    rw [← dp_self_eq_zero, dotProduct_sub, key' _ hu, dotProduct_smul, hu]; simp
  have hwk : w = k • c.normal := sub_eq_zero.1 hu2
  have hk1 : k ^ 2 = 1 := by
    have h3 := hA.dp w w
    rw [hAw, hwk, dp_smul_self] at h3
    exact (mul_right_cancel₀ hnn.ne' (by rw [one_mul]; exact h3)).symm
  have h4 : k • (A *ᵥ c.normal) = c.normal := by rw [← mulVec_smul, ← hwk, hAw]
  have hk2 : k = 1 ∨ k = -1 := by
    have : (k - 1) * (k + 1) = 0 := by linear_combination hk1
    rcases mul_eq_zero.1 this with h | h
    · exact Or.inl (by linarith)
    · exact Or.inr (by linarith)
  rcases hk2 with h5 | h5
  · left; rw [h5, one_smul] at h4; exact h4
  · right; rw [h5, neg_smul, one_smul] at h4; exact neg_eq_iff_eq_neg.1 h4

/-- **C65** The circles in the plane: a rigid motion of the plane maps the circle exactly onto the transformed one, and
the call does not trip an assertion for a non-negative radius. -/
theorem C65_circle2 (dbg : Bool) {A : Matrix (Fin 2) (Fin 2) ℝ} {b : Vec ℝ 2} (h : DescribesPlanar m A b)
    (hA : Orthogonal A) (c : Circle2 ℝ) (hr : 0 ≤ c.radius) :
    ∃ c', transformCircle2 dbg c m = .ok c' ∧
      affine A b '' Spec.sphere c.origin c.radius = Spec.sphere c'.origin c'.radius := by
  have hv : (fun i : Fin 2 => transformVec (fun i => if h : i.val < 2 then c.origin ⟨i.val, h⟩ else 0) m
      (i.castLE (by decide))) = affine A b c.origin := by
    funext i
    rw [transformVec_apply, affine, Pi.add_apply, mulVec, dotProduct, Fin.sum_univ_two]
    have h0 := h.1 i 0
    have h1 := h.1 i 1
    have h2 := h.2 i
    rw [← h0, ← h1, ← h2]
    simp
  refine ⟨⟨affine A b c.origin, c.radius⟩, ?_, ?_⟩
  · simp only [transformCircle2, Circle2.make, hv, decide_eq_true hr, geoAssert_true]
    rfl
  · refine image_eq_of_iff (hA.surjective b) fun p => ?_
    simp only [Spec.sphere, Set.mem_ofPred_eq, hA.dist]

/-! ### C66 -/

/-- **C66** Cones: image of both axis ends, same measures. -/
theorem C66_cone (h : Describes m A b) (hA : Orthogonal A) (c : Cone ℝ) :
    (transformCone c m).segment.source = A *ᵥ c.segment.source + b ∧
    (transformCone c m).segment.target = A *ᵥ c.segment.target + b ∧ (transformCone c m).radius = c.radius ∧
    (transformCone c m).height = c.height ∧ (transformCone c m).slantHeight = c.slantHeight ∧
    (transformCone c m).openingAngle = c.openingAngle := by
  have hh : (transformCone c m).height = c.height := by
    simp only [Cone.height, Segment.length, transformCone, transformSegment, length_vsub, transformVec_eq h, hA.dist]
  refine ⟨transformVec_eq h _, transformVec_eq h _, rfl, hh, ?_, ?_⟩
  · rw [Cone.slantHeight, hh]; rfl
  · rw [Cone.openingAngle, hh]; rfl

/-- **C66** Cylinders: image of both axis ends, same measures. -/
theorem C66_cylinder (h : Describes m A b) (hA : Orthogonal A) (c : Cylinder ℝ) :
    (transformCylinder c m).segment.source = A *ᵥ c.segment.source + b ∧
    (transformCylinder c m).segment.target = A *ᵥ c.segment.target + b ∧ (transformCylinder c m).radius = c.radius ∧
    (transformCylinder c m).height = c.height := by
  refine ⟨transformVec_eq h _, transformVec_eq h _, rfl, ?_⟩
  simp only [Cylinder.height, Segment.length, transformCylinder, transformSegment, length_vsub, transformVec_eq h, hA.dist]
end

section Examples
attribute [local instance] ratTol ratTol_lawful realTol realTol_lawful

/-- Rotation by 90° about the z axis followed by a translation. -/
def exRot : HMat ℝ := ![![0, -1, 0, 3], ![1, 0, 0, 4], ![0, 0, 1, 5], ![0, 0, 0, 1]]

theorem exRot_describes : Describes exRot !![0, -1, 0; 1, 0, 0; 0, 0, 1] ![3, 4, 5] := by
  refine ⟨?_, ?_, ?_, rfl⟩
  · intro i j; fin_cases i <;> fin_cases j <;> rfl
  · intro i; fin_cases i <;> rfl
  · intro j; fin_cases j <;> rfl

theorem exRot_orthogonal : Orthogonal !![0, -1, 0; 1, 0, 0; 0, 0, (1 : ℝ)] := by
  unfold Orthogonal
  ext i j
  fin_cases i <;> fin_cases j <;> simp [Matrix.mul_apply, Fin.sum_univ_three, Matrix.transpose_apply]

example : transformVec ![1, 2, 3] exRot = !![0, -1, 0; 1, 0, 0; 0, 0, (1 : ℝ)] *ᵥ ![1, 2, 3] + ![3, 4, 5] :=
  C62_affine exRot_describes _

example : transformVec ![1, 2, 3] (hmatMul exRot exRot) = transformVec (transformVec ![1, 2, 3] exRot) exRot :=
  C62_compose exRot (fun j => by fin_cases j <;> rfl) _

example (s : Segment ℝ 3) : transformSegment s (hmatMul exRot exRot) = transformSegment (transformSegment s exRot) exRot :=
  (C62_segment exRot (fun j => by fin_cases j <;> rfl) s).1

example : ∃ box', transformAABB false (⟨0, 1⟩ : AABB ℚ 3) (![![1, 2, 0, 3], ![0, 1, 0, 4], ![0, 0, 1, 5], ![0, 0, 0, 1]]) = .ok box' ∧
    ∀ p, inBox (0 : Vec ℚ 3) 1 0 p →
      inBox box'.min box'.max 0 (transformVec p ![![1, 2, 0, 3], ![0, 1, 0, 4], ![0, 0, 1, 5], ![0, 0, 0, 1]]) :=
  (C63_partial (A := !![1, 2, 0; 0, 1, 0; 0, 0, 1]) (b := ![3, 4, 5])
    ⟨by intro i j; fin_cases i <;> fin_cases j <;> rfl, by intro i; fin_cases i <;> rfl,
      by intro j; fin_cases j <;> rfl, rfl⟩).1
    (by intro i j; fin_cases i <;> fin_cases j <;> simp) ⟨0, 1⟩ (fun i => by simp)

example : ∃ b', transformAABB true (⟨0, 1⟩ : AABB ℚ 3) ![![1, 2, 0, 3], ![0, 1, 0, 4], ![0, 0, 1, 5], ![0, 0, 0, 1]] = .ok b' ∧
    transformAABB false (⟨0, 1⟩ : AABB ℚ 3) ![![1, 2, 0, 3], ![0, 1, 0, 4], ![0, 0, 1, 5], ![0, 0, 0, 1]] = .ok b' := by
  have h : transformAABB true (⟨0, 1⟩ : AABB ℚ 3) ![![1, 2, 0, 3], ![0, 1, 0, 4], ![0, 0, 1, 5], ![0, 0, 0, 1]] =
      .ok ⟨transformVec 0 ![![1, 2, 0, 3], ![0, 1, 0, 4], ![0, 0, 1, 5], ![0, 0, 0, 1]],
        transformVec 1 ![![1, 2, 0, 3], ![0, 1, 0, 4], ![0, 0, 1, 5], ![0, 0, 0, 1]]⟩ := by
    unfold transformAABB AABB.mk? geoAssert
    dsimp only
    rw [show AABB.isValid (⟨transformVec (0 : Vec ℚ 3) ![![1, 2, 0, 3], ![0, 1, 0, 4], ![0, 0, 1, 5], ![0, 0, 0, 1]],
      transformVec (1 : Vec ℚ 3) ![![1, 2, 0, 3], ![0, 1, 0, 4], ![0, 0, 1, 5], ![0, 0, 0, 1]]⟩ : AABB ℚ 3) = true by
      decide +kernel]
    rfl
  exact ⟨_, h, C63_debug _ _ _ h⟩

example (p : Vec ℝ 3) : p ∈ Spec.sphere ![1, 2, 3] 4 ↔
    transformVec p exRot ∈ Spec.sphere (transformSphere ⟨![1, 2, 3], 4⟩ exRot).origin 4 :=
  (C64_sphere exRot_describes exRot_orthogonal ⟨![1, 2, 3], 4⟩).1 p

example (p : Vec ℝ 3) : (transformSphere ⟨![1, 2, 3], 4⟩ exRot).contains (transformVec p exRot) =
    (⟨![1, 2, 3], 4⟩ : Sphere ℝ).contains p := C64_contains exRot_describes exRot_orthogonal _ p

example (p : Vec ℝ 3) : p ∈ Spec.circle ![1, 2, 3] ![0, 0, 1] 4 ↔
    transformVec p exRot ∈ Spec.circle (transformCircle3 ⟨![1, 2, 3], 4, ![0, 0, 1]⟩ exRot).origin ![0, 0, 1] 4 :=
  (C65_partial exRot_describes exRot_orthogonal ⟨![1, 2, 3], 4, ![0, 0, 1]⟩
    (Or.inl (by funext i; fin_cases i <;> simp [mulVec, dotProduct, Fin.sum_univ_three]))).1 p

example : !![0, -1, 0; 1, 0, 0; 0, 0, (1 : ℝ)] *ᵥ ![0, 0, 1] = ![0, 0, 1] ∨
    !![0, -1, 0; 1, 0, 0; 0, 0, (1 : ℝ)] *ᵥ ![0, 0, 1] = -![0, 0, 1] :=
  C65_exact exRot_describes exRot_orthogonal ⟨![1, 2, 3], 4, ![0, 0, 1]⟩ (by norm_num)
    (by intro h; simpa using congrFun h 2) fun p => ((C65_partial exRot_describes exRot_orthogonal ⟨![1, 2, 3], 4, ![0, 0, 1]⟩
      (Or.inl (by funext i; fin_cases i <;> simp [mulVec, dotProduct, Fin.sum_univ_three]))).1 p).1

example : ∃ c', transformCircle2 true (⟨![1, 2], 4⟩ : Circle2 ℝ) exRot = .ok c' ∧
    affine !![0, -1; 1, 0] ![3, 4] '' Spec.sphere ![1, 2] 4 = Spec.sphere c'.origin c'.radius :=
  C65_circle2 true ⟨by intro i j; fin_cases i <;> fin_cases j <;> rfl, by intro i; fin_cases i <;> rfl⟩
    (by unfold Orthogonal; ext i j
        fin_cases i <;> fin_cases j <;> simp [Matrix.mul_apply, Fin.sum_univ_two, Matrix.transpose_apply])
    ⟨![1, 2], 4⟩ (by norm_num)

example (c : Cone ℝ) : (transformCone c exRot).height = c.height :=
  (C66_cone exRot_describes exRot_orthogonal c).2.2.2.1

example (c : Cylinder ℝ) : (transformCylinder c exRot).height = c.height :=
  (C66_cylinder exRot_describes exRot_orthogonal c).2.2.2
example : transformVec ![1, 2, 3] hmatIdentity = (![1, 2, 3] : Vec ℚ 3) := C62_identity _
end Examples
end Verif
