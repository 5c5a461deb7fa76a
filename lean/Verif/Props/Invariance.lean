import Verif.Model.Intersect
import Verif.Proofs.Distance
import Verif.Proofs.Transform
import Verif.Proofs.TolExample
import Verif.Props.Transform
import Mathlib.LinearAlgebra.Matrix.Determinant.Basic

set_option linter.unusedSectionVars false

/-
C99, C100: distances do not change and intersections move along when everything is moved.
-/
namespace Verif
open Spec Matrix

/-- The image of a line; the library has no function for this, a user transforms origin and direction (`C99_make`). -/
noncomputable def Line.moved (m : HMat ℝ) (A : Matrix (Fin 3) (Fin 3) ℝ) (l : Line ℝ 3) : Line ℝ 3 := ⟨transformVec l.origin m, A *ᵥ l.direction⟩
/-- The image of a ray. -/
noncomputable def Ray.moved (m : HMat ℝ) (A : Matrix (Fin 3) (Fin 3) ℝ) (r : Ray ℝ 3) : Ray ℝ 3 := ⟨transformVec r.origin m, A *ᵥ r.direction⟩
/-- The image of a plane. -/
noncomputable def Plane.moved (m : HMat ℝ) (A : Matrix (Fin 3) (Fin 3) ℝ) (p : Plane ℝ) : Plane ℝ := ⟨transformVec p.origin m, A *ᵥ p.normal⟩

section
variable {m : HMat ℝ} {A : Matrix (Fin 3) (Fin 3) ℝ} {b : Vec ℝ 3}

theorem vsub_moved (h : Describes m A b) (p q : Vec ℝ 3) : vsub (transformVec p m) (transformVec q m) = A *ᵥ vsub p q := by
  rw [transformVec_eq h, transformVec_eq h, vsub_eq, vsub_eq, affine_sub]

theorem point_moved (h : Describes m A b) (p d : Vec ℝ 3) (t : ℝ) :
    vadd (transformVec p m) (vscale (A *ᵥ d) t) = transformVec (vadd p (vscale d t)) m := by
  rw [transformVec_eq h, transformVec_eq h, vadd_eq, vadd_eq, vscale_eq, vscale_eq, affine, affine, mulVec_add, mulVec_smul]
  abel

theorem dot_moved {D : ℕ} {A : Matrix (Fin D) (Fin D) ℝ} (hA : Orthogonal A) (u v : Vec ℝ D) : dot (A *ᵥ u) (A *ᵥ v) = dot u v := by
  rw [dot_eq, dot_eq, hA.dp]

theorem length_moved {D : ℕ} {A : Matrix (Fin D) (Fin D) ℝ} (hA : Orthogonal A) (v : Vec ℝ D) : length (A *ᵥ v) = length v := by
  rw [length, length, dot_moved hA]

theorem normalize_moved {D : ℕ} {A : Matrix (Fin D) (Fin D) ℝ} (hA : Orthogonal A) (v : Vec ℝ D) :
    normalize (A *ᵥ v) = A *ᵥ normalize v := by
  rw [normalize, normalize, length_moved hA, vdiv_eq, vdiv_eq, mulVec_smul]

theorem rejection_moved {D : ℕ} {A : Matrix (Fin D) (Fin D) ℝ} (hA : Orthogonal A) (u v : Vec ℝ D) :
    rejection (A *ᵥ u) (A *ᵥ v) = A *ᵥ rejection u v := by
  rw [rejection_eq, rejection_eq, hA.dp, hA.dp, mulVec_sub, mulVec_smul]

theorem det_moved (A : Matrix (Fin 3) (Fin 3) ℝ) (w d e : Vec ℝ 3) :
    dot (A *ᵥ w) (cross (A *ᵥ d) (A *ᵥ e)) = A.det * dot w (cross d e) := by
  rw [dot_eq, dot_eq, det_fin_three]
  simp [dotProduct, mulVec, Fin.sum_univ_three, cross]
  ring

theorem cross_length_moved (hA : Orthogonal A) (d e : Vec ℝ 3) : length (cross (A *ᵥ d) (A *ᵥ e)) = length (cross d e) := by
  rw [length_eq, length_eq, cross_dp_self, cross_dp_self, gram_eq, gram_eq, hA.dp, hA.dp, hA.dp]

theorem closest_moved [Tol ℝ] (h : Describes m A b) (hA : Orthogonal A) (p d q e : Vec ℝ 3) (eps : ℝ) :
    closestPointOnLineParameters (transformVec p m) (A *ᵥ d) (transformVec q m) (A *ᵥ e) eps = closestPointOnLineParameters p d q e eps := by
  simp only [closestPointOnLineParameters, vsub_moved h, dot_moved hA]

/-- **C99** What the image of a line, ray or plane is: the constructor applied to the images of two points. -/
theorem C99_make [Tol ℝ] (h : Describes m A b) (hA : Orthogonal A) (dbg : Bool) (o d : Vec ℝ 3) :
    Line.make (transformVec o m) (vsub (transformVec (vadd o d) m) (transformVec o m)) = (Line.make o d).moved m A ∧
    Plane.make (transformVec o m) (vsub (transformVec (vadd o d) m) (transformVec o m)) = (Plane.make o d).moved m A ∧
    Ray.make dbg (transformVec o m) (vsub (transformVec (vadd o d) m) (transformVec o m)) =
      (Ray.make dbg o d).map (Ray.moved m A) := by
  have e : vsub (transformVec (vadd o d) m) (transformVec o m) = A *ᵥ d := by
    rw [vsub_moved h]; congr 1; funext i; simp [vsub, vadd]
  refine ⟨?_, ?_, ?_⟩
  · simp only [Line.make, Line.moved, e, normalize_moved hA]
  · simp only [Plane.make, Plane.moved, e, normalize_moved hA]
  · simp only [Ray.make, e, length_moved hA, normalize_moved hA, geoAssert]
    split <;> rfl

/-- **C99** Every distance function returns the same for the images under a rigid motion. -/
theorem C99_distances [Tol ℝ] (h : Describes m A b) (hA : Orthogonal A) (p : Vec ℝ 3) (l : Line ℝ 3) (r : Ray ℝ 3) (e : Plane ℝ)
    (s : Sphere ℝ) (seg : Segment ℝ 3) :
    distVecLine (transformVec p m) (l.moved m A) = distVecLine p l ∧
    distRayVec (r.moved m A) (transformVec p m) = distRayVec r p ∧
    distPlaneVec (e.moved m A) (transformVec p m) = distPlaneVec e p ∧
    signedDistSphere (transformVec p m) (transformSphere s m) = signedDistSphere p s ∧
    distSphere (transformVec p m) (transformSphere s m) = distSphere p s ∧
    distSegmentVec (transformSegment seg m) (transformVec p m) = distSegmentVec seg p ∧
    distLineRay (l.moved m A) (r.moved m A) = distLineRay l r ∧
    distSegmentRay (transformSegment seg m) (r.moved m A) = distSegmentRay seg r := by
  refine ⟨?_, ?_, ?_, ?_, ?_, ?_, ?_, ?_⟩
  · simp only [distVecLine, Line.moved, vsub_moved h, rejection_moved hA, length_moved hA]
  · simp only [distRayVec, Ray.moved, vsub_moved h, rejection_moved hA, dot_moved hA]
    split <;> exact length_moved hA _
  · simp only [distPlaneVec, Plane.moved, vsub_moved h, dot_moved hA]
  · simp only [signedDistSphere, transformSphere, vsub_moved h, length_moved hA]
  · simp only [distSphere, signedDistSphere, transformSphere, vsub_moved h, length_moved hA]
  · simp only [distSegmentVec, transformSegment, vsub_moved h, length_moved hA, dot_moved hA, point_moved h]
  · simp only [distLineRay, distVecLine, Line.moved, Ray.moved, closest_moved h hA, vsub_moved h, rejection_moved hA, length_moved hA,
      point_moved h]
  · have c : ∀ t, calcSegmentPoint (transformSegment seg m) t = transformVec (calcSegmentPoint seg t) m := fun t => by
      simp only [calcSegmentPoint, transformSegment, vsub_moved h, point_moved h]
      split <;> [rfl; split <;> rfl]
    have c' : ∀ t, calcRayPoint (r.moved m A) t = transformVec (calcRayPoint r t) m := fun t => by
      simp only [calcRayPoint, Ray.moved, point_moved h]
      split <;> rfl
    have f : ∀ t t', length (vsub (calcSegmentPoint (transformSegment seg m) t) (calcRayPoint (r.moved m A) t')) =
        length (vsub (calcSegmentPoint seg t) (calcRayPoint r t')) := fun t t' => by
      rw [c, c', vsub_moved h, length_moved hA]
    unfold distSegmentRay
    simp only [f]
    simp only [distVecLine, Line.make, transformSegment, Ray.moved, vsub_moved h, closest_moved h hA, dot_moved hA, length_moved hA,
      normalize_moved hA, rejection_moved hA]
    rfl

/-- **C99** The distance of two lines: the same for rotations and translations; a reflection changes the sign of the result for lines
that are not parallel. -/
theorem C99_lines [Tol ℝ] (h : Describes m A b) (hA : Orthogonal A) (dbg : Bool) (l l' : Line ℝ 3) :
    (A.det = 1 → distLineLine dbg (l.moved m A) (l'.moved m A) = distLineLine dbg l l') ∧
    (distLineLine dbg (l.moved m A) (l'.moved m A)).map (|·|) = (distLineLine dbg l l').map (|·|) := by
  have hdet : A.det = 1 ∨ A.det = -1 := by
    have := congrArg Matrix.det hA
    rw [det_mul, det_transpose, det_one] at this
    exact mul_self_eq_one_iff.1 this
  have key : distLineLine dbg (l.moved m A) (l'.moved m A) = (do
      geoAssert dbg (isEq (length l.direction) 1)
      geoAssert dbg (isEq (length l'.direction) 1)
      if isZero (length (cross l.direction l'.direction)) then return distVecLine l.origin l'
      else return A.det * dot (vsub l.origin l'.origin) (cross l.direction l'.direction) / length (cross l.direction l'.direction)) := by
    simp only [distLineLine, distVecLine, Line.moved, vsub_moved h, length_moved hA, cross_length_moved hA, rejection_moved hA, det_moved]
  rw [key]
  constructor
  · intro h1
    simp only [distLineLine, h1, one_mul]
  · unfold distLineLine
    simp only [geoAssert]
    split
    · rfl
    simp only [ok_bind]
    split
    · rfl
    simp only [ok_bind]
    split
    · rfl
    · show Except.ok _ = Except.ok _
      congr 1
      beta_reduce
      rw [abs_div, abs_div, abs_mul]
      rcases hdet with h1 | h1 <;> rw [h1] <;> simp

/-- **C100** Every intersection function of space returns the image of what it returns for the original shapes. -/
theorem C100_intersections [Tol ℝ] (h : Describes m A b) (hA : Orthogonal A) (eps : ℝ) (l l' : Line ℝ 3) (r : Ray ℝ 3) (e : Plane ℝ)
    (seg seg' : Segment ℝ 3) :
    intersectLine3 (l.moved m A) (l'.moved m A) eps = (intersectLine3 l l' eps).map (transformVec · m) ∧
    intersectPlaneLine (e.moved m A) (l.moved m A) eps = (intersectPlaneLine e l eps).map (transformVec · m) ∧
    intersectPlaneRay (e.moved m A) (r.moved m A) eps = (intersectPlaneRay e r eps).map (transformVec · m) ∧
    intersectPlaneSegment (e.moved m A) (transformSegment seg m) eps = (intersectPlaneSegment e seg eps).map (transformVec · m) ∧
    intersectSegment3 (transformSegment seg m) (transformSegment seg' m) eps = (intersectSegment3 seg seg' eps).map (transformVec · m) ∧
    intersectSegmentRay (transformSegment seg m) (r.moved m A) eps = (intersectSegmentRay seg r eps).map (transformVec · m) := by
  refine ⟨?_, ?_, ?_, ?_, ?_, ?_⟩
  · simp only [intersectLine3, Line.moved, closest_moved h hA, point_moved h, vsub_moved h, length_moved hA]
    split
    · rfl
    · split <;> rfl
  · simp only [intersectPlaneLine, Line.moved, Plane.moved, dot_moved hA, vsub_moved h, point_moved h]
    split <;> rfl
  · simp only [intersectPlaneRay, calcIntersectionParameter, Ray.moved, Plane.moved, dot_moved hA, vsub_moved h, point_moved h]
    split
    · rfl
    · split <;> rfl
  · simp only [intersectPlaneSegment, calcIntersectionParameter, transformSegment, Plane.moved, dot_moved hA, vsub_moved h, point_moved h]
    split
    · rfl
    · split <;> rfl
  · simp only [intersectSegment3, transformSegment, closest_moved h hA, vsub_moved h, point_moved h]
    split
    · rfl
    · split <;> rfl
  · simp only [intersectSegmentRay, transformSegment, Ray.moved, closest_moved h hA, vsub_moved h, point_moved h]
    split
    · rfl
    · split <;> rfl

/-- The image of the result of a sphere intersection. -/
noncomputable def SphereIntersection.moved (m : HMat ℝ) (r : SphereIntersection ℝ) : SphereIntersection ℝ :=
  ⟨r.first.map (transformVec · m), r.second.map (transformVec · m)⟩

/-- **C100** The same for spheres; both points keep their places. -/
theorem C100_sphere [Tol ℝ] (h : Describes m A b) (hA : Orthogonal A) (eps : ℝ) (s : Sphere ℝ) (l : Line ℝ 3) (r : Ray ℝ 3)
    (seg : Segment ℝ 3) :
    intersectSphereLine (transformSphere s m) (l.moved m A) eps = (intersectSphereLine s l eps).moved m ∧
    intersectSphereRay (transformSphere s m) (r.moved m A) eps = (intersectSphereRay s r eps).moved m ∧
    intersectSphereSegment (transformSphere s m) (transformSegment seg m) eps = (intersectSphereSegment s seg eps).moved m := by
  refine ⟨?_, ?_, ?_⟩
  · simp only [intersectSphereLine, transformSphere, Line.moved, dot_moved hA, vsub_moved h, point_moved h]
    split
    · rfl
    · split <;> rfl
  · simp only [intersectSphereRay, transformSphere, Ray.moved, dot_moved hA, vsub_moved h, point_moved h]
    split
    · simp only [SphereIntersection.moved]
      congr 1 <;> split <;> rfl
    · split
      · split <;> rfl
      · rfl
  · simp only [intersectSphereSegment, transformSphere, transformSegment, dot_moved hA, vsub_moved h, point_moved h]
    split
    · split_ifs <;> simp_all [SphereIntersection.moved]
    · split
      · split <;> rfl
      · rfl
end

section
variable {m : HMat ℝ} {A : Matrix (Fin 2) (Fin 2) ℝ} {b : Vec ℝ 2}

theorem transformVec2_eq (h : DescribesPlanar m A b) (v : Vec ℝ 2) : transformVec2 v m = affine A b v := by
  funext i
  have h0 := h.1 i 0
  have h1 := h.1 i 1
  have h2 := h.2 i
  simp only [transformVec2, toVec2, hmatVec, dot_eq, dotProduct, Fin.sum_univ_four, affine, Pi.add_apply, mulVec, Fin.sum_univ_two]
  simp only [toHvec, ← h0, ← h1, ← h2]
  simp

theorem vsub_moved2 (h : DescribesPlanar m A b) (p q : Vec ℝ 2) : vsub (transformVec2 p m) (transformVec2 q m) = A *ᵥ vsub p q := by
  rw [transformVec2_eq h, transformVec2_eq h, vsub_eq, vsub_eq, affine_sub]

theorem point_moved2 (h : DescribesPlanar m A b) (p d : Vec ℝ 2) (t : ℝ) :
    vadd (transformVec2 p m) (vscale (A *ᵥ d) t) = transformVec2 (vadd p (vscale d t)) m := by
  rw [transformVec2_eq h, transformVec2_eq h, vadd_eq, vadd_eq, vscale_eq, vscale_eq, affine, affine, mulVec_add, mulVec_smul]
  abel

theorem det2_moved (hA : A.det = 1) (u v : Vec ℝ 2) :
    (A *ᵥ u) 0 * (A *ᵥ v) 1 - (A *ᵥ v) 0 * (A *ᵥ u) 1 = u 0 * v 1 - v 0 * u 1 := by
  rw [det_fin_two] at hA
  simp only [mulVec, dotProduct, Fin.sum_univ_two]
  linear_combination (u 0 * v 1 - v 0 * u 1) * hA

theorem transformVec2_injective (h : DescribesPlanar m A b) (hA : A.det = 1) : Function.Injective (transformVec2 · m) := by
  intro p q hpq
  simp only [transformVec2_eq h, affine] at hpq
  have h1 : A *ᵥ (p - q) = 0 := by rw [mulVec_sub]; exact sub_eq_zero.2 (add_right_cancel hpq)
  have h2 := congrArg (A.adjugate *ᵥ ·) h1
  simp only [mulVec_mulVec, adjugate_mul, hA, one_smul, one_mulVec, mulVec_zero] at h2
  exact sub_eq_zero.1 h2

/-- **C100** In the plane: segments under any affine map of determinant one (rotations, translations and shears), assertion included. -/
theorem C100_planar [Tol ℝ] (h : DescribesPlanar m A b) (hA : A.det = 1) (eps : ℝ) (dbg : Bool) (s s' : Segment ℝ 2) :
    intersectSegment2 dbg ⟨transformVec2 s.source m, transformVec2 s.target m⟩ ⟨transformVec2 s'.source m, transformVec2 s'.target m⟩ eps =
      (intersectSegment2 dbg s s' eps).map (Option.map (transformVec2 · m)) := by
  have e1 : ∀ u v : Vec ℝ 2, (A *ᵥ u) 0 * (A *ᵥ v) 1 - (A *ᵥ u) 1 * (A *ᵥ v) 0 = u 0 * v 1 - u 1 * v 0 := fun u v => by
    have := det2_moved hA u v; linarith
  have e2 : ∀ u v : Vec ℝ 2, (A *ᵥ u) 0 * -(A *ᵥ v) 1 - (A *ᵥ u) 1 * -(A *ᵥ v) 0 = u 0 * -v 1 - u 1 * -v 0 := fun u v => by
    have := det2_moved hA u v; linarith
  have e3 : ∀ p q : Vec ℝ 2, (decide (transformVec2 p m 0 = transformVec2 q m 0) && decide (transformVec2 p m 1 = transformVec2 q m 1)) =
      (decide (p 0 = q 0) && decide (p 1 = q 1)) := fun p q => by
    have k : ∀ p q : Vec ℝ 2, (p 0 = q 0 ∧ p 1 = q 1) ↔ p = q := fun p q => by
      constructor
      · rintro ⟨h1, h2⟩; funext i; fin_cases i <;> assumption
      · rintro rfl; exact ⟨rfl, rfl⟩
    rw [← Bool.decide_and, ← Bool.decide_and, decide_eq_decide, k, k]
    exact (transformVec2_injective h hA).eq_iff
  simp only [intersectSegment2, vsub_moved2 h, det2_moved hA, e1, e2, point_moved2 h, e3]
  split
  · rfl
  split
  · rfl
  simp only [geoAssert]
  split <;> rfl

/-- **C100** In the plane: lines under rotations and translations. -/
theorem C100_lines [Tol ℝ] (h : DescribesPlanar m A b) (hA : A.det = 1) (eps : ℝ) (l l' : Line ℝ 2) :
    intersectLine2 ⟨transformVec2 l.origin m, A *ᵥ l.direction⟩ ⟨transformVec2 l'.origin m, A *ᵥ l'.direction⟩ eps =
      (intersectLine2 l l' eps).map (transformVec2 · m) := by
  have e1 : ∀ u v : Vec ℝ 2, (A *ᵥ u) 0 * (A *ᵥ v) 1 - (A *ᵥ u) 1 * (A *ᵥ v) 0 = u 0 * v 1 - u 1 * v 0 := fun u v => by
    have := det2_moved hA u v; linarith
  simp only [intersectLine2, vsub_moved2 h, det2_moved hA, e1, point_moved2 h]
  split <;> rfl
end

section Examples
attribute [local instance] realTol realTol_lawful

/-- A plane and a segment, turned by 90° and shifted. -/
example (e : Plane ℝ) (seg : Segment ℝ 3) :
    intersectPlaneSegment (e.moved exRot !![0, -1, 0; 1, 0, 0; 0, 0, 1]) (transformSegment seg exRot) Tol.eps
      = (intersectPlaneSegment e seg Tol.eps).map (transformVec · exRot) :=
  (C100_intersections exRot_describes exRot_orthogonal Tol.eps ⟨0, 0⟩ ⟨0, 0⟩ ⟨0, 0⟩ e seg seg).2.2.2.1

example : distSegmentVec (transformSegment ⟨![1, 2, 3], ![4, 6, 3]⟩ exRot) (transformVec ![0, 0, 7] exRot)
    = distSegmentVec (⟨![1, 2, 3], ![4, 6, 3]⟩ : Segment ℝ 3) ![0, 0, 7] :=
  (C99_distances exRot_describes exRot_orthogonal ![0, 0, 7] ⟨0, 0⟩ ⟨0, 0⟩ ⟨0, 0⟩ ⟨0, 0⟩ _).2.2.2.2.2.1

example : distLineLine true ((⟨![0, 0, 1], ![1, 0, 0]⟩ : Line ℝ 3).moved exRot !![0, -1, 0; 1, 0, 0; 0, 0, 1])
      ((⟨![0, 0, 3], ![0, 1, 0]⟩ : Line ℝ 3).moved exRot !![0, -1, 0; 1, 0, 0; 0, 0, 1])
    = distLineLine true ⟨![0, 0, 1], ![1, 0, 0]⟩ ⟨![0, 0, 3], ![0, 1, 0]⟩ :=
  (C99_lines exRot_describes exRot_orthogonal true _ _).1 (by simp [det_fin_three])

/-- A shear. -/
example (s s' : Segment ℝ 2) : intersectSegment2 true ⟨transformVec2 s.source ![![1, 2, 0, 3], ![0, 1, 0, 4], ![0, 0, 1, 5], ![0, 0, 0, 1]],
      transformVec2 s.target ![![1, 2, 0, 3], ![0, 1, 0, 4], ![0, 0, 1, 5], ![0, 0, 0, 1]]⟩
      ⟨transformVec2 s'.source ![![1, 2, 0, 3], ![0, 1, 0, 4], ![0, 0, 1, 5], ![0, 0, 0, 1]],
      transformVec2 s'.target ![![1, 2, 0, 3], ![0, 1, 0, 4], ![0, 0, 1, 5], ![0, 0, 0, 1]]⟩ Tol.eps
    = (intersectSegment2 true s s' Tol.eps).map
      (Option.map (transformVec2 · ![![1, 2, 0, 3], ![0, 1, 0, 4], ![0, 0, 1, 5], ![0, 0, 0, 1]])) :=
  C100_planar (A := !![1, 2; 0, 1]) (b := ![3, 4])
    ⟨by intro i j; fin_cases i <;> fin_cases j <;> rfl, by intro i; fin_cases i <;> rfl⟩ (by simp [det_fin_two]) _ _ _ _
/-- Lines that are made of moved points, and a sphere that is moved with a line. -/
example : Line.make (transformVec ![1, 2, 3] exRot) (vsub (transformVec (vadd ![1, 2, 3] ![0, 3, 4]) exRot) (transformVec ![1, 2, 3] exRot)) =
    (Line.make (![1, 2, 3] : Vec ℝ 3) ![0, 3, 4]).moved exRot !![0, -1, 0; 1, 0, 0; 0, 0, 1] :=
  (C99_make exRot_describes exRot_orthogonal true _ _).1
example (l : Line ℝ 3) : intersectSphereLine (transformSphere ⟨![1, 2, 3], 4⟩ exRot) (l.moved exRot !![0, -1, 0; 1, 0, 0; 0, 0, 1]) Tol.eps =
    (intersectSphereLine ⟨![1, 2, 3], 4⟩ l Tol.eps).moved exRot :=
  (C100_sphere exRot_describes exRot_orthogonal Tol.eps _ l ⟨0, 0⟩ ⟨0, 0⟩).1
example : intersectLine2 ⟨transformVec2 (![1, 5] : Vec ℝ 2) ![![1, 2, 0, 3], ![0, 1, 0, 4], ![0, 0, 1, 5], ![0, 0, 0, 1]], !![1, 2; 0, 1] *ᵥ ![1, 0]⟩
      ⟨transformVec2 (![2, 7] : Vec ℝ 2) ![![1, 2, 0, 3], ![0, 1, 0, 4], ![0, 0, 1, 5], ![0, 0, 0, 1]], !![1, 2; 0, 1] *ᵥ ![0, 1]⟩ Tol.eps =
    (intersectLine2 (⟨![1, 5], ![1, 0]⟩ : Line ℝ 2) ⟨![2, 7], ![0, 1]⟩ Tol.eps).map
      (transformVec2 · ![![1, 2, 0, 3], ![0, 1, 0, 4], ![0, 0, 1, 5], ![0, 0, 0, 1]]) :=
  C100_lines (A := !![1, 2; 0, 1]) (b := ![3, 4])
    ⟨by intro i j; fin_cases i <;> fin_cases j <;> rfl, by intro i; fin_cases i <;> rfl⟩ (by simp [det_fin_two]) _ ⟨![1, 5], ![1, 0]⟩ ⟨![2, 7], ![0, 1]⟩
end Examples
end Verif
